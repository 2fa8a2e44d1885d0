import Verif.Model.RandomSigma
import Verif.Props.SigmaPlot
import Verif.Props.PlotSpace
import Verif.Props.PlotData

/-! C124: the n-sigma panel in the figures of a randomness analysis. -/

namespace Verif.Props
open Verif.Py Verif.Text Verif.Rand Verif.Misc Verif.Cratercount Verif.SigmaPlot Verif.PlotSpace Verif.RandomSigma

noncomputable section

theorem sigmaPanel_ok {m : List Char} {stats : List (List Char × Stat)} {p : RandomSigma.Panel} (h : sigmaPanel m stats = .ok p) :
    ∃ x y, stats.mapM (fun r => centre r.1) = .ok x ∧ stats.mapM (fun r => height m r.2) = .ok y ∧ extent x = .ok p.xlim ∧
      m ∈ measureNames ∧ binTicks p.xlim.1 p.xlim.2 = .ok (p.ticks, p.minor) ∧ p.points = x.zip y ∧
      p.bands = [(nSigmaScaling (-3), nSigmaScaling 3), (nSigmaScaling (-2), nSigmaScaling 2), (nSigmaScaling (-1), nSigmaScaling 1)] ∧
      p.captions = [(nSigmaScaling (-6), "clustered".toList), (nSigmaScaling 7, "separated".toList)] ∧
      p.ylim = (nSigmaScaling (-3), nSigmaScaling 3) := by
  unfold sigmaPanel at h
  obtain ⟨x, hx, h⟩ := except_bind_eq_ok h
  obtain ⟨y, hy, h⟩ := except_bind_eq_ok h
  obtain ⟨xr, hxr, h⟩ := except_bind_eq_ok h
  split at h
  · next hm =>
    obtain ⟨⟨ticks, minor⟩, ht, h⟩ := except_bind_eq_ok h
    injection h with h
    subst h
    exact ⟨x, y, hx, hy, hxr, hm, ht, rfl, rfl, rfl, rfl⟩
  · cases h

theorem mapM_each {ε α β : Type} {f : α → Except ε β} {l : List α} {r : List β} (h : l.mapM f = .ok r) :
    r.length = l.length ∧ ∀ (i : ℕ) a, l[i]? = some a → ∃ b, r[i]? = some b ∧ f a = .ok b := by
  induction l generalizing r with
  | nil =>
    rw [List.mapM_nil] at h
    injection h with h
    subst h
    exact ⟨rfl, by simp⟩
  | cons a l ih =>
    rw [List.mapM_cons] at h
    obtain ⟨b, hb, h⟩ := except_bind_eq_ok h
    obtain ⟨bs, hbs, h⟩ := except_bind_eq_ok h
    injection h with h
    subst h
    obtain ⟨i1, i2⟩ := ih hbs
    refine ⟨by simp [i1], ?_⟩
    intro i c hc
    cases i with
    | zero =>
      simp only [List.getElem?_cons_zero, Option.some.injEq] at hc
      subst hc
      exact ⟨b, rfl, hb⟩
    | succ j => exact i2 j c (by simpa using hc)

theorem centre_ok {b : List Char} {x : ℝ} (h : centre b = .ok x) :
    ∃ q : ℚ, decVal b = some q ∧ x = ((q : ℝ) + 0.25) * log10 2 := by
  unfold centre markerX tfloat at h
  dsimp only at h
  cases hq : decVal b with
  | none => rw [hq] at h; cases h
  | some q =>
    rw [hq, except_ok_bind] at h
    injection h with h
    refine ⟨q, rfl, ?_⟩
    rw [← h, Real.logb_rpow_eq_mul_logb_of_pos (by norm_num)]
    rfl

theorem extent_ok {x : List ℝ} {r : ℝ × ℝ} (h : extent x = .ok r) :
    (∀ a ∈ x, r.1 ≤ a - 0.251 * log10 2 ∧ a + 0.251 * log10 2 ≤ r.2) ∧ (∃ a ∈ x, r.1 = a - 0.251 * log10 2) ∧
      ∃ a ∈ x, r.2 = a + 0.251 * log10 2 := by
  have e : Real.logb 10 ((2 : ℝ) ^ (0.251 : ℝ)) = 0.251 * log10 2 := Real.logb_rpow_eq_mul_logb_of_pos (by norm_num)
  unfold extent at h
  cases x with
  | nil => cases h
  | cons a l =>
    injection h with h
    subst h
    obtain ⟨h1, h2⟩ := foldl_min_sigma a l
    obtain ⟨h3, h4⟩ := foldl_max_sigma a l
    dsimp only
    rw [e]
    exact ⟨fun b hb => ⟨by linarith [h2 b hb], by linarith [h4 b hb]⟩, ⟨_, h1, rfl⟩, ⟨_, h3, rfl⟩⟩

theorem height_ok {m : List Char} {s : Stat} {y : ℝ} (h : height m s = .ok y) :
    s.sd ≠ 0 ∧ y = (if m = "sdaa".toList then -nSigmaScaling ((s.m0 - s.mn) / s.sd) else nSigmaScaling ((s.m0 - s.mn) / s.sd)) := by
  unfold height at h
  by_cases h0 : s.sd = 0
  · rw [if_pos h0] at h; cases h
  · rw [if_neg h0] at h
    injection h with h
    exact ⟨h0, h.symm⟩

/-- **C124: the points.**  The panel has one point for every bin, in their order, over the logarithmic middle of the bin, and the bin from
`2^q` to `2^(q+1/2)` lies within the axis. -/
theorem C124_points (m : List Char) (stats : List (List Char × Stat)) (p : RandomSigma.Panel) (h : sigmaPanel m stats = .ok p) :
    p.points.length = stats.length ∧ ∀ (i : ℕ) b s, stats[i]? = some (b, s) → ∃ x y, ∃ q : ℚ, p.points[i]? = some (x, y) ∧ decVal b = some q ∧
      (10 : ℝ) ^ x = Real.sqrt ((2 : ℝ) ^ (q : ℝ) * (2 : ℝ) ^ ((q : ℝ) + 1 / 2)) ∧
      (10 : ℝ) ^ p.xlim.1 < (2 : ℝ) ^ (q : ℝ) ∧ (2 : ℝ) ^ ((q : ℝ) + 1 / 2) < (10 : ℝ) ^ p.xlim.2 := by
  obtain ⟨x, y, hx, hy, hext, _, _, hp, _⟩ := sigmaPanel_ok h
  obtain ⟨lx, gx⟩ := mapM_each hx
  obtain ⟨ly, gy⟩ := mapM_each hy
  have h2 := log10_two_pos
  have hpow : ∀ z : ℝ, (2 : ℝ) ^ z = (10 : ℝ) ^ (z * log10 2) := by
    intro z
    rw [mul_comm, Real.rpow_mul (by norm_num), pow10_log10 (by norm_num)]
  refine ⟨by rw [hp, List.length_zip, lx, ly, min_self], ?_⟩
  intro i b s hs
  obtain ⟨a, ha, hca⟩ := gx i _ hs
  obtain ⟨v, hv, hcv⟩ := gy i _ hs
  obtain ⟨q, hq, rfl⟩ := centre_ok hca
  obtain ⟨e1, e2⟩ := (extent_ok hext).1 _ (List.mem_of_getElem? ha)
  refine ⟨_, v, q, by rw [hp]; exact List.getElem?_zip_eq_some.2 ⟨ha, hv⟩, hq, ?_, ?_, ?_⟩
  · rw [← Real.rpow_add (by norm_num), Real.sqrt_eq_rpow, ← Real.rpow_mul (by norm_num), hpow]
    congr 2
    ring
  · rw [hpow]
    apply Real.rpow_lt_rpow_of_exponent_lt (by norm_num)
    nlinarith
  · rw [hpow]
    apply Real.rpow_lt_rpow_of_exponent_lt (by norm_num)
    nlinarith

/-- **C124: heights.**  A point lies above the middle if the craters are more separated than those of the average trial, and below if they
are more clustered: for `m2cnd` the larger values are separated, for `sdaa` the smaller ones.  For 1, 2 and 3 there is a band in which
exactly those points lie whose value is no more than so many standard deviations from the average. -/
theorem C124_heights (m : List Char) (stats : List (List Char × Stat)) (p : RandomSigma.Panel) (h : sigmaPanel m stats = .ok p) (i : ℕ)
    (b : List Char) (s : Stat) (hs : stats[i]? = some (b, s)) (hsd : 0 ≤ s.sd) (x y : ℝ) (hxy : p.points[i]? = some (x, y)) :
    (0 < y ↔ if m = "sdaa".toList then s.m0 < s.mn else s.mn < s.m0) ∧ (y < 0 ↔ if m = "sdaa".toList then s.mn < s.m0 else s.m0 < s.mn) ∧
    ∀ (j : ℕ) k, [3, 2, 1][j]? = some (k : ℝ) → ∃ lo hi, p.bands[j]? = some (lo, hi) ∧ (lo ≤ y ∧ y ≤ hi ↔ |s.m0 - s.mn| ≤ k * s.sd) := by
  obtain ⟨xs, ys, hx, hy, _, _, _, hp, hb, _⟩ := sigmaPanel_ok h
  obtain ⟨v, hv, hcv⟩ := (mapM_each hy).2 i _ hs
  rw [hp] at hxy
  have := (List.getElem?_zip_eq_some.1 hxy).2
  rw [hv] at this
  injection this with this
  subst this
  obtain ⟨h0, hyv⟩ := height_ok hcv
  dsimp only at h0 hyv
  have hpos : 0 < s.sd := lt_of_le_of_ne hsd (Ne.symm h0)
  have hmono := C64_n_sigma.2.1
  have hz := C64_n_sigma.2.2.1
  have hneg := C64_n_sigma.1
  set t := (s.m0 - s.mn) / s.sd with ht
  have t1 : 0 < t ↔ s.mn < s.m0 := by rw [ht, div_pos_iff_of_pos_right hpos, sub_pos]
  have t2 : t < 0 ↔ s.m0 < s.mn := by rw [ht, div_lt_iff₀ hpos, zero_mul, sub_lt_zero]
  have p1 : 0 < nSigmaScaling t ↔ s.mn < s.m0 := by rw [← t1, ← hz, hmono.lt_iff_lt, hz]
  have p2 : nSigmaScaling t < 0 ↔ s.m0 < s.mn := by rw [← t2, ← hz, hmono.lt_iff_lt, hz]
  have t3 : ∀ k, (-k ≤ t ∧ t ≤ k) ↔ |s.m0 - s.mn| ≤ k * s.sd := by
    intro k
    rw [ht, le_div_iff₀ hpos, div_le_iff₀ hpos, abs_le, neg_mul]
  have p3 : ∀ k, (nSigmaScaling (-k) ≤ v ∧ v ≤ nSigmaScaling k) ↔ |s.m0 - s.mn| ≤ k * s.sd := by
    intro k
    rw [← t3 k, hyv]
    split
    · rw [← hneg, hmono.le_iff_le, hmono.le_iff_le]
      constructor <;> rintro ⟨a, b⟩ <;> constructor <;> linarith
    · rw [hmono.le_iff_le, hmono.le_iff_le]
  refine ⟨?_, ?_, ?_⟩
  · rw [hyv]
    split
    · rw [neg_pos, p2]
    · rw [p1]
  · rw [hyv]
    split
    · rw [neg_lt_zero, p1]
    · rw [p2]
  · intro j k hk
    rw [hb]
    match j, hk with
    | 0, hk => injection hk with hk; subst hk; exact ⟨_, _, rfl, p3 3⟩
    | 1, hk => injection hk with hk; subst hk; exact ⟨_, _, rfl, p3 2⟩
    | 2, hk => injection hk with hk; subst hk; exact ⟨_, _, rfl, p3 1⟩

/-- the two captions are on the right sides, beyond the bands -/
theorem C124_captions (m : List Char) (stats : List (List Char × Stat)) (p : RandomSigma.Panel) (h : sigmaPanel m stats = .ok p) :
    ∃ lo hi, p.captions = [(lo, "clustered".toList), (hi, "separated".toList)] ∧ lo < p.ylim.1 ∧ p.ylim.2 < hi ∧
      ∀ b ∈ p.bands, p.ylim.1 ≤ b.1 ∧ b.1 < 0 ∧ 0 < b.2 ∧ b.2 ≤ p.ylim.2 := by
  obtain ⟨_, _, _, _, _, _, _, _, hb, hc, hy⟩ := sigmaPanel_ok h
  have hmono := C64_n_sigma.2.1
  have hz := C64_n_sigma.2.2.1
  rw [hy, hb]
  refine ⟨_, _, hc, hmono (by norm_num), hmono (by norm_num), ?_⟩
  have hn : ∀ v, v < 0 → nSigmaScaling v < 0 := fun v hv => by rw [← hz]; exact hmono hv
  have hp : ∀ v, 0 < v → 0 < nSigmaScaling v := fun v hv => by rw [← hz]; exact hmono hv
  intro b hb
  simp only [List.mem_cons, List.not_mem_nil, or_false] at hb
  rcases hb with rfl | rfl | rfl
  · exact ⟨le_rfl, hn _ (by norm_num), hp _ (by norm_num), le_rfl⟩
  · exact ⟨hmono.monotone (by norm_num), hn _ (by norm_num), hp _ (by norm_num), hmono.monotone (by norm_num)⟩
  · exact ⟨hmono.monotone (by norm_num), hn _ (by norm_num), hp _ (by norm_num), hmono.monotone (by norm_num)⟩

/-! ### ticks -/

theorem hartmann_two {x0 x1 : ℝ} {r : List ((ℤ × ℝ) × List Char) × ℝ} (h : hartmannBins x0 x1 = .ok r) :
    ∃ k : ℤ, (-10 ≤ k ∧ k + 1 ≤ 10) ∧ x0 ≤ log10 ((2 : ℝ) ^ k) ∧ log10 ((2 : ℝ) ^ (k + 1)) ≤ x1 := by
  have hpos := log10_two_pos
  rw [hartmannBins, zip_twoTicks] at h
  revert h
  cases hF : twoTicks.filter (fun t => decide (x0 ≤ t.1.2 ∧ t.1.2 ≤ x1)) with
  | nil => intro h; cases h
  | cons t0 F =>
    cases F with
    | nil => intro h; cases h
    | cons t1 l =>
      intro _
      have hs : (twoTicks.filter (fun t => decide (x0 ≤ t.1.2 ∧ t.1.2 ≤ x1))).Pairwise (fun a b => a.1.1 < b.1.1) := by
        apply List.Pairwise.filter
        rw [twoTicks, List.pairwise_map]
        exact List.pairwise_lt_range.imp (by intro a b h; show (_ : ℤ) < _; simpa using h)
      rw [hF] at hs
      have hlt : t0.1.1 < t1.1.1 := (List.pairwise_cons.1 hs).1 t1 (by simp)
      obtain ⟨a0, b0⟩ := List.mem_filter.1 (show t0 ∈ twoTicks.filter (fun t => decide (x0 ≤ t.1.2 ∧ t.1.2 ≤ x1)) by rw [hF]; simp)
      obtain ⟨a1, b1⟩ := List.mem_filter.1 (show t1 ∈ twoTicks.filter (fun t => decide (x0 ≤ t.1.2 ∧ t.1.2 ≤ x1)) by rw [hF]; simp)
      have b0 : x0 ≤ t0.1.2 ∧ t0.1.2 ≤ x1 := by simpa using b0
      have b1 : x0 ≤ t1.1.2 ∧ t1.1.2 ≤ x1 := by simpa using b1
      obtain ⟨p1, p2, p3, _⟩ := mem_twoTicks a0
      obtain ⟨q1, q2, q3, _⟩ := mem_twoTicks a1
      refine ⟨t0.1.1, ⟨p1, by omega⟩, p3 ▸ b0.1, ?_⟩
      have := b1.2
      rw [q3, log10_two_pow] at this
      rw [log10_two_pow]
      have h3 : ((t0.1.1 + 1 : ℤ) : ℝ) ≤ t1.1.1 := by exact_mod_cast hlt
      have := mul_le_mul_of_nonneg_right h3 hpos.le
      linarith

/-- **C124: the grid.**  The ticks and minor ticks are the limits of the root-2 bins: powers of the root of two, and all of them that are in
the axis and between 1 m and 1024 km. -/
theorem C124_grid (m : List Char) (stats : List (List Char × Stat)) (p : RandomSigma.Panel) (h : sigmaPanel m stats = .ok p) :
    (∀ v ∈ p.ticks.map Prod.fst ++ p.minor, ∃ k : ℤ, (10 : ℝ) ^ v = (2 : ℝ) ^ ((k : ℝ) / 2) ∧ p.xlim.1 ≤ v ∧ v ≤ p.xlim.2) ∧
    ∀ k : ℤ, -20 ≤ k → k ≤ 20 → (10 : ℝ) ^ p.xlim.1 ≤ (2 : ℝ) ^ ((k : ℝ) / 2) → (2 : ℝ) ^ ((k : ℝ) / 2) ≤ (10 : ℝ) ^ p.xlim.2 →
      ∃ v ∈ p.ticks.map Prod.fst ++ p.minor, (10 : ℝ) ^ v = (2 : ℝ) ^ ((k : ℝ) / 2) := by
  obtain ⟨_, _, _, _, _, _, ht, _⟩ := sigmaPanel_ok h
  set x0 := p.xlim.1
  set x1 := p.xlim.2
  have hpos := log10_two_pos
  have hpow : ∀ z : ℝ, (2 : ℝ) ^ z = (10 : ℝ) ^ (z * log10 2) := by
    intro z
    rw [mul_comm, Real.rpow_mul (by norm_num), pow10_log10 (by norm_num)]
  unfold binTicks at ht
  obtain ⟨⟨ts, xm⟩, hh, ht⟩ := except_bind_eq_ok ht
  obtain ⟨k0, hk0, hk1, hk2⟩ := hartmann_two hh
  obtain ⟨t, l, minor, hh', hminor, hiff, hval, hsort, _⟩ := C93_root2_partial x0 x1 k0 hk0 hk1 hk2
  rw [hh] at hh'
  injection hh' with hh'
  injection hh' with e1 e2
  subst e1 e2
  dsimp only [List.map_cons] at ht
  injection ht with ht
  injection ht with e3 e4
  have hticks : ∀ v, v ∈ p.ticks.map Prod.fst ↔ ∃ j : ℤ, -10 ≤ j ∧ j ≤ 10 ∧ x0 ≤ v ∧ v ≤ x1 ∧ v = j * log10 2 := by
    intro v
    rw [← e3, List.map_map]
    constructor
    · intro hv
      obtain ⟨⟨⟨j, w⟩, s⟩, hu, hv⟩ := List.mem_map.1 hv
      dsimp only [Function.comp] at hv
      subst hv
      have hw := hval j w s hu
      obtain ⟨c1, c2, c3, c4⟩ := (hiff j).1 ⟨w, s, hu⟩
      rw [← hw] at c3 c4
      exact ⟨j, c1, c2, c3, c4, by rw [hw, log10_two_pow]⟩
    · rintro ⟨j, c1, c2, c3, c4, c5⟩
      obtain ⟨w, s, hu⟩ := (hiff j).2 ⟨c1, c2, by rw [log10_two_pow, ← c5]; exact c3, by rw [log10_two_pow, ← c5]; exact c4⟩
      refine List.mem_map.2 ⟨_, hu, ?_⟩
      show w = v
      rw [hval j w s hu, log10_two_pow, c5]
  have hfirst : ∃ j : ℤ, t.1.2 = j * log10 2 ∧ x0 ≤ t.1.2 ∧ ∀ i : ℤ, -10 ≤ i → i ≤ 10 → x0 ≤ i * log10 2 → i * log10 2 ≤ x1 → j ≤ i := by
    have hu : ((t.1.1, t.1.2), t.2) ∈ t :: l := by simp
    obtain ⟨c1, c2, c3, c4⟩ := (hiff t.1.1).1 ⟨_, _, hu⟩
    have hw := hval _ _ _ hu
    refine ⟨t.1.1, by rw [hw, log10_two_pow], by rw [hw]; exact c3, ?_⟩
    intro i d1 d2 d3 d4
    obtain ⟨w, s, hui⟩ := (hiff i).2 ⟨d1, d2, by rw [log10_two_pow]; exact d3, by rw [log10_two_pow]; exact d4⟩
    rcases List.mem_cons.1 hui with e | e
    · rw [← e]
    · exact ((List.pairwise_cons.1 hsort).1 _ e).le
  have hmin : ∀ v, v ∈ p.minor ↔ x0 ≤ v ∧ v ≤ x1 ∧ (v = t.1.2 - log10 2 / 2 ∨ ∃ w ∈ p.ticks.map Prod.fst, v = w + log10 2 / 2) := by
    intro v
    rw [← e4, List.mem_filter, decide_eq_true_iff, hminor]
    rw [← e3]
    simp only [List.map_cons, List.map_map, List.mem_cons, List.mem_map, Function.comp]
    constructor
    · rintro ⟨h1, h2, h3⟩
      refine ⟨h2, h3, ?_⟩
      rcases h1 with h1 | h1 | ⟨u, hu, h1⟩
      · left; rw [h1]; ring
      · right; exact ⟨_, .inl rfl, h1⟩
      · right; exact ⟨_, .inr ⟨u, hu, rfl⟩, h1.symm⟩
    · rintro ⟨h2, h3, h1⟩
      refine ⟨?_, h2, h3⟩
      rcases h1 with h1 | ⟨w, rfl | ⟨u, hu, rfl⟩, h1⟩
      · left; rw [h1]; ring
      · right; left; exact h1
      · right; right; exact ⟨u, hu, h1.symm⟩
  obtain ⟨j0, hj0, hj1, hj2⟩ := hfirst
  constructor
  · intro v hv
    rcases List.mem_append.1 hv with hv | hv
    · obtain ⟨j, _, _, c3, c4, c5⟩ := (hticks v).1 hv
      refine ⟨2 * j, ?_, c3, c4⟩
      rw [hpow, c5]
      push_cast
      congr 1
      ring
    · obtain ⟨c1, c2, c3⟩ := (hmin v).1 hv
      rcases c3 with c3 | ⟨w, hw, c3⟩
      · refine ⟨2 * j0 - 1, ?_, c1, c2⟩
        rw [hpow, c3, hj0]
        push_cast
        congr 1
        ring
      · obtain ⟨j, _, _, _, _, c5⟩ := (hticks w).1 hw
        refine ⟨2 * j + 1, ?_, c1, c2⟩
        rw [hpow, c3, c5]
        push_cast
        congr 1
        ring
  · intro k hl hu h1 h2
    rw [hpow] at h1 h2
    rw [Real.rpow_le_rpow_left_iff (by norm_num)] at h1 h2
    rcases Int.even_or_odd' k with ⟨j, rfl | rfl⟩
    · have e : ((2 * j : ℤ) : ℝ) / 2 = j := by push_cast; ring
      rw [e] at h1 h2
      refine ⟨j * log10 2, List.mem_append.2 (.inl ((hticks _).2 ⟨j, by omega, by omega, h1, h2, rfl⟩)), by rw [e, hpow]⟩
    · have e : ((2 * j + 1 : ℤ) : ℝ) / 2 = j + 1 / 2 := by push_cast; ring
      rw [e] at h1 h2
      refine ⟨(j + 1 / 2) * log10 2, List.mem_append.2 (.inr ((hmin _).2 ⟨h1, h2, ?_⟩)), by rw [e, hpow]⟩
      by_cases hj : x0 ≤ j * log10 2
      · right
        exact ⟨j * log10 2, (hticks _).2 ⟨j, by omega, by omega, hj, by nlinarith, rfl⟩, by ring⟩
      · left
        push Not at hj
        have hj01 : j + 1 ≤ j0 := by
          by_contra hc
          push Not at hc
          have : (j0 : ℝ) ≤ j := by exact_mod_cast (show j0 ≤ j by omega)
          have := mul_le_mul_of_nonneg_right this hpos.le
          rw [hj0] at hj1
          linarith
        have hk0j : j0 ≤ j + 1 := by
          apply hj2 (j + 1) (by omega) (by omega)
          · push_cast; nlinarith
          · rw [log10_two_pow] at hk1 hk2
            have : j < k0 := by
              by_contra hc
              push Not at hc
              have : (k0 : ℝ) ≤ j := by exact_mod_cast hc
              have := mul_le_mul_of_nonneg_right this hpos.le
              linarith
            have : ((j + 1 : ℤ) : ℝ) ≤ ((k0 + 1 : ℤ) : ℝ) := by exact_mod_cast (by omega)
            have := mul_le_mul_of_nonneg_right this hpos.le
            linarith
        have : j0 = j + 1 := by omega
        rw [hj0, this]
        push_cast
        ring

/-! ### when there is a panel -/

/-- **C124: there is a panel** for a known measure if the limits of the bins (with a thousandth of an octave) include two successive powers
of two between 1 m and 1024 km and no trials have a standard deviation of 0. -/
theorem C124_defined_partial (m : List Char) (hm : m = "m2cnd".toList ∨ m = "sdaa".toList) (stats : List (List Char × Stat))
    (hq : ∀ r ∈ stats, (∃ q, decVal r.1 = some q) ∧ r.2.sd ≠ 0) (b1 b2 : List Char × Stat) (h1 : b1 ∈ stats) (h2 : b2 ∈ stats) (q1 q2 : ℚ)
    (e1 : decVal b1.1 = some q1) (e2 : decVal b2.1 = some q2) (k : ℤ) (hk : -10 ≤ k ∧ k + 1 ≤ 10) (hk1 : q1 - 1 / 1000 ≤ k)
    (hk2 : (k : ℚ) + 1 ≤ q2 + 1 / 2 + 1 / 1000) : ∃ p, sigmaPanel m stats = .ok p := by
  have hpos := log10_two_pos
  have hc : ∀ b q, decVal b = some q → centre b = .ok (((q : ℝ) + 0.25) * log10 2) := by
    intro b q hb
    unfold centre markerX tfloat
    dsimp only
    rw [hb, except_ok_bind, Real.logb_rpow_eq_mul_logb_of_pos (by norm_num)]
    rfl
  obtain ⟨x, hx⟩ := mapM_succeeds (fun r : List Char × Stat => centre r.1) stats (by
    intro r hr
    obtain ⟨⟨q, hq⟩, _⟩ := hq r hr
    exact ⟨_, hc _ _ hq⟩)
  obtain ⟨y, hy⟩ := mapM_succeeds (fun r : List Char × Stat => height m r.2) stats (by
    intro r hr
    unfold height
    rw [if_neg (hq r hr).2]
    exact ⟨_, rfl⟩)
  obtain ⟨lx, gx⟩ := mapM_each hx
  have hin : ∀ b ∈ stats, ∀ q, decVal b.1 = some q → ((q : ℝ) + 0.25) * log10 2 ∈ x := by
    intro b hb q hbq
    obtain ⟨i, hi⟩ := List.mem_iff_getElem?.1 hb
    obtain ⟨a, ha, hca⟩ := gx i b hi
    rw [hc _ _ hbq] at hca
    injection hca with hca
    rw [hca]
    exact List.mem_of_getElem? ha
  have hext : ∃ r, extent x = .ok r := by
    cases x with
    | nil => exact absurd (hin b1 h1 q1 e1) (by simp)
    | cons a l => exact ⟨_, rfl⟩
  obtain ⟨r, hr⟩ := hext
  have f1 := ((extent_ok hr).1 _ (hin b1 h1 q1 e1)).1
  have f2 := ((extent_ok hr).1 _ (hin b2 h2 q2 e2)).2
  have g1 : (q1 : ℝ) - 1 / 1000 ≤ k := by
    have := (Rat.cast_le (K := ℝ)).2 hk1
    push_cast at this
    exact this
  have g2 : (k : ℝ) + 1 ≤ q2 + 1 / 2 + 1 / 1000 := by
    have := (Rat.cast_le (K := ℝ)).2 hk2
    push_cast at this
    exact this
  have a1 : r.1 ≤ log10 ((2 : ℝ) ^ k) := by
    rw [log10_two_pow]
    have := mul_le_mul_of_nonneg_right g1 hpos.le
    norm_num at *
    linarith
  have a2 : log10 ((2 : ℝ) ^ (k + 1)) ≤ r.2 := by
    rw [log10_two_pow]
    have := mul_le_mul_of_nonneg_right g2 hpos.le
    push_cast
    norm_num at *
    linarith
  obtain ⟨t, l, minor, hb, _⟩ := C93_root2_partial r.1 r.2 k hk a1 a2
  have hbt : ∃ z, binTicks r.1 r.2 = .ok z := by
    unfold binTicks
    rw [hb, except_ok_bind]
    exact ⟨_, rfl⟩
  obtain ⟨z, hz⟩ := hbt
  unfold sigmaPanel
  have hmm : m ∈ measureNames := by
    unfold measureNames
    rcases hm with rfl | rfl <;> simp
  rw [hx, except_ok_bind, hy, except_ok_bind, hr, except_ok_bind, if_pos hmm, hz, except_ok_bind]
  exact ⟨_, rfl⟩

/-- the root-2 bins from 500 m to 1.4 km -/
example : ∃ p, sigmaPanel "m2cnd".toList [("-1.0".toList, ⟨3, 2, 1⟩), ("-0.5".toList, ⟨2, 2, 1⟩), ("0.0".toList, ⟨1, 2, 2⟩)] = .ok p :=
  C124_defined_partial _ (.inl rfl) _ (by
    intro r hr
    simp only [List.mem_cons, List.not_mem_nil, or_false] at hr
    rcases hr with rfl | rfl | rfl
    · exact ⟨⟨-1, by decide +kernel⟩, by norm_num⟩
    · exact ⟨⟨-1 / 2, by decide +kernel⟩, by norm_num⟩
    · exact ⟨⟨0, by decide +kernel⟩, by norm_num⟩) _ _ List.mem_cons_self (List.mem_cons_of_mem _ (List.mem_cons_of_mem _ List.mem_cons_self))
    (-1) 0 (by decide +kernel) (by decide +kernel) (-1) (by norm_num) (by norm_num) (by norm_num)

/-- **C124 is false for narrow counts.**  If no two successive powers of two are in the axis, the program ends with an error.  This is so for
every analysis with craters in one root-2 bin, and for two neighbouring bins of which the first does not begin at a power of two, e.g. 0.7 to
1 km and 1 to 1.4 km. -/
theorem C124_narrow_counterexample (m : List Char) :
    (∀ b s, ∃ e, sigmaPanel m [(b, s)] = .error e) ∧
    ∀ b1 s1 b2 s2, ∀ k : ℤ, decVal b1 = some ((k : ℚ) + 1 / 2) → decVal b2 = some ((k : ℚ) + 1) →
      ∃ e, sigmaPanel m [(b1, s1), (b2, s2)] = .error e := by
  have hpos := log10_two_pos
  have key : ∀ stats, (∀ p, sigmaPanel m stats ≠ .ok p) → ∃ e, sigmaPanel m stats = .error e := by
    intro stats h
    cases hp : sigmaPanel m stats with
    | error e => exact ⟨e, rfl⟩
    | ok p => exact absurd hp (h p)
  have two : ∀ stats p, sigmaPanel m stats = .ok p → ∃ k : ℤ, p.xlim.1 ≤ k * log10 2 ∧ (k + 1) * log10 2 ≤ p.xlim.2 := by
    intro stats p hp
    obtain ⟨_, _, _, _, _, _, ht, _⟩ := sigmaPanel_ok hp
    unfold binTicks at ht
    obtain ⟨r, hh, _⟩ := except_bind_eq_ok ht
    obtain ⟨k, _, h1, h2⟩ := hartmann_two hh
    rw [log10_two_pow] at h1 h2
    exact ⟨k, h1, by push_cast at h2; exact h2⟩
  constructor
  · intro b s
    apply key
    intro p hp
    obtain ⟨k, h1, h2⟩ := two _ p hp
    obtain ⟨x, y, hx, _, hext, _⟩ := sigmaPanel_ok hp
    obtain ⟨lx, gx⟩ := mapM_each hx
    obtain ⟨a, ha, _⟩ := gx 0 _ rfl
    have hxs : x = [a] := by
      match x, lx, ha with
      | [c], _, ha => injection ha with ha; rw [ha]
    subst hxs
    obtain ⟨_, ⟨c, hc, e1⟩, ⟨d, hd, e2⟩⟩ := extent_ok hext
    rw [List.mem_singleton] at hc hd
    subst hc hd
    norm_num at *
    nlinarith
  · intro b1 s1 b2 s2 k hb1 hb2
    apply key
    intro p hp
    obtain ⟨j, h1, h2⟩ := two _ p hp
    obtain ⟨x, y, hx, _, hext, _⟩ := sigmaPanel_ok hp
    obtain ⟨lx, gx⟩ := mapM_each hx
    obtain ⟨a, ha, hca⟩ := gx 0 _ rfl
    obtain ⟨c, hc, hcc⟩ := gx 1 _ rfl
    obtain ⟨q, hq, rfl⟩ := centre_ok hca
    obtain ⟨q', hq', rfl⟩ := centre_ok hcc
    dsimp only at hq hq'
    rw [hb1] at hq
    rw [hb2] at hq'
    injection hq with hq
    injection hq' with hq'
    subst hq hq'
    have hxs : x = [(((k : ℚ) + 1 / 2 : ℚ) + 0.25 : ℝ) * log10 2, (((k : ℚ) + 1 : ℚ) + 0.25 : ℝ) * log10 2] := by
      match x, lx, ha, hc with
      | [u, v], _, ha, hc => 
        injection ha with ha
        have hc : some v = _ := hc
        injection hc with hc
        rw [ha, hc]
    obtain ⟨_, ⟨u, hu, e1⟩, ⟨v, hv, e2⟩⟩ := extent_ok hext
    rw [hxs] at hu hv
    simp only [List.mem_cons, List.not_mem_nil, or_false] at hu hv
    push_cast at hu hv
    have l1 : ((k : ℝ) + 0.499) * log10 2 ≤ p.xlim.1 := by
      rw [e1]
      rcases hu with rfl | rfl <;> norm_num <;> nlinarith
    have l2 : p.xlim.2 ≤ ((k : ℝ) + 1.501) * log10 2 := by
      rw [e2]
      rcases hv with rfl | rfl <;> norm_num <;> nlinarith
    have j1 : ((k : ℝ) + 0.499) ≤ j := le_of_mul_le_mul_right (l1.trans h1) hpos
    have j2 : (j : ℝ) + 1 ≤ (k : ℝ) + 1.501 := le_of_mul_le_mul_right (h2.trans l2) hpos
    have i1 : k < j := by
      have : (k : ℝ) < j := by norm_num at j1; linarith
      exact_mod_cast this
    have i2 : j < k + 1 := by
      have : (j : ℝ) < ((k + 1 : ℤ) : ℝ) := by push_cast; norm_num at j2; linarith
      exact_mod_cast this
    omega

end

end Verif.Props
