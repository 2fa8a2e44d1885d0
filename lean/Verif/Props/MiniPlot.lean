import Verif.Model.MiniPlot
import Verif.Props.Gaussian
import Verif.Lemmas.Likelihood
import Verif.Props.Ticks
import Verif.Props.Plotting
import Verif.Props.RandomnessFile
import Mathlib.Analysis.Real.Pi.Bounds

/-! C104-C106: the small plot of the age likelihood and the violins of sequence plots. -/

namespace Verif.Props

open Verif.Py Verif.Text Verif.Plotting Verif.Craterpdf Verif.Misc Verif.Chronology Verif.Production
open Verif.MiniPlot (ratOf ageLabel ageLabels AgeScale ageScale halfEdges boxLeft pySlice Violin violin)

/-! ### C104 -/

theorem ratOf_cast (q : ℚ) : ratOf (q : ℝ) = q := by
  have h : ∃ r : ℚ, (r : ℝ) = (q : ℝ) := ⟨q, rfl⟩
  rw [ratOf, dif_pos h]
  exact_mod_cast h.choose_spec

theorem rounded_id {d : ℕ} {m e : ℤ} {r : ℚ} (hm : |m| < 10 ^ d) (h : IsRounded d (m * (10 : ℚ) ^ e) r) : r = m * (10 : ℚ) ^ e := by
  have h1 := h.2.1 m e hm
  rw [sub_self, abs_zero] at h1
  have := abs_nonpos_iff.1 h1
  linarith

theorem decVal_short (m e : ℤ) (hm : |m| < 10 ^ 6) : decVal (gStr 5 (m * (10 : ℚ) ^ e)) = some (m * (10 : ℚ) ^ e) := by
  rw [decVal_gStr, rounded_id hm (isRounded_sci 5 _)]

/-- the 1-sigma percentiles lie between 0.3 % and 99.7 % -/
theorem tail_one : 0.003 ≤ Craterpdf.tail 1 := by
  have h1 : erf (((1 : ℕ) : ℝ) / Real.sqrt 2) ≤ 0.9 := by
    have hs : 0 < Real.sqrt 2 := by positivity
    have hx : 0 ≤ ((1 : ℕ) : ℝ) / Real.sqrt 2 := by positivity
    have hi : ∫ t in (0 : ℝ)..((1 : ℕ) : ℝ) / Real.sqrt 2, Real.exp (-t ^ 2) ≤ ∫ t in (0 : ℝ)..((1 : ℕ) : ℝ) / Real.sqrt 2, (1 : ℝ) := by
      apply intervalIntegral.integral_mono_on hx (gauss_continuous.intervalIntegrable _ _) (by simp)
      intro t _
      rw [Real.exp_le_one_iff]
      nlinarith [sq_nonneg t]
    rw [intervalIntegral.integral_const, smul_eq_mul, mul_one, sub_zero] at hi
    have hp : 0 < Real.sqrt Real.pi := Real.sqrt_pos.2 Real.pi_pos
    have h2 : erf (((1 : ℕ) : ℝ) / Real.sqrt 2) ≤ 2 / Real.sqrt Real.pi * (((1 : ℕ) : ℝ) / Real.sqrt 2) := by
      unfold erf
      gcongr
    refine h2.trans ?_
    rw [Nat.cast_one, div_mul_div_comm, mul_one, ← Real.sqrt_mul Real.pi_pos.le, div_le_iff₀ (Real.sqrt_pos.2 (by positivity))]
    have h3 : (2.4 : ℝ) ≤ Real.sqrt (Real.pi * 2) := by
      apply Real.le_sqrt_of_sq_le
      nlinarith [Real.pi_gt_three]
    linarith
  unfold Craterpdf.tail
  linarith

theorem percentiles_one : gaussianPercentiles 1 = [Craterpdf.tail 1, 0.5, 1 - Craterpdf.tail 1] := by
  rw [percentiles_succ]; rfl

/-- the largest of the ages looked up is that of the last percentile -/
theorem max_age (p : Pdf) (hmono : ∀ q q', q ≤ q' → p.t q ≤ p.t q') :
    maxOf (p.t 0.003) ((gaussianPercentiles 1 ++ [0.997]).map p.t) = p.t 0.997 := by
  have h1 := tail_one
  have h2 := (tail_bounds 1 le_rfl).2
  rw [percentiles_one]
  simp only [maxOf, List.cons_append, List.nil_append, List.map_cons, List.map_nil, List.foldl_cons, List.foldl_nil]
  apply max_eq_right
  refine max_le (max_le (max_le ?_ ?_) ?_) ?_ <;> apply hmono <;> linarith

theorem range_zero {m : ℝ} (hm : 0 < m) : Misc.range [0, m] false false = .pair 0 m := by
  simp [Misc.range, minOf, maxOf, hm.le]

/-- the tick positions of an axis from zero -/
theorem zero_ticks {m : ℝ} (hm : 0 < m) (maxTicks : ℕ) : ∃ (N : ℕ) (t : Ticks) (c : ℕ) (e : ℤ) (n : ℕ),
    (∀ fuel, N < fuel → ticks fuel [0, m] (some maxTicks) = some (.ok t)) ∧ (c = 1 ∨ c = 2 ∨ c = 5 ∨ c = 10) ∧
    1 ≤ n ∧ n + 1 ≤ maxTicksOf (some maxTicks) ∧ t.values = (List.range (n + 1)).map (fun i : ℕ => (i : ℝ) * (c * (10 : ℝ) ^ e)) ∧
    m ≤ n * (c * (10 : ℝ) ^ e) ∧ ((n : ℝ) - 1) * (c * (10 : ℝ) ^ e) < m := by
  obtain ⟨N, t, h1, ⟨c, e, hc, hstep⟩, z, n, n2, nm, hv, z1, z2, z3, z4⟩ :=
    C45_ticks_partial [0, m] 0 m (range_zero hm) hm (some maxTicks) (Or.inr (by simp))
  have hpos : 0 < t.step := by
    rw [hstep]
    rcases hc with rfl | rfl | rfl | rfl <;> positivity
  have hz : z = 0 := by
    have a : (z : ℝ) ≤ 0 := by nlinarith
    have b : (0 : ℝ) < z + 1 := by nlinarith
    have a' : z ≤ 0 := by exact_mod_cast a
    have b' : 0 < z + 1 := by exact_mod_cast b
    omega
  subst hz
  obtain ⟨k, rfl⟩ : ∃ k, n = k + 1 := ⟨n - 1, by omega⟩
  have e1 : ((k + 1 - 2 : ℕ) : ℝ) = k - 1 := by
    obtain ⟨j, rfl⟩ : ∃ j, k = j + 1 := ⟨k - 1, by omega⟩
    simp
  refine ⟨N, t, c, e, k, h1, hc, by omega, nm, ?_, ?_, ?_⟩
  · rw [hv, hstep]; simp
  · simpa [hstep] using z3
  · rw [e1] at z4; simpa [hstep] using z4

/-- Specification: the text is a decimal number, which in the unit of `size` Ga is the age `t`. -/
def ReadsAge (size : ℚ) (text : List Char) (t : ℝ) : Prop := ∃ v, decVal text = some v ∧ (v : ℝ) * size = t

theorem unit_dec {age size : ℚ} {name : List Char} (h : UnitFor age size name) : ∃ k : ℤ, size = (10 : ℚ) ^ k ∧ ' ' ∉ name := by
  rcases h with ⟨_, rfl, rfl⟩ | ⟨_, _, rfl, rfl⟩ | ⟨_, _, rfl, rfl⟩ | ⟨_, rfl, rfl⟩
  · exact ⟨0, by norm_num, by decide⟩
  · exact ⟨-3, by norm_num, by decide⟩
  · exact ⟨-6, by norm_num, by decide⟩
  · exact ⟨-9, by norm_num, by decide⟩

theorem no_space_g (q : ℚ) : ' ' ∉ gStr 5 q := by
  intro h
  have := (plain_g 5 q).2 _ h
  revert this
  decide

/-- a multiple of the step, in the unit -/
theorem decVal_tick (i c : ℕ) (e k : ℤ) (hb : i * c < 10 ^ 6) :
    decVal (gStr 5 ((i : ℚ) * (c * (10 : ℚ) ^ e) / (10 : ℚ) ^ k)) = some ((i : ℚ) * (c * (10 : ℚ) ^ e) / (10 : ℚ) ^ k) := by
  have h : (i : ℚ) * (c * (10 : ℚ) ^ e) / (10 : ℚ) ^ k = (((i * c : ℕ) : ℤ) : ℚ) * (10 : ℚ) ^ (e - k) := by
    rw [zpow_sub₀ (by norm_num)]
    push_cast
    ring
  rw [h]
  apply decVal_short
  rw [abs_of_nonneg (by positivity)]
  exact_mod_cast hb

theorem labels_ok (C : Classes) (c : ℕ) (e : ℤ) (n : ℕ) (hc : 1 ≤ c) (hn : 1 ≤ n) (hb : n * c < 10 ^ 6) :
    ∃ size name texts last, UnitFor ((n : ℚ) * (c * (10 : ℚ) ^ e)) size name ∧
      ageLabels C ((List.range (n + 1)).map (fun i : ℕ => (i : ℝ) * (c * (10 : ℝ) ^ e))) =
        .ok ((texts ++ ["      ".toList ++ last ++ ' ' :: name])) ∧
      texts.length = n ∧ (∀ i (h : i < texts.length), ReadsAge size texts[i] ((i : ℝ) * (c * (10 : ℝ) ^ e))) ∧
      ReadsAge size last ((n : ℝ) * (c * (10 : ℝ) ^ e)) := by
  set u : ℚ := (n : ℚ) * (c * (10 : ℚ) ^ e) with hu
  have hu0 : 0 < u := by
    have : (0 : ℚ) < n := by exact_mod_cast hn
    have : (0 : ℚ) < c := by exact_mod_cast hc
    positivity
  obtain ⟨size, name, h1, h2⟩ := ageUnit_none u
  obtain ⟨k, hk, hname⟩ := unit_dec h2
  have hs0 : 0 < size := by rw [hk]; positivity
  have hur : ((u : ℚ) : ℝ) = (n : ℝ) * (c * (10 : ℝ) ^ e) := by rw [hu]; push_cast; ring
  have htext : strAge C u 0 0 3 none true false false false = .ok (gStr 5 (u / size) ++ ' ' :: name) := by
    simp only [strAge, h1]
    rfl
  have hlab : ∀ i : ℕ, ageLabel ((u / size : ℚ) : ℝ) ((n : ℝ) * (c * (10 : ℝ) ^ e)) ((i : ℝ) * (c * (10 : ℝ) ^ e)) =
      gStr 5 ((i : ℚ) * (c * (10 : ℚ) ^ e) / size) := by
    intro i
    rw [ageLabel]
    congr 1
    rw [← hur, show ((u / size : ℚ) : ℝ) / ((u : ℚ) : ℝ) * ((i : ℝ) * (c * (10 : ℝ) ^ e)) =
      (((i : ℚ) * (c * (10 : ℚ) ^ e) / size : ℚ) : ℝ) from ?_, ratOf_cast]
    have : ((u : ℚ) : ℝ) ≠ 0 := by exact_mod_cast hu0.ne'
    have : ((size : ℚ) : ℝ) ≠ 0 := by exact_mod_cast hs0.ne'
    push_cast
    field_simp
  have hread : ∀ i : ℕ, i * c < 10 ^ 6 → ReadsAge size (gStr 5 ((i : ℚ) * (c * (10 : ℚ) ^ e) / size)) ((i : ℝ) * (c * (10 : ℝ) ^ e)) := by
    intro i hi
    refine ⟨_, by rw [hk]; exact decVal_tick i c e k hi, ?_⟩
    rw [← hk]
    have : ((size : ℚ) : ℝ) ≠ 0 := by exact_mod_cast hs0.ne'
    push_cast
    field_simp
  have hdec : decVal (gStr 5 (u / size)) = some (u / size) := by rw [hu, hk]; exact decVal_tick n c e k hb
  refine ⟨size, name, (List.range n).map (fun i : ℕ => gStr 5 ((i : ℚ) * (c * (10 : ℚ) ^ e) / size)), gStr 5 (u / size), h2, ?_, by simp, ?_,
    hread n hb⟩
  · have hlast : ((List.range (n + 1)).map (fun i : ℕ => (i : ℝ) * (c * (10 : ℝ) ^ e))).getLast? = some ((n : ℝ) * (c * (10 : ℝ) ^ e)) := by
      rw [List.range_succ, List.map_append]; simp
    have hdrop : ((List.range (n + 1)).map (fun i : ℕ => (i : ℝ) * (c * (10 : ℝ) ^ e))).dropLast =
        (List.range n).map (fun i : ℕ => (i : ℝ) * (c * (10 : ℝ) ^ e)) := by
      rw [List.range_succ, List.map_append]; simp
    have hne : (n : ℝ) * (c * (10 : ℝ) ^ e) ≠ 0 := by rw [← hur]; exact_mod_cast hu0.ne'
    rw [ageLabels, hlast, hdrop]
    dsimp only
    rw [show ratOf ((n : ℝ) * (c * (10 : ℝ) ^ e)) = u by rw [← hur, ratOf_cast], htext]
    show (match split ' ' (gStr 5 (u / size) ++ ' ' :: name) with
      | a :: u :: _ => _
      | _ => _) = _
    rw [split_append (no_space_g _), split_of_not_mem hname]
    dsimp only
    rw [hdec]
    dsimp only
    rw [if_neg hne, List.map_map, hlab n]
    congr 3
    funext i
    exact hlab i
  · intro i hi
    rw [List.getElem_map, List.getElem_range]
    apply hread
    have : i < n := by simpa using hi
    exact lt_of_le_of_lt (Nat.mul_le_mul_right c this.le) hb

/-- **C104, scale.** For every age likelihood with positive 99.7 % age the axis of the small plot is complete: its ticks start at 0, are
equally spaced, at most as many as allowed, and the last is the first to reach the 99.7 % age; every label is a number which, in the unit written
behind the last label, is exactly the age of its tick; and the unit is the largest of Ga, Ma, ka, a not above the last tick. -/
theorem C104_scale (C : Classes) (p : Pdf) (hmono : ∀ q q', q ≤ q' → p.t q ≤ p.t q') (hpos : 0 < p.t 0.997) (maxTicks : ℕ)
    (hmax : maxTicks ≤ 100000) :
    ∃ (N : ℕ) (s : AgeScale), (∀ fuel, N < fuel → ageScale fuel C p maxTicks = some (.ok s)) ∧
      ∃ (step : ℚ) (n : ℕ) (size : ℚ) (name : List Char) (texts : List (List Char)) (last : List Char),
        0 < step ∧ 1 ≤ n ∧ (2 ≤ maxTicks → n + 1 ≤ maxTicks) ∧ s.ticks = (List.range (n + 1)).map (fun i : ℕ => (i : ℝ) * step) ∧
        p.t 0.997 ≤ n * step ∧ ((n : ℝ) - 1) * step < p.t 0.997 ∧
        s.labels = texts ++ ["      ".toList ++ last ++ ' ' :: name] ∧ UnitFor (n * step) size name ∧ texts.length = n ∧
        (∀ i (h : i < texts.length), ReadsAge size texts[i] ((i : ℝ) * step)) ∧ ReadsAge size last ((n : ℝ) * step) := by
  obtain ⟨N, t, c, e, n, h1, hc, hn, hnm, hv, v1, v2⟩ := zero_ticks hpos maxTicks
  have hm : maxTicksOf (some maxTicks) ≤ max maxTicks 5 := by
    unfold maxTicksOf
    rcases maxTicks with _ | k <;> simp <;> omega
  have hm2 : 2 ≤ maxTicks → maxTicksOf (some maxTicks) = maxTicks := by
    intro h
    unfold maxTicksOf
    obtain ⟨k, rfl⟩ : ∃ k, maxTicks = k + 1 := ⟨maxTicks - 1, by omega⟩
    simp; omega
  have hb : n * c < 10 ^ 6 := by
    have : n < 100000 := by have := le_max_iff.1 (le_refl (max maxTicks 5)); omega
    rcases hc with rfl | rfl | rfl | rfl <;> omega
  obtain ⟨size, name, texts, last, l1, l2, l3, l4, l5⟩ := labels_ok C c e n (by omega) hn hb
  have hcast : (((c : ℚ) * (10 : ℚ) ^ e : ℚ) : ℝ) = (c : ℝ) * (10 : ℝ) ^ e := by push_cast; ring
  refine ⟨N, ⟨t.values, _⟩, ?_, (c : ℚ) * (10 : ℚ) ^ e, n, size, name, texts, last, ?_, hn, ?_, ?_, ?_, ?_, rfl, l1, l3, ?_, ?_⟩
  · intro fuel hf
    unfold ageScale
    dsimp only
    rw [max_age p hmono, h1 fuel hf]
    dsimp only
    rw [hv, l2]
    rfl
  · have : (0 : ℚ) < c := by rcases hc with rfl | rfl | rfl | rfl <;> norm_num
    positivity
  · intro h; rw [← hm2 h]; exact hnm
  · rw [hcast]; exact hv
  · rw [hcast]; exact v1
  · rw [hcast]; exact v2
  · rw [hcast]; exact l4
  · rw [hcast]; exact l5

/-- every age of a constructed likelihood is positive -/
theorem init_age_pos (pf : PFn) (c : Chron) (simpson : Simpson) (cc : Source) (lo hi : ℝ) (k : Option ℝ) (bcc : Bool) (n : ℕ)
    (p0 p1 p3 : ℝ) (hc : GoodChron c p0 p1 p3) (p : Pdf) (h : Craterpdf.init pf c simpson cc lo hi k none bcc n = .ok p) (q : ℝ) :
    0 < p.t q := by
  obtain ⟨c1, c2, c3, c4, c5, c6, _, _, _, _, c7, c8, _⟩ := C23_likelihood pf c simpson cc lo hi k bcc n p0 p1 p3 hc p h
  obtain ⟨a0, s, pm, ph, w, b⟩ := built h
  obtain ⟨hn, _⟩ := b.props hc
  refine lt_of_lt_of_le ?_ (interp_mem_range p.cdf p.ts c7 c5 (by omega) (by omega) q).1
  have hpos : ∀ t ∈ p.ts, 0 < t := by
    intro t ht
    rw [b.ts_eq] at ht
    obtain ⟨e, _, rfl⟩ := List.mem_map.1 ht
    obtain ⟨_, _, hts, hns⟩ := Built.tables hc
    obtain ⟨pp, _, _, _, _, h0, h1, h3⟩ := hc
    have hx : (0 : ℝ) < (10 : ℝ) ^ (a0 + e) := by positivity
    have hlen : (linspace (0 : ℝ) 5 1000).length = 1000 := by simp [linspace]
    have z : n1Coeff p0 p1 p3 0 = 0 := by simp [n1Coeff]
    have hst := Py.interp_strict ((linspace (0 : ℝ) 5 1000).map (n1Coeff p0 p1 p3)) (linspace (0 : ℝ) 5 1000) (n1s_sorted h0 h1 h3) ts_sorted
      (by simp) (by simp [hlen]) hx
      (by rw [List.getElem_map, ts_getElem]; norm_num [z])
      (by
        have hlt := n1_strictMono h0 h1 h3 (show (0 : ℝ) < (((List.map (n1Coeff p0 p1 p3) (linspace (0 : ℝ) 5 1000)).length - 1 : ℕ) : ℝ) * (5 / 999) by
          rw [List.length_map, hlen]; norm_num)
        rw [z] at hlt
        rw [List.getElem_map, ts_getElem]
        exact hlt)
    rw [hts, hns]
    refine lt_of_le_of_lt ?_ hst
    have := (interp_mem_range ((linspace (0 : ℝ) 5 1000).map (n1Coeff p0 p1 p3)) (linspace (0 : ℝ) 5 1000)
      ((n1s_sorted h0 h1 h3).imp (fun {a b} (h : a < b) => h.le)) (ts_sorted.imp (fun {a b} (h : a < b) => h.le)) (by simp) (by simp [hlen]) 0).1
    rw [ts_getElem] at this
    simpa using this
  exact hpos _ (List.getElem_mem _)

/-! ### C105 -/

theorem foldl_max_mini (l : List ℝ) : ∀ a : ℝ, a ≤ maxOf a l ∧ (∀ x ∈ l, x ≤ maxOf a l) ∧ (maxOf a l = a ∨ maxOf a l ∈ l) := by
  induction l with
  | nil => intro a; simp [maxOf]
  | cons b l ih =>
    intro a
    obtain ⟨i1, i2, i3⟩ := ih (max a b)
    have e : maxOf a (b :: l) = maxOf (max a b) l := rfl
    rw [e]
    refine ⟨(le_max_left a b).trans i1, ?_, ?_⟩
    · intro x hx
      rcases List.mem_cons.1 hx with rfl | hx
      · exact (le_max_right a _).trans i1
      · exact i2 x hx
    · rcases i3 with i3 | i3
      · rcases max_choice a b with hm | hm
        · exact Or.inl (i3.trans hm)
        · right; rw [i3, hm]; simp
      · exact Or.inr (List.mem_cons_of_mem _ i3)

/-- Specification: the sample at age `t` has a likelihood above half of the greatest. -/
def AboveHalf (p : Pdf) (t : ℝ) : Prop :=
  ∃ (i : ℕ) (v : ℝ), p.ts[i]? = some t ∧ p.pdf[i]? = some v ∧ ∃ m, (∀ x ∈ p.pdf, x ≤ m) ∧ m ∈ p.pdf ∧ m / 2 < v

theorem halfEdges_ok (p : Pdf) (hsort : p.ts.Pairwise (· ≤ ·)) (hlen : p.ts.length = p.pdf.length) (hex : ∃ x ∈ p.pdf, 0 < x) :
    ∃ a b, halfEdges p = .ok (a, b) ∧ IsLeast {t | AboveHalf p t} a ∧ IsGreatest {t | AboveHalf p t} b := by
  obtain ⟨x, hx, hx0⟩ := hex
  obtain ⟨v0, l, hp⟩ := List.exists_cons_of_ne_nil (List.ne_nil_of_mem hx)
  obtain ⟨m1, m2, m3⟩ := foldl_max_mini l v0
  set M := maxOf v0 l with hM
  have hMle : ∀ y ∈ p.pdf, y ≤ M := by
    intro y hy
    rw [hp] at hy
    rcases List.mem_cons.1 hy with rfl | hy
    · exact m1
    · exact m2 y hy
  have hMmem : M ∈ p.pdf := by
    rw [hp]
    rcases m3 with h | h
    · rw [h]; simp
    · exact List.mem_cons_of_mem _ h
  have hM0 : 0 < M := lt_of_lt_of_le hx0 (hMle x hx)
  have huniq : ∀ m, (∀ y ∈ p.pdf, y ≤ m) → m ∈ p.pdf → m = M := fun m h1 h2 => le_antisymm (hMle m h2) (h1 M hMmem)
  set L := ((List.zip p.ts p.pdf).filter (fun x => decide (M / 2 < x.2))).map Prod.fst with hL
  have hmem : ∀ t, t ∈ L ↔ AboveHalf p t := by
    intro t
    rw [hL, List.mem_map]
    constructor
    · rintro ⟨⟨t', v⟩, h, rfl⟩
      obtain ⟨h1, h2⟩ := List.mem_filter.1 h
      obtain ⟨i, hi, e⟩ := List.getElem_of_mem h1
      rw [List.length_zip] at hi
      rw [List.getElem_zip] at e
      refine ⟨i, v, ?_, ?_, M, hMle, hMmem, by simpa using h2⟩
      · rw [List.getElem?_eq_getElem (by omega)]; exact congrArg some (congrArg Prod.fst e)
      · rw [List.getElem?_eq_getElem (by omega)]; exact congrArg some (congrArg Prod.snd e)
    · rintro ⟨i, v, h1, h2, m, h3, h4, h5⟩
      rw [huniq m h3 h4] at h5
      obtain ⟨i1, e1⟩ := List.getElem?_eq_some_iff.1 h1
      obtain ⟨i2, e2⟩ := List.getElem?_eq_some_iff.1 h2
      refine ⟨(t, v), List.mem_filter.2 ⟨?_, by simpa using h5⟩, rfl⟩
      rw [List.mem_iff_getElem]
      exact ⟨i, by rw [List.length_zip]; omega, by rw [List.getElem_zip, e1, e2]⟩
  have hLs : L.Pairwise (· ≤ ·) := by
    have hz : (List.zip p.ts p.pdf).map Prod.fst = p.ts := List.map_fst_zip (by omega)
    have : L.Sublist p.ts := by
      rw [← hz]
      exact (List.filter_sublist).map _
    exact hsort.sublist this
  have hLne : L ≠ [] := by
    obtain ⟨i, hi, e⟩ := List.getElem_of_mem hMmem
    apply List.ne_nil_of_mem ((hmem (p.ts[i]'(by omega))).2 ⟨i, M, ?_, ?_, M, hMle, hMmem, by linarith⟩)
    · exact List.getElem?_eq_getElem (by omega)
    · rw [List.getElem?_eq_getElem hi, e]
  obtain ⟨e, es, hLe⟩ := List.exists_cons_of_ne_nil hLne
  refine ⟨e, (e :: es).getLast (List.cons_ne_nil e es), ?_, ⟨?_, ?_⟩, ⟨?_, ?_⟩⟩
  · unfold halfEdges
    rw [hp]
    dsimp only
    rw [← hp, ← hM, ← hL, hLe]
  · exact (hmem e).1 (by rw [hLe]; simp)
  · intro t ht
    have := (hmem t).2 ht
    rw [hLe] at this hLs
    rcases List.mem_cons.1 this with rfl | h
    · exact le_rfl
    · exact (List.pairwise_cons.1 hLs).1 t h
  · exact (hmem _).1 (by rw [hLe]; exact List.getLast_mem _)
  · intro t ht
    have := (hmem t).2 ht
    rw [hLe] at this hLs
    obtain ⟨i, hi, rfl⟩ := List.getElem_of_mem this
    rw [List.getLast_eq_getElem]
    rcases Nat.lt_or_ge i ((e :: es).length - 1) with h | h
    · exact (List.pairwise_iff_getElem.1 hLs) _ _ hi (by omega) h
    · have : i = (e :: es).length - 1 := by omega
      subst this; exact le_rfl

/-- **C105, gap.** For every constructed age likelihood and every anchor, text length and plot width: on the axis drawn (from 0 to the last
tick) the near edge of the peak - the sample above half of the maximum next to the text - always has the same distance from the end of the age text,
0.03 plus a tenth of the plot width; to the right of the text if the age is at the right, to the left otherwise. -/
theorem C105_gap (C : Classes) (pf : PFn) (c : Chron) (simpson : Simpson) (cc : Source) (lo hi : ℝ) (k : Option ℝ) (bcc : Bool) (n : ℕ)
    (p0 p1 p3 : ℝ) (hc : GoodChron c p0 p1 p3) (p : Pdf) (h : Craterpdf.init pf c simpson cc lo hi k none bcc n = .ok p)
    (x f w box : ℝ) :
    ∃ (N : ℕ) (s : AgeScale) (oL oR last a b : ℝ), (∀ fuel, N < fuel → ageScale fuel C p 3 = some (.ok s) ∧
        MiniPlot.offset fuel p true = some (.ok oL) ∧ MiniPlot.offset fuel p false = some (.ok oR)) ∧
      s.ticks.head? = some 0 ∧ s.ticks.getLast? = some last ∧ 0 < last ∧
      IsLeast {t | AboveHalf p t} a ∧ IsGreatest {t | AboveHalf p t} b ∧
      boxLeft false x f w box oR + a / last * box = x + f * w + (0.03 + 0.1 * box) ∧
      boxLeft true x f w box oL + b / last * box = x - f * w - (0.03 + 0.1 * box) := by
  obtain ⟨c1, c2, c3, c4, c5, c6, c7, c8, c9, _⟩ := C23_likelihood pf c simpson cc lo hi k bcc n p0 p1 p3 hc p h
  obtain ⟨_, hmono, _⟩ := C24_percentiles_ordered pf c simpson cc lo hi k bcc n p0 p1 p3 hc p h
  have hpos := init_age_pos pf c simpson cc lo hi k bcc n p0 p1 p3 hc p h 0.997
  have hex : ∃ y ∈ p.pdf, 0 < y := by
    by_contra hno
    push Not at hno
    have hz : ∀ z ∈ List.zipWith (· * ·) p.pdf p.dt, z = 0 := by
      intro z hz
      obtain ⟨i, hi, rfl⟩ := List.getElem_of_mem hz
      rw [List.getElem_zipWith, le_antisymm (hno _ (List.getElem_mem _)) (c8 _ (List.getElem_mem _)), zero_mul]
    rw [List.sum_eq_zero hz] at c9
    exact zero_ne_one c9
  obtain ⟨a, b, e1, e2, e3⟩ := halfEdges_ok p c5 (by omega) hex
  obtain ⟨N, s, hs, step, m, size, name, texts, lst, q1, q2, q3, q4, q5, q6, _⟩ := C104_scale C p hmono hpos 3 (by norm_num)
  obtain ⟨N', t, cc', ee, m', h1, hcc, _, _, hv, _⟩ := zero_ticks hpos 3
  have hst : s.ticks = t.values := by
    have := hs (N + N' + 1) (by omega)
    unfold ageScale at this
    dsimp only at this
    rw [max_age p hmono, h1 (N + N' + 1) (by omega)] at this
    dsimp only at this
    injection this with this
    obtain ⟨l, _, hl⟩ := except_bind_eq_ok this
    injection hl with hl
    rw [← hl]
  have hstep : (0 : ℝ) < (step : ℝ) := by exact_mod_cast q1
  have hlast : s.ticks.getLast? = some ((m : ℝ) * step) := by
    rw [q4, List.range_succ, List.map_append]; simp
  have hm0 : (0 : ℝ) < m := by exact_mod_cast q2
  have hl0 : (0 : ℝ) < m * step := by positivity
  obtain ⟨v, vs, hvv⟩ : ∃ v vs, t.values = v :: vs := by
    rw [← hst, q4, List.range_succ_eq_map]; exact ⟨_, _, rfl⟩
  have hmax : maxOf v vs = m * step := by
    obtain ⟨f1, f2, f3⟩ := foldl_max_mini vs v
    have hall : ∀ z ∈ t.values, z ≤ maxOf v vs := by
      intro z hz
      rw [hvv] at hz
      rcases List.mem_cons.1 hz with rfl | hz
      · exact f1
      · exact f2 z hz
    have hin : maxOf v vs ∈ t.values := by
      rw [hvv]
      rcases f3 with f3 | f3
      · rw [f3]; simp
      · exact List.mem_cons_of_mem _ f3
    apply le_antisymm
    · rw [← hst, q4] at hin
      obtain ⟨i, hi, hie⟩ := List.mem_map.1 hin
      rw [← hie]
      have : (i : ℝ) ≤ m := by exact_mod_cast (by simpa using hi : i ≤ m)
      gcongr
    · apply hall
      rw [← hst]
      exact List.mem_of_getLast? hlast
  have hoff : ∀ fuel, N' < fuel → ∀ left, MiniPlot.offset fuel p left =
      some (.ok (if left then (1 - b / (m * step)) - 0.1 else -(a / (m * step)) + 0.1)) := by
    intro fuel hf left
    unfold MiniPlot.offset
    rw [h1 fuel hf]
    dsimp only
    rw [e1, except_ok_bind, hvv]
    dsimp only
    rw [hmax, if_neg hl0.ne']
  refine ⟨N + N', s, _, _, m * step, a, b, fun fuel hf => ⟨hs fuel (by omega), hoff fuel (by omega) true, hoff fuel (by omega) false⟩, ?_, hlast, hl0,
    e2, e3, ?_, ?_⟩
  · rw [q4, List.range_succ_eq_map]; simp
  · simp only [boxLeft, Bool.false_eq_true, if_false]; ring
  · simp only [boxLeft, if_true]; ring

/-! ### C106 -/

/-- Specification: what is used of an age likelihood: the samples are in order of age, the likelihood is not negative and not everywhere zero, and the
percentile ages are in order. -/
structure Sampled (p : Pdf) : Prop where
  length : p.ts.length = p.pdf.length
  sorted : p.ts.Pairwise (· ≤ ·)
  nonneg : ∀ x ∈ p.pdf, 0 ≤ x
  pos : ∃ x ∈ p.pdf, 0 < x
  mono : ∀ q q', q ≤ q' → p.t q ≤ p.t q'

/-- every constructed likelihood is one -/
theorem sampled_init (pf : PFn) (c : Chron) (simpson : Simpson) (cc : Source) (lo hi : ℝ) (k : Option ℝ) (bcc : Bool) (n : ℕ)
    (p0 p1 p3 : ℝ) (hc : GoodChron c p0 p1 p3) (p : Pdf) (h : Craterpdf.init pf c simpson cc lo hi k none bcc n = .ok p) : Sampled p := by
  obtain ⟨c1, c2, c3, c4, c5, c6, c7, c8, c9, _⟩ := C23_likelihood pf c simpson cc lo hi k bcc n p0 p1 p3 hc p h
  obtain ⟨_, hmono, _⟩ := C24_percentiles_ordered pf c simpson cc lo hi k bcc n p0 p1 p3 hc p h
  refine ⟨by omega, c5, c8, ?_, hmono⟩
  by_contra hno
  push Not at hno
  have hz : ∀ z ∈ List.zipWith (· * ·) p.pdf p.dt, z = 0 := by
    intro z hz
    obtain ⟨i, hi, rfl⟩ := List.getElem_of_mem hz
    rw [List.getElem_zipWith, le_antisymm (hno _ (List.getElem_mem _)) (c8 _ (List.getElem_mem _)), zero_mul]
  rw [List.sum_eq_zero hz] at c9
  exact zero_ne_one c9

/-- Specification: the outline of a violin at sample `i`: age, upper and lower edge, for the greatest likelihood `m`. -/
noncomputable def outline (p : Pdf) (m y w0 : ℝ) (i : ℕ) : ℝ × ℝ × ℝ :=
  (p.ts.getD i 0, y + 0.9 * w0 * (p.pdf.getD i 0 / m), y - 0.9 * w0 * (p.pdf.getD i 0 / m))

theorem slice_outline (l : List (ℝ × ℝ × ℝ)) (g : ℕ → ℝ × ℝ × ℝ) (hg : ∀ i (h : i < l.length), l[i] = g i) (a b : ℕ) (hb : b ≤ l.length) :
    (l.take b).drop a = (List.range' a (b - a)).map g := by
  apply List.ext_getElem
  · simp; omega
  · intro i h1 h2
    simp only [List.length_drop, List.length_take] at h1
    rw [List.getElem_drop, List.getElem_take, List.getElem_map, List.getElem_range', hg _ (by omega)]
    congr 1; omega

/-- Specification: the samples `a` to `b - 1` are those whose successor is at an age from `t` up to, not including, `t'`. -/
def Between (p : Pdf) (t t' : ℝ) (a b : ℕ) : Prop :=
  b < p.ts.length ∧ ∀ i s, p.ts[i + 1]? = some s → ((a ≤ i ∧ i < b) ↔ (t ≤ s ∧ s < t'))

theorem between_search (p : Pdf) (hsort : p.ts.Pairwise (· ≤ ·)) (t t' t0 : ℝ) (h0 : p.ts[0]? = some t0) (ht : t0 < t) (htt : t ≤ t') :
    1 ≤ searchsorted p.ts t ∧ 1 ≤ searchsorted p.ts t' ∧ Between p t t' (searchsorted p.ts t - 1) (searchsorted p.ts t' - 1) := by
  obtain ⟨hl, e0⟩ := List.getElem?_eq_some_iff.1 h0
  have h1 : 1 ≤ searchsorted p.ts t := by
    by_contra hc
    have := le_of_searchsorted_le hsort (v := t) hl (by omega)
    rw [e0] at this
    linarith
  have h2 := searchsorted_mono (a := p.ts) htt
  have h3 := searchsorted_le_length p.ts t'
  refine ⟨h1, by omega, by omega, ?_⟩
  intro i s hs
  obtain ⟨hi, rfl⟩ := List.getElem?_eq_some_iff.1 hs
  have key : ∀ v, searchsorted p.ts v ≤ i + 1 ↔ v ≤ p.ts[i + 1] := by
    intro v
    constructor
    · exact fun h => le_of_searchsorted_le hsort hi h
    · intro h
      by_contra hc
      have := lt_of_lt_searchsorted (v := v) hi (by omega)
      linarith
  have k1 := key t
  have k2 := key t'
  have k3 : p.ts[i + 1] < t' ↔ ¬ searchsorted p.ts t' ≤ i + 1 := by rw [k2, not_le]
  rw [← k1, k3]
  omega

theorem pySlice_nat {α : Type} (l : List α) (a b : ℕ) (ha : 1 ≤ a) (hb : 1 ≤ b) :
    pySlice l ((a : ℤ) - 1) ((b : ℤ) - 1) = (l.take (b - 1)).drop (a - 1) := by
  unfold pySlice
  dsimp only
  rw [if_neg (by omega), if_neg (by omega)]
  congr 1
  · omega
  · congr 1; omega

/-- **C106, violin.** Every constructed age likelihood is drawn as a violin which is symmetric about its row, at every sample as wide as the
likelihood there, with 0.9 of the half row height for the greatest likelihood.  The shaded zone and the whole figure comprise the samples whose successor is
at or above the 16 % (0.01 %) age and below the 84 % (99.99 %) age; the line is at the last sample below the median. -/
theorem C106_violin_partial (p : Pdf) (hp : Sampled p) (t0 : ℝ) (h0 : p.ts[0]? = some t0) (ht0 : t0 < p.t 0.0001) (y w0 : ℝ) :
    ∃ v m, violin p y w0 = .ok v ∧ (∀ x ∈ p.pdf, x ≤ m) ∧ m ∈ p.pdf ∧ 0 < m ∧
      (∃ a b, Between p (p.t 0.0001) (p.t 0.9999) a b ∧ v.whole = (List.range' a (b - a)).map (outline p m y w0)) ∧
      (∃ a b, Between p (p.t 0.16) (p.t 0.84) a b ∧ v.sigma = (List.range' a (b - a)).map (outline p m y w0)) ∧
      (∃ i s, p.ts[i]? = some s ∧ s < p.t 0.5 ∧ (∀ s', p.ts[i + 1]? = some s' → p.t 0.5 ≤ s') ∧ v.median = [outline p m y w0 i]) := by
  obtain ⟨hl0, c5, c8, ⟨y0, hy0, hy1⟩, hmono⟩ := hp
  obtain ⟨v0, l, hp⟩ := List.exists_cons_of_ne_nil (List.ne_nil_of_mem hy0)
  obtain ⟨m1, m2, m3⟩ := foldl_max_mini l v0
  have hMle : ∀ x ∈ p.pdf, x ≤ maxOf v0 l := by
    intro x hx
    rw [hp] at hx
    rcases List.mem_cons.1 hx with rfl | hx
    · exact m1
    · exact m2 x hx
  have hMmem : maxOf v0 l ∈ p.pdf := by
    rw [hp]
    rcases m3 with h | h
    · rw [h]; simp
    · exact List.mem_cons_of_mem _ h
  have hM0 : 0 < maxOf v0 l := lt_of_lt_of_le hy1 (hMle y0 hy0)
  set M := maxOf v0 l with hM
  set shape := List.zipWith (fun t v => (t, y + 0.9 * w0 / M * v, y - 0.9 * w0 / M * v)) p.ts p.pdf with hshape
  have hlen : shape.length = p.ts.length := by rw [hshape, List.length_zipWith]; omega
  have hg : ∀ i (h : i < shape.length), shape[i] = outline p M y w0 i := by
    intro i hi
    simp only [hshape, List.getElem_zipWith, outline, List.getD_eq_getElem?_getD, List.getElem?_eq_getElem (show i < p.ts.length by omega),
      List.getElem?_eq_getElem (show i < p.pdf.length by omega), Option.getD_some]
    rw [show 0.9 * w0 / M * p.pdf[i] = 0.9 * w0 * (p.pdf[i] / M) by ring]
  have zone : ∀ q q', 0.0001 ≤ q → q ≤ q' → ∃ a b, Between p (p.t q) (p.t q') a b ∧
      pySlice shape ((searchsorted p.ts (p.t q) : ℤ) - 1) ((searchsorted p.ts (p.t q') : ℤ) - 1) = (List.range' a (b - a)).map (outline p M y w0) := by
    intro q q' hq hqq
    obtain ⟨s1, s2, s3⟩ := between_search p c5 (p.t q) (p.t q') t0 h0 (lt_of_lt_of_le ht0 (hmono _ _ hq)) (hmono _ _ hqq)
    refine ⟨_, _, s3, ?_⟩
    rw [pySlice_nat _ _ _ s1 s2, slice_outline shape _ hg _ _ (by have := s3.1; omega)]
  obtain ⟨s1, _, s3, _⟩ := between_search p c5 (p.t 0.5) (p.t 0.5) t0 h0 (lt_of_lt_of_le ht0 (hmono _ _ (by norm_num))) le_rfl
  have hv : violin p y w0 = .ok ⟨pySlice shape ((searchsorted p.ts (p.t 0.0001) : ℤ) - 1) ((searchsorted p.ts (p.t 0.9999) : ℤ) - 1),
      pySlice shape ((searchsorted p.ts (p.t 0.16) : ℤ) - 1) ((searchsorted p.ts (p.t 0.84) : ℤ) - 1),
      pySlice shape ((searchsorted p.ts (p.t 0.5) : ℤ) - 1) ((searchsorted p.ts (p.t 0.5) : ℤ) - 1 + 1)⟩ := by
    unfold violin
    rw [hp]
    dsimp only
    rw [← hp, ← hM, if_neg hM0.ne', ← hshape]
  refine ⟨_, M, hv, hMle, hMmem, hM0, zone 0.0001 0.9999 le_rfl (by norm_num), zone 0.16 0.84 (by norm_num) (by norm_num), ?_⟩
  · have hs4 : searchsorted p.ts (p.t 0.5) - 1 < p.ts.length := by have := searchsorted_le_length p.ts (p.t 0.5); omega
    refine ⟨searchsorted p.ts (p.t 0.5) - 1, p.ts[searchsorted p.ts (p.t 0.5) - 1], List.getElem?_eq_getElem _, ?_, ?_, ?_⟩
    · exact lt_of_lt_searchsorted hs4 (by omega)
    · intro s' hs'
      obtain ⟨hi, rfl⟩ := List.getElem?_eq_some_iff.1 hs'
      exact le_of_searchsorted_le c5 hi (by omega)
    · have : ((searchsorted p.ts (p.t 0.5) : ℤ) - 1) + 1 = ((searchsorted p.ts (p.t 0.5) + 1 : ℕ) : ℤ) - 1 := by push_cast; ring
      show pySlice shape _ _ = _
      rw [this, pySlice_nat _ _ _ s1 (by omega), slice_outline shape _ hg _ _ (by omega)]
      have e : searchsorted p.ts (p.t 0.5) + 1 - 1 - (searchsorted p.ts (p.t 0.5) - 1) = 1 := by omega
      rw [e]; rfl

/-- **C106, rows.** The violins of a sequence plot do not touch: with `n` measurements every point of the violin in row `i` is above every point of
that in a later row `j`, and all are inside the axis. -/
theorem C106_rows (p p' : Pdf) (m m' : ℝ) (n i j : ℕ) (hij : i < j) (hj : j < n) (hm : 0 < m) (hm' : 0 < m')
    (hp : ∀ x ∈ p.pdf, 0 ≤ x ∧ x ≤ m) (hp' : ∀ x ∈ p'.pdf, 0 ≤ x ∧ x ≤ m') (a b : ℕ) :
    (outline p' m' (rowHeight n j) (rowHalfWidth n) b).2.1 < (outline p m (rowHeight n i) (rowHalfWidth n) a).2.2 ∧
    (outline p m (rowHeight n i) (rowHalfWidth n) a).2.1 < 1 ∧ 0 < (outline p' m' (rowHeight n j) (rowHalfWidth n) b).2.2 := by
  have frac : ∀ (p : Pdf) (m : ℝ), 0 < m → (∀ x ∈ p.pdf, 0 ≤ x ∧ x ≤ m) → ∀ a : ℕ, 0 ≤ p.pdf.getD a 0 / m ∧ p.pdf.getD a 0 / m ≤ 1 := by
    intro p m hm hp a
    have hb : 0 ≤ p.pdf.getD a 0 ∧ p.pdf.getD a 0 ≤ m := by
      rw [List.getD_eq_getElem?_getD]
      cases e : p.pdf[a]? with
      | none => exact ⟨le_rfl, hm.le⟩
      | some v => exact hp v (List.mem_of_getElem? e)
    exact ⟨div_nonneg hb.1 hm.le, (div_le_one hm).2 hb.2⟩
  obtain ⟨f1, f2⟩ := frac p m hm hp a
  obtain ⟨g1, g2⟩ := frac p' m' hm' hp' b
  obtain ⟨_, _, r1, r2, r3, r4, r5, _⟩ := C66_rows n i j hij hj
  have hw : 0 < rowHalfWidth n := by unfold rowHalfWidth; positivity
  simp only [outline]
  generalize p.pdf.getD a 0 / m = u at f1 f2 ⊢
  generalize p'.pdf.getD b 0 / m' = v at g1 g2 ⊢
  refine ⟨?_, ?_, ?_⟩ <;> nlinarith

/-- **C106, not drawn.** If the first sampled age already holds 16 % of the probability, the shaded zone is not drawn: its start index is -1, which Python
counts from the end. -/
theorem C106_first_sample_counterexample (p : Pdf) (y w0 t0 : ℝ) (hlen : p.ts.length = p.pdf.length) (hsort : p.ts.Pairwise (· ≤ ·))
    (h0 : p.ts[0]? = some t0) (ht : p.t 0.16 ≤ t0) (v : Violin) (hv : violin p y w0 = .ok v) : v.sigma = [] := by
  obtain ⟨hl, e0⟩ := List.getElem?_eq_some_iff.1 h0
  have hs : searchsorted p.ts (p.t 0.16) = 0 := by
    by_contra hc
    have := lt_of_lt_searchsorted (v := p.t 0.16) hl (by omega)
    rw [e0] at this
    linarith
  have hle := searchsorted_le_length p.ts (p.t 0.84)
  unfold violin at hv
  split at hv
  · cases hv
  · next a l hp =>
    dsimp only at hv
    split at hv
    · cases hv
    · injection hv with hv
      rw [← hv, hs]
      dsimp only
      unfold pySlice
      dsimp only
      apply List.drop_eq_nil_of_le
      rw [List.length_take]
      simp only [List.length_zipWith]
      split_ifs <;> omega

/-! ### the hypotheses can be met -/

/-- a likelihood of two craters -/
example (C : Classes) : ∃ (p : Pdf) (N : ℕ) (s : AgeScale), ∀ fuel, N < fuel → ageScale fuel C p 3 = some (.ok s) := by
  obtain ⟨c, p, hc, hg, hp, _⟩ := likelihood_example 5000 (by norm_num) 2 (by norm_num) (fun _ _ => 0)
  obtain ⟨_, hmono, _⟩ := C24_percentiles_ordered _ c _ _ _ _ _ _ _ _ _ _ hg p hp
  obtain ⟨N, s, h, _⟩ := C104_scale C p hmono (init_age_pos _ c _ _ _ _ _ _ _ _ _ _ hg p hp _) 3 (by norm_num)
  exact ⟨p, N, s, h⟩

/-- the axis with ticks at 0, 5 and 10 Ma -/
example (C : Classes) : ∃ size name texts last, UnitFor (((2 : ℕ) : ℚ) * ((5 : ℕ) * (10 : ℚ) ^ (-3 : ℤ))) size name ∧
      ageLabels C ((List.range 3).map (fun i : ℕ => (i : ℝ) * ((5 : ℕ) * (10 : ℝ) ^ (-3 : ℤ)))) =
        .ok ((texts ++ ["      ".toList ++ last ++ ' ' :: name])) := by
  obtain ⟨size, name, texts, last, h1, h2, _⟩ := labels_ok C 5 (-3) 2 (by norm_num) (by norm_num) (by norm_num)
  exact ⟨size, name, texts, last, h1, h2⟩

/-- a likelihood with three samples -/
noncomputable def threeSamples : Pdf := ⟨1, [1, 2, 3], [1, 1, 1], [], [0, 1, 0], [0, 1, 1]⟩

theorem threeSamples_ok : Sampled threeSamples := by
  refine ⟨rfl, ?_, ?_, ⟨1, ?_, one_pos⟩, ?_⟩
  · simp only [threeSamples]; norm_num
  · simp only [threeSamples]; norm_num
  · simp [threeSamples]
  · intro q q' h
    refine interp_mono [0, 1, 1] [1, 2, 3] ?_ ?_ rfl (by norm_num) h <;> norm_num

example (y w0 : ℝ) : ∃ v, violin threeSamples y w0 = .ok v := by
  obtain ⟨v, m, h, _⟩ := C106_violin_partial threeSamples threeSamples_ok 1 rfl (by
    norm_num [threeSamples, Pdf.t, interp, searchsortedRight, List.takeWhile_cons]) y w0
  exact ⟨v, h⟩

example : (⟨1, [1, 2], [1, 1], [], [1, 0], [1, 1]⟩ : Pdf).t 0.16 ≤ 1 := by
  norm_num [Pdf.t, interp, searchsortedRight, List.takeWhile_cons]

example (x f w box : ℝ) (C : Classes) : ∃ (p : Pdf) (N : ℕ) (oR last a : ℝ), (∀ fuel, N < fuel → MiniPlot.offset fuel p false = some (.ok oR)) ∧
    0 < last ∧ boxLeft false x f w box oR + a / last * box = x + f * w + (0.03 + 0.1 * box) := by
  obtain ⟨c, p, hc, hg, hp, _⟩ := likelihood_example 5000 (by norm_num) 2 (by norm_num) (fun _ _ => 0)
  obtain ⟨N, s, oL, oR, last, a, b, h1, _, _, h2, _, _, h3, _⟩ := C105_gap C _ c _ _ _ _ _ _ _ _ _ _ hg p hp x f w box
  exact ⟨p, N, oR, last, a, fun fuel hf => (h1 fuel hf).2.2, h2, h3⟩

end Verif.Props
