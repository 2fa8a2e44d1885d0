import Verif.Model.MapGrid
import Verif.Props.MapPlot
import Verif.Props.Ticks
import Verif.Props.Format

/-! Property C137: the grid lines of a map. -/

namespace Verif.Props

open Verif.Py Verif.Spatial Verif.Plotting Verif.MapPlot Verif.MapGrid Verif.Text

/-- Specification: the round values strictly between `a` and `b`, in order: the multiples of 1, 2, 5 or 10 times a power of ten; one to four. -/
def RoundBetween (a b : ℝ) (vs : List ℝ) : Prop :=
  ∃ (c : ℕ) (e : ℤ), (c = 1 ∨ c = 2 ∨ c = 5 ∨ c = 10) ∧ vs.Pairwise (· < ·) ∧ 1 ≤ vs.length ∧ vs.length ≤ 4 ∧
    ∀ v, v ∈ vs ↔ a < v ∧ v < b ∧ ∃ k : ℤ, v = k * (c * (10 : ℝ) ^ e)

/-- ticks for at most six: at least one apart from first and last -/
theorem grid_ticks {r0 r1 : ℝ} (hr : r0 < r1) (x : List ℝ) (hx : Misc.range x false false = .pair r0 r1) :
    ∃ (N : ℕ) (t : Ticks) (f l : ℝ) (mid : List ℝ), (∀ fuel, N < fuel → ticks fuel x (some 6) = some (.ok t)) ∧
      t.values = f :: (mid ++ [l]) ∧ f ≤ r0 ∧ r1 ≤ l ∧ 0 < t.step ∧ RoundBetween r0 r1 mid := by
  obtain ⟨N, k, t, h1, h2, h4, h5⟩ := ticks_ok x r0 r1 hx hr (some 6) (Or.inl (by decide))
  have h6 : maxTicksOf (some 6) = 6 := rfl
  rw [h6] at h2 h4 h5
  have p := pass_ok (m := 6) hr (by norm_num) (mu := 1 * 0.9 ^ k) (by positivity)
  rw [← h2] at p
  have hst : t.step < r1 - r0 := by
    cases k with
    | zero =>
      have := p.upper
      norm_num at this
      linarith
    | succ j =>
      have p' := pass_ok (m := 6) hr (by norm_num) (mu := 1 * 0.9 ^ j) (by positivity)
      have hn := h5 j (Nat.lt_succ_self j)
      set t' := ticksPass r0 r1 6 (1 * 0.9 ^ j) with ht'
      unfold Fits at hn
      have h7 : t'.first + 6 ≤ t'.last := by omega
      have h7' : (t'.first : ℝ) + 6 ≤ t'.last := by exact_mod_cast h7
      have a1 := p'.lt_first
      have a2 := p'.last_lt
      have a3 := p'.pos
      have a4 := p'.lower
      have a5 : 4 * t'.step < r1 - r0 := by nlinarith
      have a6 := p.upper
      have e : (r1 - r0) / (((6 : ℕ) : ℝ) * (1 * 0.9 ^ (j + 1))) = (r1 - r0) / (((6 : ℕ) : ℝ) * (1 * 0.9 ^ j)) / 0.9 := by
        rw [pow_succ]
        field_simp
      rw [e] at a6
      have a7 : (r1 - r0) / (((6 : ℕ) : ℝ) * (1 * 0.9 ^ j)) / 0.9 ≤ t'.step / 0.9 := by
        apply div_le_div_of_nonneg_right a4 (by norm_num)
      have a8 : t'.step / 0.9 = t'.step * (10 / 9) := by ring
      rw [a8] at a7
      linarith
  have hpos := p.pos
  have hgap : t.first + 2 ≤ t.last := by
    by_contra hc
    have : t.last ≤ t.first + 1 := by omega
    have h' : (t.last : ℝ) ≤ t.first + 1 := by exact_mod_cast this
    have b1 := p.first_le
    have b2 := p.le_last
    nlinarith
  obtain ⟨n, hn⟩ : ∃ n : ℕ, t.last - t.first = n + 1 := ⟨(t.last - t.first - 1).toNat, by omega⟩
  have hn1 : 1 ≤ n := by omega
  have hn4 : n ≤ 4 := by unfold Fits at h4; omega
  have hlast : (t.last : ℝ) = t.first + n + 1 := by
    have : t.last = t.first + n + 1 := by omega
    exact_mod_cast this
  refine ⟨N, t, t.first * t.step, t.last * t.step, (List.range n).map (fun i : ℕ => ((t.first : ℝ) + (i + 1)) * t.step), h1, ?_, p.first_le,
    p.le_last, hpos, ?_⟩
  · unfold Ticks.values
    rw [show (t.last - t.first + 1).toNat = n + 1 + 1 by omega, List.range_succ_eq_map, List.map_cons, List.map_map]
    rw [List.range_succ, List.map_append]
    simp only [List.map_cons, List.map_nil, Function.comp_def]
    push_cast
    rw [hlast]
    simp [add_assoc]
  · obtain ⟨e, he⟩ := p.step
    refine ⟨t.nice, e, p.nice, ?_, by simpa using hn1, by simpa using hn4, ?_⟩
    · rw [List.pairwise_map]
      refine List.pairwise_lt_range.imp ?_
      intro i j hij
      have : (i : ℝ) < j := by exact_mod_cast hij
      nlinarith
    · intro v
      rw [← he]
      constructor
      · intro hv
        obtain ⟨i, hi, rfl⟩ := List.mem_map.1 hv
        rw [List.mem_range] at hi
        have hi' : (i : ℝ) + 1 ≤ n := by exact_mod_cast hi
        have b1 := p.lt_first
        have b2 := p.last_lt
        have h0 : (0 : ℝ) ≤ i := Nat.cast_nonneg i
        refine ⟨?_, ?_, t.first + (i + 1), by push_cast; rfl⟩
        · nlinarith
        · rw [hlast] at b2
          nlinarith
      · rintro ⟨k1, k2, z, rfl⟩
        have b1 := p.first_le
        have b2 := p.le_last
        have z1 : t.first < z := by
          have : (t.first : ℝ) < z := by
            by_contra hc
            have := mul_le_mul_of_nonneg_right (not_lt.1 hc) hpos.le
            linarith
          exact_mod_cast this
        have z2 : z < t.last := by
          have : (z : ℝ) < t.last := by
            by_contra hc
            have := mul_le_mul_of_nonneg_right (not_lt.1 hc) hpos.le
            linarith
          exact_mod_cast this
        refine List.mem_map.2 ⟨(z - t.first - 1).toNat, List.mem_range.2 (by omega), ?_⟩
        have : (((z - t.first - 1).toNat : ℤ) : ℝ) = z - t.first - 1 := by
          rw [show ((z - t.first - 1).toNat : ℤ) = z - t.first - 1 by omega]
          push_cast
          ring
        rw [← Int.cast_natCast (R := ℝ), this]
        ring

theorem range_two (a b : ℝ) : Misc.range [a, b] false false = .pair (min a b) (max a b) := by
  have : Misc.range [a, b] false false = .pair (Misc.minOf a [b]) (Misc.maxOf a [b]) := rfl
  rw [this]
  simp [Misc.minOf, Misc.maxOf]

theorem gridTicks_ok {a b : ℝ} (h : a ≠ b) : ∃ (N : ℕ) (t : Ticks) (f l : ℝ) (m : ℝ) (ms : List ℝ),
    (∀ fuel, N < fuel → gridTicks fuel (some a) (some b) = some (.ok t)) ∧ t.values = f :: (m :: ms ++ [l]) ∧ f ≤ min a b ∧ max a b ≤ l ∧
      f < m ∧ RoundBetween (min a b) (max a b) (m :: ms) := by
  have hr : min a b < max a b := min_lt_max.2 h
  obtain ⟨N, t, f, l, mid, h1, h2, h3, h4, h5, h6⟩ := grid_ticks hr [a, b] (range_two a b)
  cases mid with
  | nil =>
    obtain ⟨c, e, -, -, hl, -⟩ := h6
    simp at hl
  | cons m ms =>
    refine ⟨N, t, f, l, m, ms, h1, h2, h3, h4, ?_, h6⟩
    obtain ⟨c, e, -, -, -, -, hv⟩ := h6
    have := (hv m).1 (by simp)
    linarith [this.1]

/-- the grid from its ticks -/
theorem mapGrid_eq {fuel : ℕ} {proj inv : ℝ × ℝ → Option (ℝ × ℝ)} {ρ : ℝ → ℚ} {offset : ℝ} {xr0 yr0 xr yr sw ne : ℝ × ℝ}
    (h0 : inv (xr0.1, yr0.1) = some sw) (h1 : inv (xr0.2, yr0.2) = some ne) {tx ty : Ticks}
    (hx : gridTicks fuel (some sw.1) (some ne.1) = some (.ok tx)) (hy : gridTicks fuel (some sw.2) (some ne.2) = some (.ok ty))
    {w m e : ℝ} {ms : List ℝ} (vx : tx.values = w :: (m :: ms ++ [e])) {s k n : ℝ} {ks : List ℝ} (vy : ty.values = s :: (k :: ks ++ [n])) :
    mapGrid fuel proj inv ρ offset xr0 yr0 xr yr = some (.ok ((k :: ks).map (fun lat => parallel proj ρ offset xr yr w e (k - s) lat),
      (m :: ms).map (fun lon => meridian proj ρ xr yr s n (m - w) lon))) := by
  unfold mapGrid
  dsimp only
  rw [h0, h1, Option.map_some, Option.map_some, Option.map_some, Option.map_some, hx, hy]
  dsimp only
  rw [vx, vy]
  have d1 : ∀ (a : ℝ) (l : List ℝ) (b : ℝ), (a :: (l ++ [b])).dropLast = a :: l := by
    intro a l b
    rw [← List.cons_append, List.dropLast_concat]
  have d2 : ∀ (a : ℝ) (l : List ℝ) (b : ℝ) (h : a :: (l ++ [b]) ≠ []), (a :: (l ++ [b])).getLast h = b := by
    intro a l b h
    simp
  simp only [List.cons_append, d1, d2]

theorem linspace_spec {a b : ℝ} (h : a < b) : ((linspace a b 50).length = 50) ∧ (linspace a b 50).Pairwise (· < ·) ∧
    (linspace a b 50).head? = some a ∧ (linspace a b 50).getLast? = some b := by
  unfold linspace
  refine ⟨by simp, ?_, ?_, ?_⟩
  · rw [List.pairwise_map]
    refine List.pairwise_lt_range.imp ?_
    intro i j hij
    have : (i : ℝ) < j := by exact_mod_cast hij
    have hd : 0 < (b - a) / (((50 : ℕ) : ℝ) - 1) := by
      apply div_pos (by linarith)
      norm_num
    nlinarith
  · rw [List.head?_map, List.head?_range]
    simp
  · rw [List.getLast?_map, List.getLast?_range]
    simp
    ring

/-- Specification: 50 places along a line, from at most `a` to at least `b`. -/
def Along (a b : ℝ) (f : ℝ → Option (ℝ × ℝ)) (places : List (Option (ℝ × ℝ))) : Prop :=
  ∃ ts : List ℝ, ts.length = 50 ∧ ts.Pairwise (· < ·) ∧ (∃ t ∈ ts.head?, t < a) ∧ (∃ t ∈ ts.getLast?, b < t) ∧ places = ts.map f

/-- Specification: the text tells the value, to seven figures, in degrees. -/
def TellsDegrees (ρ : ℝ → ℚ) (v : ℝ) (text : List Char) : Prop :=
  ∃ t r, text = t ++ ['°'] ∧ decVal t = some r ∧ IsRounded 7 (ρ v) r

theorem degreeLabel_tells (ρ : ℝ → ℚ) (v : ℝ) : TellsDegrees ρ v (degreeLabel ρ v) :=
  ⟨gStr 6 (ρ v), _, rfl, decVal_gStr 6 (ρ v), isRounded_sci 6 (ρ v)⟩

theorem clipTo_mem {r : ℝ × ℝ} (h : r.1 ≤ r.2) (v : Option ℝ) : r.1 ≤ clipTo r v ∧ clipTo r v ≤ r.2 := by
  cases v with
  | none => exact ⟨h, le_rfl⟩
  | some x => exact ⟨le_min (le_max_right _ _) h, min_le_right _ _⟩

/-- **C137, grid lines.**  If the corners of what is shown (south-west and north-east) have a place on the body, of different longitude and
latitude, the grid is drawn: the parallels of all round latitudes strictly between those of the corners, and the meridians of all round
longitudes strictly between theirs; at least one and at most four of each, every one a line of 50 places of that latitude (longitude),
reaching beyond the corners, and labelled with its value.  The labels of meridians stand within the axes, those of parallels within
their width. -/
theorem C137_grid_partial {proj inv : ℝ × ℝ → Option (ℝ × ℝ)} (ρ : ℝ → ℚ) (offset : ℝ) {xr0 yr0 xr yr sw ne : ℝ × ℝ} (hxr : xr.1 ≤ xr.2)
    (hyr : yr.1 ≤ yr.2) (h0 : inv (xr0.1, yr0.1) = some sw) (h1 : inv (xr0.2, yr0.2) = some ne) (hlon : sw.1 ≠ ne.1) (hlat : sw.2 ≠ ne.2) :
    ∃ (N : ℕ) (ps ms : List GridLine), (∀ fuel, N < fuel → mapGrid fuel proj inv ρ offset xr0 yr0 xr yr = some (.ok (ps, ms))) ∧
      RoundBetween (min sw.2 ne.2) (max sw.2 ne.2) (ps.map GridLine.value) ∧
      RoundBetween (min sw.1 ne.1) (max sw.1 ne.1) (ms.map GridLine.value) ∧
      (∀ g ∈ ps, Along (min sw.1 ne.1) (max sw.1 ne.1) (fun lon => proj (lon, g.value)) g.places ∧ TellsDegrees ρ g.value g.label ∧
        xr.1 ≤ g.labelAt.1 ∧ g.labelAt.1 ≤ xr.2 ∧ yr.1 ≤ g.labelAt.2 + offset ∧ g.labelAt.2 + offset ≤ yr.2) ∧
      ∀ g ∈ ms, Along (min sw.2 ne.2) (max sw.2 ne.2) (fun lat => proj (g.value, lat)) g.places ∧
        (∃ t, g.label = ' ' :: t ∧ TellsDegrees ρ g.value t) ∧
        xr.1 ≤ g.labelAt.1 ∧ g.labelAt.1 ≤ xr.2 ∧ yr.1 ≤ g.labelAt.2 ∧ g.labelAt.2 ≤ yr.2 := by
  obtain ⟨N1, tx, w, e, m, ms, hx, vx, x1, x2, x3, x4⟩ := gridTicks_ok hlon
  obtain ⟨N2, ty, s, n, k, ks, hy, vy, y1, y2, y3, y4⟩ := gridTicks_ok hlat
  have hx0 : min sw.1 ne.1 < max sw.1 ne.1 := min_lt_max.2 hlon
  have hy0 : min sw.2 ne.2 < max sw.2 ne.2 := min_lt_max.2 hlat
  refine ⟨max N1 N2, _, _, fun fuel hf => mapGrid_eq h0 h1 (hx fuel (lt_of_le_of_lt (le_max_left _ _) hf))
    (hy fuel (lt_of_le_of_lt (le_max_right _ _) hf)) vx vy, ?_, ?_, ?_, ?_⟩
  · rw [List.map_map]
    simpa [Function.comp_def, parallel] using y4
  · rw [List.map_map]
    simpa [Function.comp_def, meridian] using x4
  · intro g hg
    obtain ⟨lat, -, rfl⟩ := List.mem_map.1 hg
    obtain ⟨l1, l2, l3, l4⟩ := linspace_spec (show w - (k - s) < e + (k - s) by linarith)
    refine ⟨⟨linspace (w - (k - s)) (e + (k - s)) 50, l1, l2, ⟨_, l3, by linarith⟩, ⟨_, l4, by linarith⟩, rfl⟩, degreeLabel_tells ρ lat, ?_⟩
    have c1 := clipTo_mem hxr
    have c2 := clipTo_mem hyr
    unfold parallel
    dsimp only
    rw [sub_add_cancel]
    exact ⟨(c1 _).1, (c1 _).2, (c2 _).1, (c2 _).2⟩
  · intro g hg
    obtain ⟨lon, -, rfl⟩ := List.mem_map.1 hg
    obtain ⟨l1, l2, l3, l4⟩ := linspace_spec (show s - (m - w) < n + (m - w) by linarith)
    refine ⟨⟨linspace (s - (m - w)) (n + (m - w)) 50, l1, l2, ⟨_, l3, by linarith⟩, ⟨_, l4, by linarith⟩, rfl⟩,
      ⟨_, rfl, degreeLabel_tells ρ lon⟩, ?_⟩
    exact ⟨(clipTo_mem hxr _).1, (clipTo_mem hxr _).2, (clipTo_mem hyr _).1, (clipTo_mem hyr _).2⟩

/-! ### the range of what is shown -/

theorem dataRange_ok {areas rims : List (List ℝ)} {r : ℝ × ℝ} (h : dataRange areas rims = .ok r) :
    r.1 ∈ areas.flatten ++ rims.flatten ∧ r.2 ∈ areas.flatten ++ rims.flatten ∧ ∀ x ∈ areas.flatten ++ rims.flatten, r.1 ≤ x ∧ x ≤ r.2 := by
  unfold dataRange at h
  obtain ⟨u, hu, h⟩ := except_bind_eq_ok h
  obtain ⟨w, hw, h⟩ := except_bind_eq_ok h
  have h1 : RangeOf ([] ++ areas.flatten) u := fold_range growArea_step areas (show RangeOf [] none from rfl) hu
  have h2 := fold_range growRim_step rims h1 hw
  rw [List.nil_append] at h2
  cases w with
  | none => cases h
  | some p =>
    injection h with h
    subst h
    exact h2

theorem dataRange_of_limits {own : Bool} {areas rims : List (List ℝ)} {l : ℝ × ℝ} (h : axisLimits own areas rims = .ok l) :
    ∃ r, dataRange areas rims = .ok r := by
  unfold axisLimits at h
  obtain ⟨u, hu, h⟩ := except_bind_eq_ok h
  obtain ⟨w, hw, h⟩ := except_bind_eq_ok h
  unfold dataRange
  rw [hu, except_ok_bind, hw, except_ok_bind]
  cases w with
  | none => cases h
  | some p => exact ⟨_, rfl⟩

/-- Specification: the smallest and largest value of a coordinate of what is shown. -/
def ExtentOf (proj : ℝ × ℝ → Option (ℝ × ℝ)) (rings : List Ring) (f : ℝ × ℝ → ℝ) (r : ℝ × ℝ) : Prop :=
  (∃ ring ∈ rings, ∃ p ∈ ring, ∃ q, proj p = some q ∧ f q = r.1) ∧ (∃ ring ∈ rings, ∃ p ∈ ring, ∃ q, proj p = some q ∧ f q = r.2) ∧
    ∀ ring ∈ rings, ∀ p ∈ ring, ∃ q, proj p = some q ∧ r.1 ≤ f q ∧ f q ≤ r.2

theorem extent_unique {proj : ℝ × ℝ → Option (ℝ × ℝ)} {rings : List Ring} {f : ℝ × ℝ → ℝ} {r r' : ℝ × ℝ} (h : ExtentOf proj rings f r)
    (h' : ExtentOf proj rings f r') : r = r' := by
  have key : ∀ {r r' : ℝ × ℝ}, ExtentOf proj rings f r → ExtentOf proj rings f r' → r.1 ≤ r'.1 ∧ r'.2 ≤ r.2 := by
    intro r r' h h'
    obtain ⟨⟨ring, hr, p, hp, q, hq, e⟩, ⟨ring2, hr2, p2, hp2, q2, hq2, e2⟩, -⟩ := h'
    obtain ⟨q', hq', k1, -⟩ := h.2.2 ring hr p hp
    obtain ⟨q2', hq2', -, k2⟩ := h.2.2 ring2 hr2 p2 hp2
    rw [hq] at hq'
    rw [hq2] at hq2'
    injection hq' with hq'
    injection hq2' with hq2'
    subst hq' hq2'
    exact ⟨by rw [← e]; exact k1, by rw [← e2]; exact k2⟩
  obtain ⟨a1, a2⟩ := key h h'
  obtain ⟨b1, b2⟩ := key h' h
  exact Prod.ext (le_antisymm a1 b1) (le_antisymm b2 a2)

theorem extent_of_dataRange {proj : ℝ × ℝ → Option (ℝ × ℝ)} {outlines rims A R : List Ring} (hA : outlines.mapM (projectRing proj) = .ok A)
    (hR : rims.mapM (projectRing proj) = .ok R) {f : ℝ × ℝ → ℝ} {r : ℝ × ℝ}
    (h : dataRange (A.map (fun l => l.map f)) (R.map (fun l => l.map f)) = .ok r) : ExtentOf proj (outlines ++ rims) f r := by
  obtain ⟨h1, h2, h3⟩ := dataRange_ok h
  obtain ⟨pA, qA⟩ := projected_mem hA
  obtain ⟨pR, qR⟩ := projected_mem hR
  have hmem : ∀ v, v ∈ (A.map (fun l => l.map f)).flatten ++ (R.map (fun l => l.map f)).flatten ↔ ∃ q, (q ∈ A.flatten ∨ q ∈ R.flatten) ∧ f q = v := by
    intro v
    rw [← List.map_flatten, ← List.map_flatten, List.mem_append, List.mem_map, List.mem_map]
    constructor
    · rintro (⟨q, hq, e⟩ | ⟨q, hq, e⟩)
      · exact ⟨q, Or.inl hq, e⟩
      · exact ⟨q, Or.inr hq, e⟩
    · rintro ⟨q, hq | hq, e⟩
      · exact Or.inl ⟨q, hq, e⟩
      · exact Or.inr ⟨q, hq, e⟩
  have back : ∀ v, v ∈ (A.map (fun l => l.map f)).flatten ++ (R.map (fun l => l.map f)).flatten →
      ∃ ring ∈ outlines ++ rims, ∃ p ∈ ring, ∃ q, proj p = some q ∧ f q = v := by
    intro v hv
    obtain ⟨q, hq, e⟩ := (hmem v).1 hv
    rcases hq with hq | hq
    · obtain ⟨ring, hr, p, hp, hpq⟩ := qA q hq
      exact ⟨ring, List.mem_append_left _ hr, p, hp, q, hpq, e⟩
    · obtain ⟨ring, hr, p, hp, hpq⟩ := qR q hq
      exact ⟨ring, List.mem_append_right _ hr, p, hp, q, hpq, e⟩
  refine ⟨back _ h1, back _ h2, ?_⟩
  intro ring hr p hp
  rcases List.mem_append.1 hr with hr | hr
  · obtain ⟨q, hq, hm⟩ := pA ring hr p hp
    exact ⟨q, hq, h3 _ ((hmem _).2 ⟨q, Or.inl hm, rfl⟩)⟩
  · obtain ⟨q, hq, hm⟩ := pR ring hr p hp
    exact ⟨q, hq, h3 _ ((hmem _).2 ⟨q, Or.inr hm, rfl⟩)⟩

/-- the map is that of `mapLimits` with the grid of the extent of what is shown -/
theorem mapPlot_eq {proj : ℝ × ℝ → Option (ℝ × ℝ)} {outlines rims : List Ring} (h : outlines ≠ []) (hn : ∀ r ∈ outlines, r ≠ [])
    {x y : ℝ × ℝ} (hx : ExtentOf proj (outlines ++ rims) Prod.fst x) (hy : ExtentOf proj (outlines ++ rims) Prod.snd y)
    (fuel : ℕ) (inv : ℝ × ℝ → Option (ℝ × ℝ)) (ρ : ℝ → ℚ) (offset : ℝ) :
    ∃ xr yr, mapLimits proj true outlines rims = .ok (xr, yr) ∧ mapPlot fuel proj inv ρ offset outlines rims =
      (mapGrid fuel proj inv ρ offset x y xr yr).map (fun g => g.map (fun g => ((xr, yr), g))) := by
  obtain ⟨xr, yr, hl⟩ := C125_defined_partial proj true outlines rims h hn (fun r hr p hp => by
    obtain ⟨q, hq, -⟩ := hx.2.2 r hr p hp
    exact ⟨q, hq⟩)
  refine ⟨xr, yr, hl, ?_⟩
  have hl' := hl
  unfold mapLimits at hl
  obtain ⟨A, hA, hl⟩ := except_bind_eq_ok hl
  obtain ⟨R, hR, hl⟩ := except_bind_eq_ok hl
  obtain ⟨xl, hxl, hl⟩ := except_bind_eq_ok hl
  obtain ⟨yl, hyl, hl⟩ := except_bind_eq_ok hl
  obtain ⟨x', hx'⟩ := dataRange_of_limits hxl
  obtain ⟨y', hy'⟩ := dataRange_of_limits hyl
  have ex := extent_unique hx (extent_of_dataRange hA hR hx')
  have ey := extent_unique hy (extent_of_dataRange hA hR hy')
  subst ex ey
  unfold mapPlot
  rw [hl', except_ok_bind, hA, except_ok_bind, hR, except_ok_bind, hx', except_ok_bind, hy', except_ok_bind]

/-- **C137, the map.**  With these corners the map of the count is drawn with its grid, in the axes of the map without grid. -/
theorem C137_map_partial {proj : ℝ × ℝ → Option (ℝ × ℝ)} {outlines rims : List Ring} (h : outlines ≠ []) (hn : ∀ r ∈ outlines, r ≠ [])
    {x y : ℝ × ℝ} (hx : ExtentOf proj (outlines ++ rims) Prod.fst x) (hy : ExtentOf proj (outlines ++ rims) Prod.snd y)
    (inv : ℝ × ℝ → Option (ℝ × ℝ)) (ρ : ℝ → ℚ) (offset : ℝ) {sw ne : ℝ × ℝ} (h0 : inv (x.1, y.1) = some sw) (h1 : inv (x.2, y.2) = some ne)
    (hlon : sw.1 ≠ ne.1) (hlat : sw.2 ≠ ne.2) :
    ∃ (N : ℕ) (xr yr : ℝ × ℝ) (ps ms : List GridLine), mapLimits proj true outlines rims = .ok (xr, yr) ∧
      (∀ fuel, N < fuel → mapPlot fuel proj inv ρ offset outlines rims = some (.ok ((xr, yr), ps, ms))) ∧
      RoundBetween (min sw.2 ne.2) (max sw.2 ne.2) (ps.map GridLine.value) ∧
      RoundBetween (min sw.1 ne.1) (max sw.1 ne.1) (ms.map GridLine.value) := by
  obtain ⟨xr, yr, hl, -⟩ := mapPlot_eq h hn hx hy 0 inv ρ offset
  have hs := (C125_shown _ _ _ _ _ _ hl).1
  obtain ⟨r, hr⟩ := List.exists_mem_of_ne_nil _ h
  obtain ⟨p, hp⟩ := List.exists_mem_of_ne_nil _ (hn r hr)
  obtain ⟨q, -, q1, q2, q3, q4⟩ := hs r (List.mem_append_left _ hr) p hp
  obtain ⟨N, ps, ms, hg, g1, g2, -⟩ := C137_grid_partial (proj := proj) ρ offset (q1.trans q2) (q3.trans q4) h0 h1 hlon hlat
  refine ⟨N, xr, yr, ps, ms, hl, fun fuel hf => ?_, g1, g2⟩
  obtain ⟨xr', yr', hl', e⟩ := mapPlot_eq h hn hx hy fuel inv ρ offset
  rw [hl] at hl'
  cases hl'
  rw [e, hg fuel hf]
  rfl

/-- **C137, failure with wide areas.**  If a corner of what is shown has no place on the body, there is no map although everything to be shown
can be. -/
theorem C137_corner_counterexample {proj : ℝ × ℝ → Option (ℝ × ℝ)} {outlines rims : List Ring} (h : outlines ≠ [])
    (hn : ∀ r ∈ outlines, r ≠ []) {x y : ℝ × ℝ} (hx : ExtentOf proj (outlines ++ rims) Prod.fst x)
    (hy : ExtentOf proj (outlines ++ rims) Prod.snd y) (fuel : ℕ) (inv : ℝ × ℝ → Option (ℝ × ℝ)) (ρ : ℝ → ℚ) (offset : ℝ)
    (hc : inv (x.1, y.1) = none ∨ inv (x.2, y.2) = none) :
    (∃ l, mapLimits proj true outlines rims = .ok l) ∧ mapPlot fuel proj inv ρ offset outlines rims = some (.error .value) := by
  obtain ⟨xr, yr, hl, e⟩ := mapPlot_eq h hn hx hy fuel inv ρ offset
  refine ⟨⟨_, hl⟩, ?_⟩
  rw [e]
  have : mapGrid fuel proj inv ρ offset x y xr yr = some (.error .value) := by
    unfold mapGrid
    dsimp only
    have : gridTicks fuel ((inv (x.1, y.1)).map Prod.fst) ((inv (x.2, y.2)).map Prod.fst) = some (.error .value) := by
      rcases hc with hc | hc
      · rw [hc]; rfl
      · rw [hc]
        cases inv (x.1, y.1) <;> rfl
    rw [this]
  rw [this]
  rfl

/-- Specification: `inv` inverts the orthographic projection of a body of radius `R`; longitudes are from -180° to 180°, and only places on its disc
have a counterpart (pyproj). -/
structure InvertsOrtho (R lon0 lat0 : ℝ) (inv : ℝ × ℝ → Option (ℝ × ℝ)) : Prop where
  sound : ∀ q p, inv q = some p → ortho R lon0 lat0 p = some q ∧ |p.1| ≤ 180 ∧ |p.2| ≤ 90
  outside : ∀ q, R ^ 2 < q.1 ^ 2 + q.2 ^ 2 → inv q = none
  inside : ∀ q, q.1 ^ 2 + q.2 ^ 2 ≤ R ^ 2 → ∃ p, inv q = some p

/-- every place of the disc has a counterpart on the body -/
theorem ortho_onto {R : ℝ} (hR : 0 < R) (lon0 lat0 : ℝ) {q : ℝ × ℝ} (hq : q.1 ^ 2 + q.2 ^ 2 ≤ R ^ 2) :
    ∃ p : ℝ × ℝ, ortho R lon0 lat0 p = some q ∧ |p.1| ≤ 180 ∧ |p.2| ≤ 90 := by
  have hpi := Real.pi_pos
  set x := q.1 / R with hx
  set y := q.2 / R with hy
  have hxy : x ^ 2 + y ^ 2 ≤ 1 := by
    rw [hx, hy, div_pow, div_pow, ← add_div]
    exact div_le_one_of_le₀ hq (by positivity)
  set c := Real.sqrt (1 - x ^ 2 - y ^ 2) with hc
  have hc0 : 0 ≤ c := Real.sqrt_nonneg _
  have hc2 : c ^ 2 = 1 - x ^ 2 - y ^ 2 := Real.sq_sqrt (by linarith)
  set b0 := lat0 * Real.pi / 180 with hb0
  set l0 := lon0 * Real.pi / 180 with hl0
  have eb := Real.sin_sq_add_cos_sq b0
  have el := Real.sin_sq_add_cos_sq l0
  set Z := Real.cos b0 * y + Real.sin b0 * c with hZ
  set A := Real.cos b0 * c - Real.sin b0 * y with hA
  have hAZ : A ^ 2 + Z ^ 2 = 1 - x ^ 2 := by
    have : A ^ 2 + Z ^ 2 = (Real.sin b0 ^ 2 + Real.cos b0 ^ 2) * (c ^ 2 + y ^ 2) := by rw [hA, hZ]; ring
    rw [this, eb, hc2]
    ring
  have hZ1 : Z ^ 2 ≤ 1 := by nlinarith [sq_nonneg A, sq_nonneg x]
  obtain ⟨z1, z2⟩ := abs_le.1 ((sq_le_one_iff_abs_le_one Z).1 hZ1)
  set z : ℂ := ⟨A * Real.cos l0 - x * Real.sin l0, A * Real.sin l0 + x * Real.cos l0⟩ with hz
  have hnorm : ‖z‖ = Real.cos (Real.arcsin Z) := by
    rw [Real.cos_arcsin, Complex.norm_def, Complex.normSq_mk]
    congr 1
    have : (A * Real.cos l0 - x * Real.sin l0) * (A * Real.cos l0 - x * Real.sin l0) +
        (A * Real.sin l0 + x * Real.cos l0) * (A * Real.sin l0 + x * Real.cos l0) = (Real.sin l0 ^ 2 + Real.cos l0 ^ 2) * (A ^ 2 + x ^ 2) := by ring
    rw [this, el]
    linarith
  have k1 : Real.cos (Real.arcsin Z) * Real.cos z.arg = A * Real.cos l0 - x * Real.sin l0 := by rw [← hnorm]; exact Complex.norm_mul_cos_arg z
  have k2 : Real.cos (Real.arcsin Z) * Real.sin z.arg = A * Real.sin l0 + x * Real.cos l0 := by rw [← hnorm]; exact Complex.norm_mul_sin_arg z
  refine ⟨(z.arg * 180 / Real.pi, Real.arcsin Z * 180 / Real.pi), ?_, ?_, ?_⟩
  · unfold ortho
    dsimp only
    have e1 : (z.arg * 180 / Real.pi - lon0) * Real.pi / 180 = z.arg - l0 := by
      rw [hl0]
      field_simp
    have e2 : Real.arcsin Z * 180 / Real.pi * Real.pi / 180 = Real.arcsin Z := by field_simp
    rw [e1, e2, ← hb0, Real.sin_arcsin z1 z2, Real.cos_sub, Real.sin_sub]
    have f1 : Real.cos (Real.arcsin Z) * (Real.cos z.arg * Real.cos l0 + Real.sin z.arg * Real.sin l0) = A := by
      have : Real.cos (Real.arcsin Z) * (Real.cos z.arg * Real.cos l0 + Real.sin z.arg * Real.sin l0) =
          (Real.cos (Real.arcsin Z) * Real.cos z.arg) * Real.cos l0 + (Real.cos (Real.arcsin Z) * Real.sin z.arg) * Real.sin l0 := by ring
      rw [this, k1, k2]
      linear_combination A * el
    have f2 : Real.cos (Real.arcsin Z) * (Real.sin z.arg * Real.cos l0 - Real.cos z.arg * Real.sin l0) = x := by
      have : Real.cos (Real.arcsin Z) * (Real.sin z.arg * Real.cos l0 - Real.cos z.arg * Real.sin l0) =
          (Real.cos (Real.arcsin Z) * Real.sin z.arg) * Real.cos l0 - (Real.cos (Real.arcsin Z) * Real.cos z.arg) * Real.sin l0 := by ring
      rw [this, k1, k2]
      linear_combination x * el
    rw [f2, mul_assoc, f1, mul_assoc, f1]
    have g1 : Real.sin b0 * Z + Real.cos b0 * A = c := by rw [hZ, hA]; linear_combination c * eb
    have g2 : Real.cos b0 * Z - Real.sin b0 * A = y := by rw [hZ, hA]; linear_combination y * eb
    rw [g1, g2, if_pos hc0, hx, hy]
    congr 1
    ext
    · dsimp only; field_simp
    · dsimp only; field_simp
  · have := Complex.abs_arg_le_pi z
    dsimp only
    rw [abs_div, abs_mul, abs_of_pos hpi, abs_of_pos (by norm_num : (0 : ℝ) < 180), div_le_iff₀ hpi]
    linarith
  · have h1 := Real.arcsin_le_pi_div_two Z
    have h2 := Real.neg_pi_div_two_le_arcsin Z
    dsimp only
    rw [abs_le, le_div_iff₀ hpi, div_le_iff₀ hpi]
    constructor <;> linarith

/-- there is such an inverse -/
theorem inverts_ortho {R : ℝ} (hR : 0 < R) (lon0 lat0 : ℝ) : ∃ inv, InvertsOrtho R lon0 lat0 inv := by
  classical
  refine ⟨fun q => if h : q.1 ^ 2 + q.2 ^ 2 ≤ R ^ 2 then some (ortho_onto hR lon0 lat0 h).choose else none, ?_, ?_, ?_⟩
  · intro q p h
    split at h
    · rename_i hq
      injection h with h
      subst h
      exact (ortho_onto hR lon0 lat0 hq).choose_spec
    · cases h
  · intro q h
    rw [dif_neg (not_le.2 h)]
  · intro q h
    rw [dif_pos h]
    exact ⟨_, rfl⟩

/-- the hypotheses of the theorem about the grid: a rectangle around a place of the Moon -/
example : ∃ inv sw ne, InvertsOrtho 1737.4 0 0 inv ∧ inv (-100, -50) = some sw ∧ inv (100, 50) = some ne ∧ sw.2 ≠ ne.2 := by
  obtain ⟨inv, h⟩ := inverts_ortho (R := 1737.4) (by norm_num) 0 0
  obtain ⟨sw, h1⟩ := h.inside (-100, -50) (by norm_num)
  obtain ⟨ne, h2⟩ := h.inside (100, 50) (by norm_num)
  refine ⟨inv, sw, ne, h, h1, h2, ?_⟩
  intro e
  have key : ∀ q p, inv q = some p → q.2 = 1737.4 * Real.sin (p.2 * Real.pi / 180) := by
    intro q p hq
    have ho := (h.sound q p hq).1
    unfold ortho at ho
    dsimp only at ho
    split at ho
    · injection ho with ho
      subst ho
      simp
    · cases ho
  have a := key _ _ h1
  have b := key _ _ h2
  rw [e, ← b] at a
  norm_num at a

/-- the extent of four places -/
theorem extent_four {proj : ℝ × ℝ → Option (ℝ × ℝ)} {a b c d : ℝ × ℝ} {u : ℝ} (hu : 0 ≤ u) (ha : proj a = some (-u, 0)) (hb : proj b = some (0, u))
    (hc : proj c = some (u, 0)) (hd : proj d = some (0, -u)) :
    ExtentOf proj ([[a, b, c, d, a]] ++ []) Prod.fst (-u, u) ∧ ExtentOf proj ([[a, b, c, d, a]] ++ []) Prod.snd (-u, u) := by
  have hm : [[a, b, c, d, a]] ++ ([] : List Ring) = [[a, b, c, d, a]] := rfl
  rw [hm]
  have m1 : [a, b, c, d, a] ∈ [[a, b, c, d, a]] := List.mem_singleton_self _
  have all : ∀ ring ∈ [[a, b, c, d, a]], ∀ p ∈ ring, ∃ q, proj p = some q ∧ (-u ≤ q.1 ∧ q.1 ≤ u) ∧ -u ≤ q.2 ∧ q.2 ≤ u := by
    intro ring hr p hp
    rw [List.mem_singleton] at hr
    subst hr
    simp only [List.mem_cons, List.not_mem_nil, or_false] at hp
    rcases hp with rfl | rfl | rfl | rfl | rfl
    · exact ⟨_, ha, by constructor <;> constructor <;> simp <;> linarith⟩
    · exact ⟨_, hb, by constructor <;> constructor <;> simp <;> linarith⟩
    · exact ⟨_, hc, by constructor <;> constructor <;> simp <;> linarith⟩
    · exact ⟨_, hd, by constructor <;> constructor <;> simp <;> linarith⟩
    · exact ⟨_, ha, by constructor <;> constructor <;> simp <;> linarith⟩
  constructor
  · refine ⟨⟨_, m1, a, by simp, _, ha, rfl⟩, ⟨_, m1, c, by simp, _, hc, rfl⟩, fun r hr p hp => ?_⟩
    obtain ⟨q, hq, h, -⟩ := all r hr p hp
    exact ⟨q, hq, h⟩
  · refine ⟨⟨_, m1, d, by simp, _, hd, rfl⟩, ⟨_, m1, b, by simp, _, hb, rfl⟩, fun r hr p hp => ?_⟩
    obtain ⟨q, hq, -, h⟩ := all r hr p hp
    exact ⟨q, hq, h⟩

/-- places near the middle, on the equator or on the middle meridian -/
theorem ortho_cross (R lon0 : ℝ) {a : ℝ} (ha : |a| ≤ 90) : ortho R lon0 0 (lon0 + a, 0) = some (R * Real.sin (a * Real.pi / 180), 0) ∧
    ortho R lon0 0 (lon0, a) = some (0, R * Real.sin (a * Real.pi / 180)) := by
  have hpi := Real.pi_pos
  have hcos : 0 ≤ Real.cos (a * Real.pi / 180) := by
    apply Real.cos_nonneg_of_mem_Icc
    constructor <;> nlinarith [(abs_le.1 ha).1, (abs_le.1 ha).2]
  unfold ortho
  simp only [add_sub_cancel_left, zero_mul, zero_div, Real.sin_zero, Real.cos_zero, zero_mul, one_mul, mul_one, zero_add, mul_zero, sub_zero,
    sub_self]
  exact ⟨if_pos hcos, if_pos hcos⟩

/-- **C137 is false of the code: wide areas.**  There is no map of an area of the shape of a square standing on a corner, reaching 60° from its
middle: the corners of its bounding rectangle lie beyond the edge of the disc.  Without the grid it could be drawn. -/
theorem C137_wide_counterexample (R : ℝ) (hR : 0 < R) (inv : ℝ × ℝ → Option (ℝ × ℝ)) (hinv : InvertsOrtho R 0 0 inv) (fuel : ℕ) (ρ : ℝ → ℚ)
    (offset : ℝ) :
    let area := [(-60, 0), (0, 60), (60, 0), (0, -60), (-60, 0)]
    (∃ l, mapLimits (ortho R 0 0) true [area] [] = .ok l) ∧ mapPlot fuel (ortho R 0 0) inv ρ offset [area] [] = some (.error .value) := by
  dsimp only
  have hs : Real.sin (60 * Real.pi / 180) = Real.sqrt 3 / 2 := by
    rw [show 60 * Real.pi / 180 = Real.pi / 3 by ring, Real.sin_pi_div_three]
  have hsq : Real.sqrt 3 ^ 2 = 3 := Real.sq_sqrt (by norm_num)
  have h3 : 0 ≤ Real.sqrt 3 := Real.sqrt_nonneg _
  obtain ⟨p1, p2⟩ := ortho_cross R 0 (a := 60) (by norm_num)
  obtain ⟨n1, n2⟩ := ortho_cross R 0 (a := -60) (by norm_num)
  have hneg : Real.sin (-60 * Real.pi / 180) = -(Real.sqrt 3 / 2) := by
    rw [show -60 * Real.pi / 180 = -(60 * Real.pi / 180) by ring, Real.sin_neg, hs]
  rw [hs] at p1 p2
  rw [hneg, mul_neg] at n1 n2
  rw [zero_add] at p1 n1
  have hu : 0 ≤ R * (Real.sqrt 3 / 2) := by positivity
  obtain ⟨ex, ey⟩ := extent_four hu n1 p2 p1 n2
  refine C137_corner_counterexample (by simp) (by simp) ex ey fuel inv ρ offset (Or.inr (hinv.outside _ ?_))
  dsimp only
  have : (R * (Real.sqrt 3 / 2)) ^ 2 = R ^ 2 * 3 / 4 := by
    rw [mul_pow, div_pow, hsq]
    ring
  rw [this]
  nlinarith [sq_nonneg R, mul_pos hR hR]

/-- **C137 is false of the code: around a pole.**  There is no map of an area around the pole of which the bounding rectangle is centred at the
pole: both corners have the same latitude. -/
theorem C137_pole_counterexample (R : ℝ) (hR : 0 < R) (inv : ℝ × ℝ → Option (ℝ × ℝ)) (hinv : InvertsOrtho R 0 90 inv) (ρ : ℝ → ℚ)
    (offset : ℝ) :
    let area := [(-90, 80), (180, 80), (90, 80), (0, 80), (-90, 80)]
    (∃ l, mapLimits (ortho R 0 90) true [area] [] = .ok l) ∧ ∃ N, ∀ fuel, N < fuel → ∃ e, mapPlot fuel (ortho R 0 90) inv ρ offset [area] [] =
      some (.error e) := by
  dsimp only
  have hpi := Real.pi_pos
  have hmid : (90 : ℝ) * Real.pi / 180 = Real.pi / 2 := by ring
  set b := (80 : ℝ) * Real.pi / 180 with hb
  have hsb : 0 ≤ Real.sin b := Real.sin_nonneg_of_nonneg_of_le_pi (by positivity) (by rw [hb]; linarith)
  have hcb : 0 ≤ Real.cos b := Real.cos_nonneg_of_mem_Icc ⟨by rw [hb]; linarith, by rw [hb]; linarith⟩
  have hor : ∀ lon : ℝ, ortho R 0 90 (lon, 80) = some (R * (Real.cos b * Real.sin (lon * Real.pi / 180)), R * (-(Real.cos b * Real.cos (lon * Real.pi / 180)))) := by
    intro lon
    unfold ortho
    dsimp only
    rw [hmid, Real.sin_pi_div_two, Real.cos_pi_div_two, ← hb, sub_zero, if_pos (by simpa using hsb)]
    congr 2
    ring
  have h1 : ortho R 0 90 (-90, 80) = some (-(R * Real.cos b), 0) := by
    rw [hor, show -90 * Real.pi / 180 = -(Real.pi / 2) by ring, Real.sin_neg, Real.cos_neg, Real.sin_pi_div_two, Real.cos_pi_div_two]
    simp
  have h2 : ortho R 0 90 (180, 80) = some (0, R * Real.cos b) := by
    rw [hor, show 180 * Real.pi / 180 = Real.pi by ring, Real.sin_pi, Real.cos_pi]
    simp
  have h3 : ortho R 0 90 (90, 80) = some (R * Real.cos b, 0) := by
    rw [hor, hmid, Real.sin_pi_div_two, Real.cos_pi_div_two]
    simp
  have h4 : ortho R 0 90 (0, 80) = some (0, -(R * Real.cos b)) := by
    rw [hor]
    simp
  have hu : 0 ≤ R * Real.cos b := by positivity
  obtain ⟨ex, ey⟩ := extent_four hu h1 h2 h3 h4
  obtain ⟨xr, yr, hl, -⟩ := mapPlot_eq (by simp) (by simp) ex ey 0 inv ρ offset
  refine ⟨⟨_, hl⟩, ?_⟩
  have hhalf : Real.cos b ^ 2 ≤ 1 / 2 := by
    have h4' : Real.cos b ≤ Real.cos (Real.pi / 4) := Real.cos_le_cos_of_nonneg_of_le_pi (by positivity) (by rw [hb]; linarith) (by rw [hb]; linarith)
    rw [Real.cos_pi_div_four] at h4'
    have hsq : Real.sqrt 2 ^ 2 = 2 := Real.sq_sqrt (by norm_num)
    have := Real.sqrt_nonneg 2
    nlinarith
  have hin : ∀ q : ℝ × ℝ, q.1 ^ 2 = (R * Real.cos b) ^ 2 → q.2 ^ 2 = (R * Real.cos b) ^ 2 → ∃ p, inv q = some p := by
    intro q h1 h2
    apply hinv.inside
    rw [h1, h2, mul_pow]
    nlinarith [sq_nonneg R]
  obtain ⟨sw, hsw⟩ := hin (-(R * Real.cos b), -(R * Real.cos b)) (by simp) (by simp)
  obtain ⟨ne, hne⟩ := hin (R * Real.cos b, R * Real.cos b) rfl rfl
  -- the latitude follows from the distance from the middle
  have hlat : ∀ q p, inv q = some p → 0 ≤ Real.sin (p.2 * Real.pi / 180) ∧ q.1 ^ 2 + q.2 ^ 2 = R ^ 2 * (1 - Real.sin (p.2 * Real.pi / 180) ^ 2) := by
    intro q p h
    have ho := (hinv.sound q p h).1
    unfold ortho at ho
    dsimp only at ho
    rw [hmid, Real.sin_pi_div_two, Real.cos_pi_div_two, sub_zero] at ho
    split at ho
    · rename_i hv
      injection ho with ho
      subst ho
      refine ⟨by simpa using hv, ?_⟩
      have e1 := Real.sin_sq_add_cos_sq (p.1 * Real.pi / 180)
      have e2 := Real.sin_sq_add_cos_sq (p.2 * Real.pi / 180)
      dsimp only
      have : (R * (Real.cos (p.2 * Real.pi / 180) * Real.sin (p.1 * Real.pi / 180))) ^ 2 +
          (R * (0 * Real.sin (p.2 * Real.pi / 180) - 1 * Real.cos (p.2 * Real.pi / 180) * Real.cos (p.1 * Real.pi / 180))) ^ 2 =
          R ^ 2 * Real.cos (p.2 * Real.pi / 180) ^ 2 * (Real.sin (p.1 * Real.pi / 180) ^ 2 + Real.cos (p.1 * Real.pi / 180) ^ 2) := by ring
      rw [this, e1]
      have e3 : Real.cos (p.2 * Real.pi / 180) ^ 2 = 1 - Real.sin (p.2 * Real.pi / 180) ^ 2 := by linarith
      rw [e3]
      ring
    · cases ho
  have heq : sw.2 = ne.2 := by
    obtain ⟨a1, a2⟩ := hlat _ _ hsw
    obtain ⟨b1, b2⟩ := hlat _ _ hne
    have hss : Real.sin (sw.2 * Real.pi / 180) = Real.sin (ne.2 * Real.pi / 180) := by
      have : R ^ 2 * (1 - Real.sin (sw.2 * Real.pi / 180) ^ 2) = R ^ 2 * (1 - Real.sin (ne.2 * Real.pi / 180) ^ 2) := by
        rw [← a2, ← b2]
        simp
      have hR2 : R ^ 2 ≠ 0 := by positivity
      have := mul_left_cancel₀ hR2 this
      exact (sq_eq_sq₀ a1 b1).1 (by linarith)
    have r1 := abs_le.1 (hinv.sound _ _ hsw).2.2
    have r2 := abs_le.1 (hinv.sound _ _ hne).2.2
    have := Real.injOn_sin (show sw.2 * Real.pi / 180 ∈ Set.Icc (-(Real.pi / 2)) (Real.pi / 2) from ⟨by nlinarith, by nlinarith⟩)
      (show ne.2 * Real.pi / 180 ∈ Set.Icc (-(Real.pi / 2)) (Real.pi / 2) from ⟨by nlinarith, by nlinarith⟩) hss
    have h' : sw.2 * Real.pi = ne.2 * Real.pi := by linarith
    exact mul_right_cancel₀ hpi.ne' h'
  have hy0 : ∀ fuel, gridTicks fuel (some sw.2) (some ne.2) = some (.error .nonFinite) := by
    intro fuel
    unfold gridTicks ticks
    dsimp only
    rw [range_two]
    dsimp only
    rw [heq, min_self, max_self, if_pos (sub_self _)]
  have hxN : ∃ N, ∀ fuel, N < fuel → (∃ t, gridTicks fuel (some sw.1) (some ne.1) = some (.ok t)) ∨ ∃ e, gridTicks fuel (some sw.1) (some ne.1) = some (.error e) := by
    by_cases h : sw.1 = ne.1
    · refine ⟨0, fun fuel _ => Or.inr ⟨.nonFinite, ?_⟩⟩
      unfold gridTicks ticks
      dsimp only
      rw [range_two]
      dsimp only
      rw [h, min_self, max_self, if_pos (sub_self _)]
    · obtain ⟨N, t, _, _, _, _, h1, -⟩ := gridTicks_ok h
      exact ⟨N, fun fuel hf => Or.inl ⟨t, h1 fuel hf⟩⟩
  obtain ⟨N, hN⟩ := hxN
  refine ⟨N, fun fuel hf => ?_⟩
  obtain ⟨xr', yr', -, e⟩ := mapPlot_eq (by simp) (by simp) ex ey fuel inv ρ offset
  rw [e]
  unfold mapGrid
  dsimp only
  rw [hsw, hne, Option.map_some, Option.map_some, Option.map_some, Option.map_some, hy0]
  rcases hN fuel hf with ⟨t, ht⟩ | ⟨e, he⟩
  · rw [ht]
    exact ⟨_, rfl⟩
  · rw [he]
    exact ⟨_, rfl⟩

/-- **C137 is false of the code: across the 180° meridian.**  For an area of the shape of a square standing on a corner, reaching 10° from its middle
on the 180° meridian, the meridians drawn are those on the far side: the corners shown have longitudes `w` in the east and `e` in the west,
and no meridian is drawn between `w` and 180° or between -180° and `e`. -/
theorem C137_dateline_counterexample (R : ℝ) (hR : 0 < R) (inv : ℝ × ℝ → Option (ℝ × ℝ)) (hinv : InvertsOrtho R 180 0 inv) (ρ : ℝ → ℚ)
    (offset : ℝ) :
    let area := [(170, 0), (180, 10), (190, 0), (180, -10), (170, 0)]
    ∃ w e : ℝ, 90 ≤ w ∧ w < 180 ∧ -180 < e ∧ e ≤ -90 ∧ ∃ N, ∀ fuel, N < fuel → ∃ l ps ms,
      mapPlot fuel (ortho R 180 0) inv ρ offset [area] [] = some (.ok (l, ps, ms)) ∧ ms ≠ [] ∧ ∀ g ∈ ms, e < g.value ∧ g.value < w := by
  dsimp only
  have hpi := Real.pi_pos
  set u := Real.sin (10 * Real.pi / 180) with hu
  have hu0 : 0 < u := Real.sin_pos_of_pos_of_lt_pi (by positivity) (by linarith)
  have hu2 : u ^ 2 ≤ 1 / 2 := by
    have h4 : u ≤ Real.sin (Real.pi / 4) := Real.sin_le_sin_of_le_of_le_pi_div_two (by linarith) (by linarith) (by linarith)
    rw [Real.sin_pi_div_four] at h4
    have hsq : Real.sqrt 2 ^ 2 = 2 := Real.sq_sqrt (by norm_num)
    have := Real.sqrt_nonneg 2
    nlinarith
  obtain ⟨p1, p2⟩ := ortho_cross R 180 (a := 10) (by norm_num)
  obtain ⟨n1, n2⟩ := ortho_cross R 180 (a := -10) (by norm_num)
  have hneg : Real.sin (-10 * Real.pi / 180) = -u := by
    rw [show -10 * Real.pi / 180 = -(10 * Real.pi / 180) by ring, Real.sin_neg]
  rw [← hu, show (180 : ℝ) + 10 = 190 by norm_num] at p1
  rw [← hu] at p2
  rw [hneg, mul_neg, show (180 : ℝ) + -10 = 170 by norm_num] at n1
  rw [hneg, mul_neg] at n2
  have hRu : 0 < R * u := by positivity
  obtain ⟨ex, ey⟩ := extent_four hRu.le n1 p2 p1 n2
  have hin : ∀ q : ℝ × ℝ, q.1 ^ 2 = (R * u) ^ 2 → q.2 ^ 2 = (R * u) ^ 2 → ∃ p, inv q = some p := by
    intro q h1 h2
    apply hinv.inside
    rw [h1, h2, mul_pow]
    nlinarith [sq_nonneg R]
  obtain ⟨sw, hsw⟩ := hin (-(R * u), -(R * u)) (by simp) (by simp)
  obtain ⟨ne, hne⟩ := hin (R * u, R * u) rfl rfl
  -- where the corners are
  have hat : ∀ q p, inv q = some p → q.2 = R * Real.sin (p.2 * Real.pi / 180) ∧
      q.1 = -(R * (Real.cos (p.2 * Real.pi / 180) * Real.sin (p.1 * Real.pi / 180))) ∧
      0 ≤ Real.cos (p.2 * Real.pi / 180) * -Real.cos (p.1 * Real.pi / 180) := by
    intro q p h
    have ho := (hinv.sound q p h).1
    unfold ortho at ho
    dsimp only at ho
    rw [zero_mul, zero_div, Real.sin_zero, Real.cos_zero, show (p.1 - 180) * Real.pi / 180 = p.1 * Real.pi / 180 - Real.pi by ring,
      Real.sin_sub_pi, Real.cos_sub_pi] at ho
    split at ho
    · rename_i hv
      injection ho with ho
      subst ho
      refine ⟨by simp, by simp, by simpa using hv⟩
    · cases ho
  have hcosnn : ∀ q p, inv q = some p → 0 ≤ Real.cos (p.2 * Real.pi / 180) := by
    intro q p h
    have := abs_le.1 (hinv.sound q p h).2.2
    apply Real.cos_nonneg_of_mem_Icc
    constructor <;> nlinarith
  have hlon : ∀ q p, inv q = some p → q.1 ≠ 0 → Real.cos (p.1 * Real.pi / 180) ≤ 0 ∧ (q.1 < 0 ↔ 0 < Real.sin (p.1 * Real.pi / 180)) := by
    intro q p h hq
    obtain ⟨-, e1, e2⟩ := hat q p h
    have hc := hcosnn q p h
    have hc' : 0 < Real.cos (p.2 * Real.pi / 180) := by
      rcases hc.eq_or_lt with h0 | h0
      · rw [← h0] at e1
        exact absurd (by rw [e1]; ring) hq
      · exact h0
    refine ⟨?_, ?_⟩
    · by_contra hx
      have := mul_pos hc' (not_le.1 hx)
      nlinarith
    · rw [e1]
      have hRc : 0 < R * Real.cos (p.2 * Real.pi / 180) := by positivity
      constructor
      · intro hx
        by_contra hs
        have := mul_nonpos_of_nonneg_of_nonpos hRc.le (not_lt.1 hs)
        nlinarith
      · intro hs
        have := mul_pos hRc hs
        nlinarith
  have hw : 90 ≤ sw.1 ∧ sw.1 < 180 := by
    obtain ⟨k1, k2⟩ := hlon _ _ hsw (by simpa using hRu.ne')
    have k3 := k2.1 (by simpa using hRu)
    have hb := abs_le.1 (hinv.sound _ _ hsw).2.1
    have hpos : 0 < sw.1 := by
      by_contra h
      have := Real.sin_nonpos_of_nonpos_of_neg_pi_le (x := sw.1 * Real.pi / 180) (by nlinarith) (by nlinarith)
      linarith
    constructor
    · by_contra h
      have := Real.cos_pos_of_mem_Ioo (x := sw.1 * Real.pi / 180) ⟨by nlinarith, by nlinarith⟩
      linarith
    · rcases hb.2.eq_or_lt with h | h
      · rw [h, show 180 * Real.pi / 180 = Real.pi by ring, Real.sin_pi] at k3
        exact absurd k3 (lt_irrefl _)
      · exact h
  have he : -180 < ne.1 ∧ ne.1 ≤ -90 := by
    obtain ⟨k1, k2⟩ := hlon _ _ hne hRu.ne'
    obtain ⟨-, e1, -⟩ := hat _ _ hne
    have k3 : Real.sin (ne.1 * Real.pi / 180) < 0 := by
      rcases lt_trichotomy (Real.sin (ne.1 * Real.pi / 180)) 0 with h | h | h
      · exact h
      · rw [h] at e1
        simp only [mul_zero, neg_zero] at e1
        exact absurd e1 hRu.ne'
      · have := k2.2 h
        dsimp only at this
        linarith
    have hb := abs_le.1 (hinv.sound _ _ hne).2.1
    have hneg : ne.1 < 0 := by
      by_contra h
      have := Real.sin_nonneg_of_nonneg_of_le_pi (x := ne.1 * Real.pi / 180) (by have := not_lt.1 h; positivity) (by nlinarith)
      linarith
    constructor
    · rcases hb.1.eq_or_lt with h | h
      · rw [← h, show -180 * Real.pi / 180 = -Real.pi by ring, Real.sin_neg, Real.sin_pi] at k3
        simp at k3
      · exact h
    · by_contra h
      have := Real.cos_pos_of_mem_Ioo (x := ne.1 * Real.pi / 180) ⟨by nlinarith, by nlinarith⟩
      linarith
  have hlat : sw.2 ≠ ne.2 := by
    intro h
    obtain ⟨a1, -, -⟩ := hat _ _ hsw
    obtain ⟨b1, -, -⟩ := hat _ _ hne
    rw [h, ← b1] at a1
    dsimp only at a1
    linarith
  refine ⟨sw.1, ne.1, hw.1, hw.2, he.1, he.2, ?_⟩
  obtain ⟨xr, yr, hl, -⟩ := mapPlot_eq (by simp) (by simp) ex ey 0 inv ρ offset
  have hlim : ∀ xr yr : ℝ × ℝ, mapLimits (ortho R 180 0) true [[(170, 0), (180, 10), (190, 0), (180, -10), (170, 0)]] [] = .ok (xr, yr) →
      xr.1 ≤ xr.2 ∧ yr.1 ≤ yr.2 := by
    intro xr yr h
    obtain ⟨hs, -⟩ := C125_shown _ _ _ _ _ _ h
    obtain ⟨q, -, q1, q2, q3, q4⟩ := hs [(170, 0), (180, 10), (190, 0), (180, -10), (170, 0)] (by simp) (170, 0) (by simp)
    exact ⟨q1.trans q2, q3.trans q4⟩
  obtain ⟨h1, h2⟩ := hlim xr yr hl
  obtain ⟨N, ps, ms, hg, -, hr, -, -⟩ := C137_grid_partial (proj := ortho R 180 0) (inv := inv) ρ offset (xr0 := (-(R * u), R * u))
    (yr0 := (-(R * u), R * u)) h1 h2 hsw hne (by intro h; linarith [hw.1, he.2]) hlat
  refine ⟨N, fun fuel hf => ?_⟩
  obtain ⟨xr', yr', hl', e⟩ := mapPlot_eq (by simp) (by simp) ex ey fuel inv ρ offset
  rw [hl] at hl'
  cases hl'
  refine ⟨(xr, yr), ps, ms, ?_, ?_, ?_⟩
  · rw [e, hg fuel hf]
    rfl
  · rintro rfl
    obtain ⟨c, e, -, -, hlen, -⟩ := hr
    simp at hlen
  · intro g hgm
    obtain ⟨c, e', -, -, -, -, hv⟩ := hr
    have := (hv g.value).1 (List.mem_map.2 ⟨g, hgm, rfl⟩)
    rw [min_eq_right (by linarith [hw.1, he.2]), max_eq_left (by linarith [hw.1, he.2])] at this
    exact ⟨this.1, this.2.1⟩

end Verif.Props
