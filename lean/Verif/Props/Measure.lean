import Verif.Model.Measure
import Verif.Props.Neighbours

/-! C129: the measures of randomness depend only on where the craters are. -/

namespace Verif.Props

open Verif.Py Verif.Rand

variable {P ι : Type} [DecidableEq ι]

theorem isKth_perm {k : ℕ} {l l' : List ℝ} (h : l.Perm l') {x : ℝ} (hx : IsKth k l x) : IsKth k l' x :=
  ⟨h.mem_iff.1 hx.mem, h.countP_eq _ ▸ hx.below, h.countP_eq _ ▸ hx.above⟩

/-- the distances are those of a function of the crater -/
theorem kth_map {k : ℕ} {pts : List P} {D : P → List ℝ} {ds : List ℝ} (h : List.Forall₂ (fun pt d => IsKth k (D pt) d) pts ds) (f : P → ℝ)
    (hf : ∀ pt x, IsKth k (D pt) x → f pt = x) : ds = pts.map f := by
  induction h with
  | nil => rfl
  | cons hx _ ih => rw [List.map_cons, hf _ _ hx, ← ih]

open Classical in
/-- the value with index `k` -/
noncomputable def kthOf (k : ℕ) (l : List ℝ) : ℝ := if h : ∃ x, IsKth k l x then h.choose else 0

theorem kthOf_eq {k : ℕ} {l : List ℝ} {x : ℝ} (h : IsKth k l x) : kthOf k l = x := by
  have he : ∃ x, IsKth k l x := ⟨x, h⟩
  rw [kthOf, dif_pos he]
  exact isKth_unique he.choose_spec h

theorem kthMeasure_eq {S : Sphere P ι} (hcone : ∀ p q r, S.dist p q ≤ r → S.cell q ∈ S.cone p r) (hnd : ∀ p r, (S.cone p r).Nodup) {k fuel : ℕ}
    {pts : List P} {m : ℝ} {nb : List P} (h : kthMeasure S (fileCraters S pts) k fuel pts (pts.map S.cell) = some (.ok (m, nb))) :
    m = (pts.map (fun pt => kthOf k (pts.map (S.dist pt)))).sum / pts.length := by
  obtain ⟨hperm, hkeys, hown⟩ := C52_filed S pts
  obtain ⟨ds, hm, hds, -⟩ := C52_exact hcone hnd hkeys hown (List.length_map _) h
  have := kth_map hds (fun pt => kthOf k (pts.map (S.dist pt))) (fun pt x hx => kthOf_eq (isKth_perm (hperm.map _) hx))
  rw [hm, this, List.length_map]

/-- **C129: order and grid do not matter.**  The value of a measure is the same for every order of the craters, and for every grid used for the
search (any resolution, any neighbourhood of its cells).  Assumed: the cone searches return every cell holding a point within the radius, once;
the cell of a point does not depend on the order in which the points are given. -/
theorem C129_order {ι' : Type} [DecidableEq ι'] {S : Sphere P ι} {S' : Sphere P ι'} (hcone : ∀ p q r, S.dist p q ≤ r → S.cell q ∈ S.cone p r)
    (hnd : ∀ p r, (S.cone p r).Nodup) (hcone' : ∀ p q r, S'.dist p q ≤ r → S'.cell q ∈ S'.cone p r) (hnd' : ∀ p r, (S'.cone p r).Nodup)
    (hdist : S'.dist = S.dist) {voronoi : List P → Except Exc (P → ℝ)} (hv : ∀ l l' : List P, l.Perm l' → voronoi l = voronoi l')
    {pts pts' : List P} (hp : pts.Perm pts') {w : List Char} {fuel fuel' : ℕ} {m m' : ℝ}
    (h : measureCount S voronoi fuel w pts = some (.ok m)) (h' : measureCount S' voronoi fuel' w pts' = some (.ok m')) : m = m' := by
  unfold measureCount evaluateRandomness at h h'
  by_cases h1 : w = "m2cnd".toList
  · rw [if_pos h1, Option.map_eq_some_iff] at h h'
    obtain ⟨r, hr, he⟩ := h
    obtain ⟨r', hr', he'⟩ := h'
    cases r with
    | error e => cases he
    | ok x =>
      cases r' with
      | error e => cases he'
      | ok x' =>
        obtain ⟨y, nb⟩ := x
        obtain ⟨y', nb'⟩ := x'
        cases he
        cases he'
        show y = y'
        rw [kthMeasure_eq hcone hnd hr, kthMeasure_eq hcone' hnd' hr', hdist, hp.length_eq]
        congr 1
        have hf : (fun pt => kthOf 2 (pts.map (S.dist pt))) = fun pt => kthOf 2 (pts'.map (S.dist pt)) := by
          funext pt
          have key : ∀ {l l' : List ℝ} {x : ℝ}, l.Perm l' → IsKth 2 l x → IsKth 2 l' x := fun h hx => isKth_perm h hx
          by_cases hx : ∃ x, IsKth 2 (pts.map (S.dist pt)) x
          · obtain ⟨x, hx⟩ := hx
            rw [kthOf_eq hx, kthOf_eq (key (hp.map _) hx)]
          · have hx' : ¬∃ x, IsKth 2 (pts'.map (S.dist pt)) x := fun ⟨x, hx'⟩ => hx ⟨x, key (hp.symm.map _) hx'⟩
            rw [kthOf, kthOf, dif_neg hx, dif_neg hx']
        rw [hf]
        exact (hp.map (fun pt => kthOf 2 (pts'.map (S.dist pt)))).sum_eq
  · rw [if_neg h1] at h h'
    by_cases h2 : w = "sdaa".toList
    · rw [if_pos h2] at h h'
      unfold sdaa at h h'
      rw [hv pts pts' hp] at h
      cases hvo : voronoi pts' with
      | error e => rw [hvo] at h; cases h
      | ok area =>
        rw [hvo] at h h'
        have g : stdOf (pts.map area) = .ok m := Option.some.inj h
        have g' : stdOf (pts'.map area) = .ok m' := Option.some.inj h'
        unfold stdOf at g g'
        by_cases he : pts = []
        · rw [if_pos (by rw [he]; rfl)] at g
          cases g
        · have he' : pts' ≠ [] := fun e => he (by rw [e] at hp; exact hp.eq_nil)
          rw [if_neg (by rw [List.map_eq_nil_iff]; exact he)] at g
          rw [if_neg (by rw [List.map_eq_nil_iff]; exact he')] at g'
          cases g
          cases g'
          have hs := (hp.map area).sum_eq
          have hl := (hp.map area).length_eq
          rw [hs, hl]
          congr 2
          exact ((hp.map area).map _).sum_eq
    · rw [if_neg h2] at h
      cases h

/-- **C129: standard deviation of adjacent area.**  It is never negative, it is 0 exactly if all cells have the same area, and it grows in
proportion to the areas. -/
theorem C129_sdaa {voronoi : List P → Except Exc (P → ℝ)} {pts : List P} {area : P → ℝ} (hv : voronoi pts = .ok area) (hne : pts ≠ []) :
    ∃ m, sdaa voronoi pts = .ok m ∧ 0 ≤ m ∧ (m = 0 ↔ ∀ p ∈ pts, ∀ q ∈ pts, area p = area q) ∧
      m ^ 2 * pts.length = (pts.map (fun p => (area p - (pts.map area).sum / pts.length) ^ 2)).sum ∧
      ∀ c, 0 ≤ c → sdaa (fun _ => .ok (fun p => c * area p)) pts = .ok (c * m) := by
  have hlen : (0 : ℝ) < pts.length := by exact_mod_cast List.length_pos_iff.2 hne
  set mean := (pts.map area).sum / pts.length with hmean
  set q := (pts.map (fun p => (area p - mean) ^ 2)).sum with hq
  have hq0 : 0 ≤ q := List.sum_nonneg (by
    intro x hx
    obtain ⟨p, -, rfl⟩ := List.mem_map.1 hx
    exact sq_nonneg _)
  have hval : sdaa voronoi pts = .ok (Real.sqrt (q / pts.length)) := by
    unfold sdaa
    rw [hv]
    show stdOf (pts.map area) = _
    unfold stdOf
    rw [if_neg (by rw [List.map_eq_nil_iff]; exact hne), List.map_map, List.length_map]
    rfl
  refine ⟨_, hval, Real.sqrt_nonneg _, ?_, ?_, ?_⟩
  · rw [Real.sqrt_eq_zero (by positivity), div_eq_zero_iff, or_iff_left hlen.ne', hq]
    have hz : (pts.map (fun p => (area p - mean) ^ 2)).sum = 0 ↔ ∀ p ∈ pts, area p = mean := by
      constructor
      · intro h p hp
        have hall : ∀ x ∈ pts.map (fun p => (area p - mean) ^ 2), 0 ≤ x := by
          intro x hx
          obtain ⟨p, -, rfl⟩ := List.mem_map.1 hx
          exact sq_nonneg _
        have hle := List.single_le_sum hall ((area p - mean) ^ 2) (List.mem_map.2 ⟨p, hp, rfl⟩)
        rw [h] at hle
        have := pow_eq_zero_iff (two_ne_zero) |>.1 (le_antisymm hle (sq_nonneg (area p - mean)))
        linarith
      · intro h
        have : pts.map (fun p => (area p - mean) ^ 2) = pts.map (fun _ => (0 : ℝ)) := List.map_congr_left (fun p hp => by rw [h p hp]; ring)
        rw [this]
        simp
    rw [hz]
    constructor
    · intro h p hp r hr
      rw [h p hp, h r hr]
    · intro h p hp
      have hc : pts.map area = pts.map (fun _ => area p) := List.map_congr_left (fun r hr => h r hr p hp)
      rw [hmean, hc, List.map_const', List.sum_replicate, nsmul_eq_mul]
      field_simp
  · rw [Real.sq_sqrt (by positivity)]
    field_simp
  · intro c hc
    unfold sdaa
    show stdOf (pts.map (fun p => c * area p)) = _
    unfold stdOf
    rw [if_neg (by rw [List.map_eq_nil_iff]; exact hne), List.map_map, List.length_map]
    have hs : (pts.map (fun p => c * area p)).sum = c * (pts.map area).sum := List.sum_map_mul_left ..
    have hm : (pts.map (fun p => c * area p)).sum / pts.length = c * mean := by rw [hs, hmean, mul_div_assoc]
    rw [hm]
    have hsum : (pts.map ((fun x => (x - c * mean) ^ 2) ∘ fun p => c * area p)).sum = c ^ 2 * q := by
      rw [hq, ← List.sum_map_mul_left]
      congr 1
      refine List.map_congr_left (fun p _ => ?_)
      simp only [Function.comp]
      ring
    rw [hsum, mul_div_assoc, Real.sqrt_mul (by positivity), Real.sqrt_sq hc]

/-- **C129: measures.**  Two measures are known; another name is an error, whatever the craters. -/
theorem C129_unknown (S : Sphere P ι) (voronoi : List P → Except Exc (P → ℝ)) (fuel : ℕ) (pts : List P) {w : List Char}
    (h1 : w ≠ "m2cnd".toList) (h2 : w ≠ "sdaa".toList) : ∃ e, measureCount S voronoi fuel w pts = some (.error e) := by
  unfold measureCount evaluateRandomness
  rw [if_neg h1, if_neg h2]
  exact ⟨_, rfl⟩

/-- three craters on a line, counted in two orders -/
example : ∃ m, measureCount lineSphere (fun _ => .error .value) 2 "m2cnd".toList [0, 5, 9] = some (.ok m) ∧
    measureCount lineSphere (fun _ => .error .value) 2 "m2cnd".toList [9, 0, 5] = some (.ok m) := by
  have hc : ∀ p q r, lineSphere.dist p q ≤ r → lineSphere.cell q ∈ lineSphere.cone p r := by intro p q r _; simp [lineSphere]
  have hn : ∀ p r, (lineSphere.cone p r).Nodup := fun p r => List.nodup_finRange 10
  have key : ∀ l : List (Fin 10), l.length = 3 → ∃ m, measureCount lineSphere (fun _ => .error .value) 2 "m2cnd".toList l = some (.ok m) := by
    intro l hl
    obtain ⟨f1, f2, f3⟩ := C52_filed lineSphere l
    obtain ⟨m, nb, h⟩ := C52_found hc hn f2 f3 (k := 2) (adj := fun _ _ => True) (J := 1) (pts := l) (ids := l.map lineSphere.cell)
      (by
        intro l c
        simp only [lineSphere, List.mem_flatMap, List.mem_finRange, and_true])
      (by intro e; rw [e] at hl; cases hl) (List.length_map _) (fun id _ e _ => .step 0 id _ (.here 0) trivial) (by rw [f1.length_eq, hl])
    refine ⟨m, ?_⟩
    unfold measureCount evaluateRandomness
    rw [if_pos rfl, h]
    rfl
  obtain ⟨m, h⟩ := key [0, 5, 9] rfl
  obtain ⟨m', h'⟩ := key [9, 0, 5] rfl
  have hperm : ([0, 5, 9] : List (Fin 10)).Perm [9, 0, 5] := by decide
  have := C129_order hc hn hc hn rfl (fun _ _ _ => rfl) hperm h h'
  exact ⟨m, h, this ▸ h'⟩

/-- **C129: second closest neighbour.**  The mean second closest neighbour distance is the mean of the distances with index 2 (index 0 is the
crater itself); a map in other units, or of a planet of another radius, gives a value in proportion. -/
theorem C129_m2cnd {S : Sphere P ι} (hcone : ∀ p q r, S.dist p q ≤ r → S.cell q ∈ S.cone p r) (hnd : ∀ p r, (S.cone p r).Nodup)
    {voronoi : List P → Except Exc (P → ℝ)} {pts : List P} {fuel : ℕ} {m : ℝ}
    (h : measureCount S voronoi fuel "m2cnd".toList pts = some (.ok m)) :
    (∃ ds : List ℝ, m = ds.sum / ds.length ∧ List.Forall₂ (fun pt d => IsKth 2 (pts.map (S.dist pt)) d) pts ds) ∧
      ∀ {ι' : Type} [DecidableEq ι'] (S' : Sphere P ι') (c : ℝ) (m' : ℝ) (fuel' : ℕ), 0 < c → (∀ p q, S'.dist p q = c * S.dist p q) →
        (∀ p q r, S'.dist p q ≤ r → S'.cell q ∈ S'.cone p r) → (∀ p r, (S'.cone p r).Nodup) →
        measureCount S' voronoi fuel' "m2cnd".toList pts = some (.ok m') → m' = c * m := by
  have key : ∀ {ι' : Type} [DecidableEq ι'] {S' : Sphere P ι'} (_ : ∀ p q r, S'.dist p q ≤ r → S'.cell q ∈ S'.cone p r)
      (_ : ∀ p r, (S'.cone p r).Nodup) {fuel' : ℕ} {m' : ℝ}, measureCount S' voronoi fuel' "m2cnd".toList pts = some (.ok m') →
      ∃ ds : List ℝ, m' = ds.sum / ds.length ∧ List.Forall₂ (fun pt d => IsKth 2 (pts.map (S'.dist pt)) d) pts ds := by
    intro ι' _ S' hcone' hnd' fuel' m' h
    unfold measureCount evaluateRandomness at h
    rw [if_pos rfl, Option.map_eq_some_iff] at h
    obtain ⟨r, hr, he⟩ := h
    cases r with
    | error e => cases he
    | ok x =>
      obtain ⟨y, nb⟩ := x
      cases he
      obtain ⟨hperm, hkeys, hown⟩ := C52_filed S' pts
      obtain ⟨ds, hm, hds, -⟩ := C52_exact hcone' hnd' hkeys hown (List.length_map _) hr
      exact ⟨ds, hm, hds.imp (fun pt d hd => isKth_perm (hperm.map _) hd)⟩
  refine ⟨key hcone hnd h, ?_⟩
  intro ι' _ S' c m' fuel' hc hd hcone' hnd' h'
  obtain ⟨ds, hm, hds⟩ := key hcone hnd h
  obtain ⟨ds', hm', hds'⟩ := key hcone' hnd' h'
  have hscale : ∀ pt x, IsKth 2 (pts.map (S.dist pt)) x → IsKth 2 (pts.map (S'.dist pt)) (c * x) := by
    intro pt x hx
    have hl : pts.map (S'.dist pt) = (pts.map (S.dist pt)).map (fun y => c * y) := by
      rw [List.map_map]
      exact List.map_congr_left (fun q _ => hd pt q)
    rw [hl]
    refine ⟨List.mem_map.2 ⟨x, hx.mem, rfl⟩, ?_, ?_⟩
    · rw [List.countP_map]
      refine le_trans (le_of_eq (List.countP_congr (fun y _ => ?_))) hx.below
      simp [mul_lt_mul_iff_right₀ hc]
    · rw [List.countP_map]
      refine lt_of_lt_of_eq hx.above (List.countP_congr (fun y _ => ?_)).symm
      simp [mul_le_mul_iff_right₀ hc]
  have e1 : ds = pts.map (fun pt => kthOf 2 (pts.map (S.dist pt))) := kth_map hds _ (fun _ _ hx => kthOf_eq hx)
  have hds2 : List.Forall₂ (fun pt d => IsKth 2 (pts.map (S'.dist pt)) d) pts (ds.map (fun x => c * x)) := by
    rw [List.forall₂_map_right_iff]
    exact hds.imp (fun pt x hx => hscale pt x hx)
  have e2 : ds' = ds.map (fun x => c * x) := (kth_map hds' (fun pt => kthOf 2 (pts.map (S'.dist pt))) (fun _ _ hx => kthOf_eq hx)).trans
    (kth_map hds2 (fun pt => kthOf 2 (pts.map (S'.dist pt))) (fun _ _ hx => kthOf_eq hx)).symm
  rw [hm', hm, e2, List.length_map]
  have : (ds.map (fun x => c * x)).sum = c * ds.sum := by
    have := List.sum_map_mul_left (l := ds) (f := fun x : ℝ => x) (r := c)
    simpa using this
  rw [this, mul_div_assoc]

/-- cells of areas 1 and 3 -/
example : sdaa (fun _ : List Bool => .ok (fun b => if b then 1 else 3)) [true, false] = .ok 1 := by
  obtain ⟨m, h, h0, -, h2, -⟩ := C129_sdaa (voronoi := fun _ : List Bool => .ok (fun b => if b then (1 : ℝ) else 3)) (pts := [true, false]) rfl (by simp)
  have : m = 1 := by
    norm_num at h2
    rcases h2 with h2 | h2
    · exact h2
    · linarith
  rw [h, this]

end Verif.Props
