import Verif.Model.Cratercount
import Verif.Spec.Binning
import Mathlib.Tactic.IntervalCases

/-! Lemmas on boundary lists, slices and logarithmic grids. -/

namespace Verif.Cratercount
open Verif.Py Verif.Spec

theorem slice_length {α : Type*} (l : List α) (i j : ℕ) (h : j ≤ l.length) :
    (slice l i j).length = j - i := by
  simp [slice, h]

theorem slice_getElem {α : Type*} (l : List α) (i j k : ℕ) (h : k < (slice l i j).length)
    (h' : i + k < l.length) : (slice l i j)[k] = l[i + k] := by
  simp [slice]

theorem slice_sublist {α : Type*} (l : List α) (i j : ℕ) : (slice l i j).Sublist l :=
  (List.drop_sublist _ _).trans (List.take_sublist _ _)

theorem pairwise_le_of_lt {l : List ℝ} (h : l.Pairwise (· < ·)) : l.Pairwise (· ≤ ·) :=
  h.imp fun h => le_of_lt h

/-- the sliced boundaries: from the last one below `x0` (or the very first) to the first one not below `x1` -/
theorem needed_spec (bins : List ℝ) (hs : bins.Pairwise (· < ·)) (hne : 0 < bins.length) (x0 x1 : ℝ)
    (h0 : bins[0] ≤ x0) (h1 : x1 ≤ bins[bins.length - 1]) :
    ∃ a b : ℕ, a = searchsorted bins x0 - 1 ∧ b = searchsorted bins x1 ∧
      ∃ (hb : b < bins.length) (ha : a < bins.length),
      bins[a] ≤ x0 ∧ x1 ≤ bins[b] ∧ (∀ i (h : i < bins.length), a < i → x0 ≤ bins[i]) ∧
      (∀ i (h : i < bins.length), i < b → bins[i] < x1) := by
  have hle := pairwise_le_of_lt hs
  refine ⟨_, _, rfl, rfl, ?_⟩
  have hb : searchsorted bins x1 < bins.length := by
    by_contra hc
    have := searchsorted_le_length bins x1
    have := lt_of_lt_searchsorted (a := bins) (v := x1) (i := bins.length - 1) (by omega) (by omega)
    linarith
  have ha : searchsorted bins x0 - 1 < bins.length := by
    have := searchsorted_le_length bins x0
    omega
  refine ⟨hb, ha, ?_, le_getElem_searchsorted hb, ?_, ?_⟩
  · rcases Nat.eq_zero_or_pos (searchsorted bins x0) with h | h
    · simpa [h] using h0
    · exact (lt_of_lt_searchsorted (v := x0) ha (by omega)).le
  · intro i h hi
    exact le_of_searchsorted_le hle h (by omega)
  · intro i h hi
    exact lt_of_lt_searchsorted h hi

theorem rangeOf_spec {α : Type*} [LinearOrder α] {l : List α} {mn mx : α} (h : rangeOf l = some (mn, mx)) :
    mn ∈ l ∧ mx ∈ l ∧ ∀ x ∈ l, mn ≤ x ∧ x ≤ mx := by
  cases l with
  | nil => simp [rangeOf] at h
  | cons y l =>
    simp only [rangeOf, Option.some.injEq, Prod.mk.injEq] at h
    obtain ⟨rfl, rfl⟩ := h
    have key : ∀ (l : List α) (y : α), l.foldl min y ∈ y :: l ∧ l.foldl max y ∈ y :: l ∧
        ∀ x ∈ y :: l, l.foldl min y ≤ x ∧ x ≤ l.foldl max y := by
      intro l
      induction l with
      | nil => intro y; simp
      | cons z l ih =>
        intro y
        obtain ⟨m1, _, m3⟩ := ih (min y z)
        obtain ⟨_, n2, n3⟩ := ih (max y z)
        simp only [List.foldl_cons]
        refine ⟨?_, ?_, ?_⟩
        · rcases List.mem_cons.1 m1 with e | e
          · rw [e]; rcases min_choice y z with h | h <;> simp [h]
          · simp [e]
        · rcases List.mem_cons.1 n2 with e | e
          · rw [e]; rcases max_choice y z with h | h <;> simp [h]
          · simp [e]
        · intro x hx
          have hmin := (m3 (min y z) (by simp)).1
          have hmax := (n3 (max y z) (by simp)).2
          rcases List.mem_cons.1 hx with e | e
          · subst e
            exact ⟨hmin.trans (min_le_left _ _), (le_max_left _ _).trans hmax⟩
          · rcases List.mem_cons.1 e with e | e
            · subst e
              exact ⟨hmin.trans (min_le_right _ _), (le_max_right _ _).trans hmax⟩
            · exact ⟨(m3 x (by simp [e])).1, (n3 x (by simp [e])).2⟩
    exact key l y

theorem rangeOf_ne_nil {α : Type*} [LinearOrder α] {l : List α} (h : l ≠ []) :
    ∃ mn mx, rangeOf l = some (mn, mx) := by
  cases l with
  | nil => exact absurd rfl h
  | cons x l => exact ⟨_, _, rfl⟩

theorem pow10_log10 {x : ℝ} (h : 0 < x) : (10 : ℝ) ^ (log10 x) = x :=
  Real.rpow_logb (by norm_num) (by norm_num) h

theorem log10_pow10 (x : ℝ) : log10 ((10 : ℝ) ^ x) = x :=
  Real.logb_rpow (by norm_num) (by norm_num)

theorem pow10_lt {x y : ℝ} : (10 : ℝ) ^ x < (10 : ℝ) ^ y ↔ x < y :=
  Real.rpow_lt_rpow_left_iff (by norm_num)

theorem pow10_le {x y : ℝ} : (10 : ℝ) ^ x ≤ (10 : ℝ) ^ y ↔ x ≤ y :=
  Real.rpow_le_rpow_left_iff (by norm_num)

theorem pow10_pos (x : ℝ) : 0 < (10 : ℝ) ^ x := Real.rpow_pos_of_pos (by norm_num) x

theorem log10_le {x y : ℝ} (hx : 0 < x) (hy : 0 < y) : log10 x ≤ log10 y ↔ x ≤ y :=
  Real.logb_le_logb (by norm_num) hx hy

theorem log10_lt {x y : ℝ} (hx : 0 < x) (hy : 0 < y) : log10 x < log10 y ↔ x < y :=
  Real.logb_lt_logb_iff (by norm_num) hx hy

theorem log10_two_pos : 0 < log10 2 := Real.logb_pos (by norm_num) (by norm_num)

/-! #### geometric grids -/

theorem regularEdges_eq (bpd off r0 r1 : ℝ) :
    ∃ B0 B1 : ℤ, B0 = ⌊min (r0 * bpd + off) (r1 * bpd + off)⌋ ∧ B1 = ⌈max (r0 * bpd + off) (r1 * bpd + off)⌉ ∧
      B0 ≤ B1 ∧ regularEdges bpd off r0 r1 =
        (List.range (B1 - B0 + 1).toNat).map (fun i : ℕ => (10 : ℝ) ^ ((((B0 + (i : ℤ) : ℤ) : ℝ) - off) / bpd)) := by
  refine ⟨_, _, rfl, rfl, ?_, ?_⟩
  · have h1 := Int.floor_le (min (r0 * bpd + off) (r1 * bpd + off))
    have h2 := Int.le_ceil (max (r0 * bpd + off) (r1 * bpd + off))
    have h3 : min (r0 * bpd + off) (r1 * bpd + off) ≤ max (r0 * bpd + off) (r1 * bpd + off) := min_le_max
    exact_mod_cast h1.trans (h3.trans h2)
  · simp only [regularEdges, arange, List.map_map]
    have e : ∀ (B0 B1 : ℤ), ⌈((B1 : ℝ) - off + 1) - ((B0 : ℝ) - off)⌉ = B1 - B0 + 1 := by
      intro B0 B1
      have : ((B1 : ℝ) - off + 1) - ((B0 : ℝ) - off) = ((B1 - B0 + 1 : ℤ) : ℝ) := by push_cast; ring
      rw [this, Int.ceil_intCast]
    rw [e]
    apply List.map_congr_left
    intro i _
    simp only [Function.comp]
    congr 1
    push_cast
    ring

/-- a stretch of a grid given by a function on the integers -/
noncomputable def gridList (g : ℤ → ℝ) (B : ℤ) (n : ℕ) : List ℝ := (List.range n).map (fun i : ℕ => g (B + (i : ℤ)))

@[simp] theorem gridList_length (g : ℤ → ℝ) (B : ℤ) (n : ℕ) : (gridList g B n).length = n := by
  simp [gridList]

theorem gridList_getElem (g : ℤ → ℝ) (B : ℤ) (n i : ℕ) (h : i < (gridList g B n).length) :
    (gridList g B n)[i] = g (B + i) := by simp [gridList]

theorem gridList_sorted {g : ℤ → ℝ} (hg : StrictMono g) (B : ℤ) (n : ℕ) :
    (gridList g B n).Pairwise (· < ·) := by
  rw [List.pairwise_iff_getElem]
  intro i j hi hj hij
  rw [gridList_getElem, gridList_getElem]
  exact hg (by omega)

theorem slice_gridList (g : ℤ → ℝ) (B : ℤ) (n a b : ℕ) (hb : b ≤ n) :
    slice (gridList g B n) a b = gridList g (B + a) (b - a) := by
  apply List.ext_getElem
  · rw [slice_length _ _ _ (by simpa using hb)]; simp
  · intro i h1 h2
    have h3 : i < b - a := by simpa using h2
    rw [slice_getElem _ _ _ _ _ (by simp; omega), gridList_getElem, gridList_getElem]
    congr 1; push_cast; ring

theorem gridList_noGap {g : ℤ → ℝ} (hg : StrictMono g) (B : ℤ) (n i : ℕ)
    (h : i + 1 < (gridList g B n).length) (x : ℝ) (hx : ∃ k, x = g k) (hlt : (gridList g B n)[i] < x) :
    (gridList g B n)[i + 1] ≤ x := by
  obtain ⟨k, rfl⟩ := hx
  rw [gridList_getElem] at hlt ⊢
  have := hg.lt_iff_lt.1 hlt
  exact hg.monotone (by push_cast; omega)

/-- what `neededBins` returns on a grid stretch reaching from below `10^r0` to above `10^r1` -/
theorem neededBins_grid {g : ℤ → ℝ} (hg : StrictMono g) (B : ℤ) (n : ℕ) (r0 r1 : ℝ) (hn : 0 < n)
    (h0 : g B ≤ (10 : ℝ) ^ r0) (h1 : (10 : ℝ) ^ r1 ≤ g (B + (n - 1 : ℕ))) (h01 : r0 < r1) :
    ∃ (A : ℤ) (m : ℕ), 2 ≤ m ∧ neededBins (gridList g B n) r0 r1 = gridList g A m ∧
      g A ≤ (10 : ℝ) ^ r0 ∧ (10 : ℝ) ^ r1 ≤ g (A + (m - 1 : ℕ)) ∧
      (10 : ℝ) ^ r0 ≤ g (A + 1) ∧ g (A + (m - 1 : ℕ) - 1) < (10 : ℝ) ^ r1 := by
  obtain ⟨a, b, ha, hb, hbl, hal, k1, k2, k3, k4⟩ := needed_spec (gridList g B n) (gridList_sorted hg B n)
    (by simpa using hn) ((10 : ℝ) ^ r0) ((10 : ℝ) ^ r1) (by rw [gridList_getElem]; simpa using h0)
    (by rw [gridList_getElem]; simpa using h1)
  have hx : (10 : ℝ) ^ r0 < (10 : ℝ) ^ r1 := pow10_lt.2 h01
  rw [gridList_getElem] at k1 k2
  simp only [gridList_length] at hbl hal
  have hab : a < b := by
    have := hg.lt_iff_lt.1 (lt_of_le_of_lt k1 (lt_of_lt_of_le hx k2))
    omega
  refine ⟨B + a, b + 1 - a, by omega, ?_, k1, ?_, ?_, ?_⟩
  · unfold neededBins
    rw [← ha, ← hb, slice_gridList _ _ _ _ _ (by omega)]
  · have : B + (a : ℤ) + ((b + 1 - a - 1 : ℕ) : ℤ) = B + b := by omega
    rw [this]; exact k2
  · have := k3 (a + 1) (by simp; omega) (by omega)
    rw [gridList_getElem] at this
    have e : B + ((a + 1 : ℕ) : ℤ) = B + a + 1 := by push_cast; ring
    rwa [e] at this
  · have := k4 (b - 1) (by simp; omega) (by omega)
    rw [gridList_getElem] at this
    have e : B + (a : ℤ) + ((b + 1 - a - 1 : ℕ) : ℤ) - 1 = B + ((b - 1 : ℕ) : ℤ) := by omega
    rwa [e]

/-- the geometric grid as a function on the integers -/
noncomputable def geoGrid (bpd off : ℝ) (k : ℤ) : ℝ := (10 : ℝ) ^ (((k : ℝ) - off) / bpd)

theorem geoGrid_strictMono {bpd : ℝ} (hb : 0 < bpd) (off : ℝ) : StrictMono (geoGrid bpd off) := by
  intro i j hij
  unfold geoGrid
  rw [pow10_lt]
  have : (i : ℝ) < (j : ℝ) := by exact_mod_cast hij
  exact div_lt_div_of_pos_right (by linarith) hb

theorem regularEdges_grid {bpd : ℝ} (hb : 0 < bpd) (off r0 r1 : ℝ) (h01 : r0 ≤ r1) :
    ∃ (B : ℤ) (n : ℕ), 0 < n ∧ regularEdges bpd off r0 r1 = gridList (geoGrid bpd off) B n ∧
      geoGrid bpd off B ≤ (10 : ℝ) ^ r0 ∧ (10 : ℝ) ^ r1 ≤ geoGrid bpd off (B + (n - 1 : ℕ)) := by
  obtain ⟨B0, B1, e0, e1, hle, he⟩ := regularEdges_eq bpd off r0 r1
  have hm : r0 * bpd + off ≤ r1 * bpd + off := by nlinarith
  rw [min_eq_left hm] at e0
  rw [max_eq_right hm] at e1
  refine ⟨B0, (B1 - B0 + 1).toNat, by omega, he, ?_, ?_⟩
  · unfold geoGrid
    rw [pow10_le, div_le_iff₀ hb]
    have := Int.floor_le (r0 * bpd + off)
    rw [← e0] at this
    linarith
  · unfold geoGrid
    rw [pow10_le, le_div_iff₀ hb]
    have := Int.le_ceil (r1 * bpd + off)
    rw [← e1] at this
    have e : B0 + (((B1 - B0 + 1).toNat - 1 : ℕ) : ℤ) = B1 := by omega
    rw [e]
    linarith

/-! #### the pseudo-log grid -/

/-- the pseudo-log grid as a function on the integers -/
noncomputable def plGrid (k : ℤ) : ℝ := (10 : ℝ) ^ (k / 18) * mantissas.getD (k % 18).toNat 0

theorem mantissas_length : mantissas.length = 18 := by simp [mantissas]

theorem mantissas_step (i : ℕ) (h : i + 1 < 18) :
    mantissas.getD i 0 * 1.05 < mantissas.getD (i + 1) 0 := by
  have h' : i < 17 := by omega
  clear h
  interval_cases i <;> norm_num [mantissas]

theorem plGrid_step (k : ℤ) : plGrid k * 1.05 < plGrid (k + 1) := by
  unfold plGrid
  have hk := Int.emod_nonneg k (by norm_num : (18 : ℤ) ≠ 0)
  have hk2 := Int.emod_lt_of_pos k (by norm_num : (0 : ℤ) < 18)
  by_cases h : k % 18 = 17
  · have e1 : (k + 1) / 18 = k / 18 + 1 := by omega
    have e2 : (k + 1) % 18 = 0 := by omega
    rw [e1, e2, h]
    have hp : (0 : ℝ) < (10 : ℝ) ^ (k / 18) := zpow_pos (by norm_num) _
    rw [zpow_add₀ (by norm_num)]
    have m17 : mantissas.getD (17 : ℤ).toNat 0 = 9 := by simp [mantissas]
    have m0 : mantissas.getD (0 : ℤ).toNat 0 = 1 := by simp [mantissas]
    rw [m17, m0]
    norm_num
    linarith
  · have e1 : (k + 1) / 18 = k / 18 := by omega
    have e2 : (k + 1) % 18 = k % 18 + 1 := by omega
    rw [e1, e2]
    have hp : (0 : ℝ) < (10 : ℝ) ^ (k / 18) := zpow_pos (by norm_num) _
    have := mantissas_step (k % 18).toNat (by omega)
    have e3 : (k % 18 + 1).toNat = (k % 18).toNat + 1 := by omega
    rw [e3, mul_assoc]
    exact mul_lt_mul_of_pos_left this hp

theorem mantissas_ge_one (i : ℕ) (h : i < 18) : 1 ≤ mantissas.getD i 0 := by
  interval_cases i <;> norm_num [mantissas]

theorem plGrid_pos (k : ℤ) : 0 < plGrid k := by
  unfold plGrid
  have hk := Int.emod_nonneg k (by norm_num : (18 : ℤ) ≠ 0)
  have hk2 := Int.emod_lt_of_pos k (by norm_num : (0 : ℤ) < 18)
  have := mantissas_ge_one (k % 18).toNat (by omega)
  have hp : (0 : ℝ) < (10 : ℝ) ^ (k / 18) := zpow_pos (by norm_num) _
  positivity

theorem plGrid_strictMono : StrictMono plGrid := by
  apply strictMono_int_of_lt_succ
  intro k
  have h1 := plGrid_step k
  have h2 := plGrid_pos k
  nlinarith

theorem flatMap_pyRange (lo : ℤ) (n : ℕ) :
    ((List.range n).map (fun i : ℕ => lo + (i : ℤ))).flatMap
      (fun e => mantissas.map (fun a => (10 : ℝ) ^ e * a)) = gridList plGrid (18 * lo) (18 * n) := by
  induction n with
  | zero => simp [gridList]
  | succ n ih =>
    rw [List.range_succ, List.map_append, List.flatMap_append, ih]
    have e : 18 * (n + 1) = 18 * n + 18 := by ring
    rw [e]
    unfold gridList
    rw [List.range_add, List.map_append]
    congr 1
    simp only [List.map_cons, List.map_nil, List.flatMap_cons, List.flatMap_nil, List.append_nil, List.map_map]
    apply List.ext_getElem
    · simp [mantissas_length]
    · intro i h1 h2
      have hi : i < 18 := by simpa using h2
      simp only [List.getElem_map, List.getElem_range, Function.comp]
      unfold plGrid
      have e1 : (18 * lo + ((18 * n + i : ℕ) : ℤ)) / 18 = lo + n := by omega
      have e2 : ((18 * lo + ((18 * n + i : ℕ) : ℤ)) % 18).toNat = i := by omega
      rw [e1, e2, List.getD_eq_getElem]

theorem log10_nine : (0.9 : ℝ) < log10 9 := by
  unfold log10
  rw [Real.lt_logb_iff_rpow_lt (by norm_num) (by norm_num)]
  have : ((10 : ℝ) ^ (0.9 : ℝ)) ^ (10 : ℕ) < 9 ^ (10 : ℕ) := by
    rw [← Real.rpow_natCast, ← Real.rpow_mul (by norm_num)]
    norm_num
  exact lt_of_pow_lt_pow_left₀ 10 (by norm_num) this

theorem pseudoLogEdges_grid (r0 r1 : ℝ) (h01 : r0 < r1) :
    ∃ (B : ℤ) (n : ℕ), 0 < n ∧ pseudoLogEdges r0 r1 = gridList plGrid B n ∧
      plGrid B ≤ (10 : ℝ) ^ r0 ∧ (10 : ℝ) ^ r1 ≤ plGrid (B + (n - 1 : ℕ)) := by
  have hlt : ⌊r0⌋ < ⌈r1 + 0.1⌉ := by
    have h1 := Int.floor_le r0
    have h2 := Int.le_ceil (r1 + 0.1)
    have : ((⌊r0⌋ : ℤ) : ℝ) < ((⌈r1 + 0.1⌉ : ℤ) : ℝ) := by linarith
    exact_mod_cast this
  refine ⟨18 * ⌊r0⌋, 18 * (⌈r1 + 0.1⌉ - ⌊r0⌋).toNat, by omega, ?_, ?_, ?_⟩
  · unfold pseudoLogEdges pyRange
    exact flatMap_pyRange _ _
  · unfold plGrid
    have e1 : 18 * ⌊r0⌋ / 18 = ⌊r0⌋ := by omega
    have e2 : (18 * ⌊r0⌋ % 18).toNat = 0 := by omega
    rw [e1, e2]
    have : mantissas.getD 0 0 = 1 := by simp [mantissas]
    rw [this, mul_one, ← Real.rpow_intCast, pow10_le]
    exact Int.floor_le r0
  · unfold plGrid
    have e1 : (18 * ⌊r0⌋ + ((18 * (⌈r1 + 0.1⌉ - ⌊r0⌋).toNat - 1 : ℕ) : ℤ)) / 18 = ⌈r1 + 0.1⌉ - 1 := by omega
    have e2 : ((18 * ⌊r0⌋ + ((18 * (⌈r1 + 0.1⌉ - ⌊r0⌋).toNat - 1 : ℕ) : ℤ)) % 18).toNat = 17 := by omega
    rw [e1, e2]
    have : mantissas.getD 17 0 = 9 := by simp [mantissas]
    rw [this, ← Real.rpow_intCast]
    have e9 : (9 : ℝ) = (10 : ℝ) ^ (log10 9) := (pow10_log10 (by norm_num)).symm
    have h2 := Int.le_ceil (r1 + 0.1)
    calc (10 : ℝ) ^ r1 ≤ (10 : ℝ) ^ (((⌈r1 + 0.1⌉ - 1 : ℤ) : ℝ) + log10 9) := by
            rw [pow10_le]; push_cast; have := log10_nine; linarith
      _ = (10 : ℝ) ^ (((⌈r1 + 0.1⌉ - 1 : ℤ) : ℝ)) * 9 := by
            rw [Real.rpow_add (by norm_num), ← e9]

theorem plGrid_edge_iff (x : ℝ) : Grid.pseudoLog.Edge x ↔ ∃ k, x = plGrid k := by
  have hm : pseudoLogMantissas = mantissas := by
    norm_num [pseudoLogMantissas, mantissas]
  constructor
  · rintro ⟨e, m, hmem, rfl⟩
    rw [hm] at hmem
    obtain ⟨i, hi, rfl⟩ := List.mem_iff_getElem.1 hmem
    have hi' : i < 18 := by simpa [mantissas_length] using hi
    refine ⟨18 * e + i, ?_⟩
    unfold plGrid
    have e1 : (18 * e + (i : ℤ)) / 18 = e := by omega
    have e2 : ((18 * e + (i : ℤ)) % 18).toNat = i := by omega
    rw [e1, e2, List.getD_eq_getElem _ _ hi]; ring
  · rintro ⟨k, rfl⟩
    have hk := Int.emod_nonneg k (by norm_num : (18 : ℤ) ≠ 0)
    have hk2 := Int.emod_lt_of_pos k (by norm_num : (0 : ℤ) < 18)
    have hi : (k % 18).toNat < mantissas.length := by rw [mantissas_length]; omega
    refine ⟨k / 18, mantissas[(k % 18).toNat], ?_, ?_⟩
    · rw [hm]; exact List.getElem_mem _
    · unfold plGrid
      rw [List.getD_eq_getElem _ _ hi]; ring

end Verif.Cratercount
