import Verif.Model.Production
import Verif.Lemmas.Plot
import Mathlib.Analysis.SpecialFunctions.Log.Deriv
import Mathlib.Analysis.SpecialFunctions.Pow.Deriv
import Mathlib.Analysis.Calculus.Deriv.MeanValue

/-! Lemmas about polynomials, interpolation tables and `log10E`. -/

namespace Verif.Production
open Verif.Py Verif.Cratercount

noncomputable section

theorem poly_nil (x : ℝ) : poly [] x = 0 := rfl

theorem poly_cons (c : ℝ) (l : List ℝ) (x : ℝ) : poly (c :: l) x = c + x * poly l x := by
  simp only [poly, List.reverse_cons, List.foldl_append, List.foldl_cons, List.foldl_nil]
  ring

/-- coefficients `(i+n)·l_i` -/
def dCoef (n : ℝ) (l : List ℝ) : List ℝ := l.zipIdx.map (fun e => ((e.2 : ℝ) + n) * e.1)

theorem dCoef_cons (n c : ℝ) (l : List ℝ) : dCoef n (c :: l) = n * c :: dCoef (n + 1) l := by
  simp only [dCoef, List.zipIdx_cons, List.map_cons, Nat.cast_zero, zero_add]
  congr 1
  rw [List.zipIdx_succ, List.map_map]
  apply List.map_congr_left
  intro e _
  simp only [Function.comp]
  push_cast
  ring

theorem poly_dCoef_succ (n : ℝ) (l : List ℝ) (x : ℝ) : poly (dCoef (n + 1) l) x = poly (dCoef n l) x + poly l x := by
  induction l generalizing n with
  | nil => simp [dCoef, poly_nil]
  | cons c l ih =>
    rw [dCoef_cons, dCoef_cons, poly_cons, poly_cons, poly_cons, ih (n + 1)]
    ring

theorem poly_hasDerivAt (l : List ℝ) (c x : ℝ) : HasDerivAt (poly (c :: l)) (poly (dCoef 1 l) x) x := by
  induction l generalizing c with
  | nil =>
    have : poly [c] = fun _ => c := by funext y; simp [poly_cons, poly_nil]
    rw [this]
    simpa [dCoef, poly_nil] using hasDerivAt_const x c
  | cons c' l ih =>
    have e : poly (c :: c' :: l) = fun y => c + y * poly (c' :: l) y := by funext y; rw [poly_cons]
    rw [e]
    have h := ((hasDerivAt_id x).mul (ih c')).const_add c
    have h' : HasDerivAt (fun y => c + y * poly (c' :: l) y) (1 * poly (c' :: l) x + x * poly (dCoef 1 l) x) x := h
    convert h' using 1
    rw [dCoef_cons, poly_cons, poly_cons, poly_dCoef_succ]
    ring

theorem log10E_ok {x y : ℝ} : log10E x = .ok y ↔ 0 < x ∧ y = log10 x := by
  unfold log10E
  split
  · next h => constructor
              · intro e; injection e with e; exact ⟨h, e.symm⟩
              · rintro ⟨_, rfl⟩; rfl
  · next h => constructor
              · intro e; cases e
              · rintro ⟨h', _⟩; exact absurd h' h

theorem log10E_pos {x : ℝ} (h : 0 < x) : log10E x = .ok (log10 x) := log10E_ok.2 ⟨h, rfl⟩

theorem log10E_nonpos {x : ℝ} (h : x ≤ 0) : log10E x = .error .nonFinite := by
  unfold log10E; rw [if_neg (not_lt.2 h)]

theorem mapM_log10E {l l' : List ℝ} : l.mapM log10E = .ok l' ↔ (∀ x ∈ l, 0 < x) ∧ l' = l.map log10 := by
  induction l generalizing l' with
  | nil =>
    simp only [List.mapM_nil, List.not_mem_nil, false_imp_iff, implies_true, List.map_nil, true_and]
    constructor
    · intro h; injection h with h; exact h.symm
    · rintro rfl; rfl
  | cons x l ih =>
    rw [List.mapM_cons]
    constructor
    · intro h
      obtain ⟨y, hy, h⟩ := except_bind_eq_ok h
      obtain ⟨l'', hl, h⟩ := except_bind_eq_ok h
      obtain ⟨hx, rfl⟩ := log10E_ok.1 hy
      obtain ⟨hl1, rfl⟩ := ih.1 hl
      injection h with h
      refine ⟨?_, by rw [← h]; rfl⟩
      intro z hz
      rcases List.mem_cons.1 hz with rfl | hz
      · exact hx
      · exact hl1 z hz
    · rintro ⟨h, rfl⟩
      rw [log10E_pos (h x (by simp)), except_ok_bind,
        ih.2 ⟨fun z hz => h z (by simp [hz]), rfl⟩, except_ok_bind]
      rfl

theorem pow10_add (x y : ℝ) : (10 : ℝ) ^ (x + y) = 10 ^ x * 10 ^ y := Real.rpow_add (by norm_num) x y

theorem log10_mul {x y : ℝ} (hx : 0 < x) (hy : 0 < y) : log10 (x * y) = log10 x + log10 y :=
  Real.logb_mul hx.ne' hy.ne'

theorem log10_div {x y : ℝ} (hx : 0 < x) (hy : 0 < y) : log10 (x / y) = log10 x - log10 y :=
  Real.logb_div hx.ne' hy.ne'

theorem log10_one : log10 1 = 0 := by simp [log10]

/-! ### interpolation of transformed tables -/

theorem interp_affine (xp fp : List ℝ) (hlen : xp.length = fp.length) (hne : 0 < xp.length) (a c x : ℝ) :
    interp xp (fp.map (fun y => a * y + c)) x = a * interp xp fp x + c := by
  have hl := searchsortedRight_le_length xp x
  have hg : ∀ i, i < fp.length → (fp.map (fun y => a * y + c)).getD i 0 = a * fp.getD i 0 + c := by
    intro i hi
    rw [List.getD_eq_getElem _ _ (by simpa using hi), List.getD_eq_getElem _ _ hi, List.getElem_map]
  simp only [interp]
  split
  · exact hg 0 (by omega)
  · split
    · exact hg _ (by omega)
    · rw [hg _ (by omega), hg _ (by omega)]
      ring

theorem interp_shift (xp fp : List ℝ) (hlen : xp.length = fp.length) (hne : 0 < xp.length) (c x : ℝ) :
    interp xp (fp.map (fun y => y + c)) x = interp xp fp x + c := by
  have := interp_affine xp fp hlen hne 1 c x
  simpa using this

theorem interp_anti (xp fp : List ℝ) (hx : xp.Pairwise (· ≤ ·)) (hf : fp.Pairwise (· ≥ ·))
    (hlen : xp.length = fp.length) (hne : 0 < xp.length) {x y : ℝ} (hxy : x ≤ y) :
    interp xp fp y ≤ interp xp fp x := by
  have hf' : (fp.map (fun y => (-1) * y + 0)).Pairwise (· ≤ ·) := by
    refine hf.map _ ?_
    intro a b h
    have : b ≤ a := h
    show (-1) * a + 0 ≤ (-1) * b + 0
    linarith
  have := interp_mono xp (fp.map (fun y => (-1) * y + 0)) hx hf' (by simpa using hlen) hne hxy
  rw [interp_affine xp fp hlen hne, interp_affine xp fp hlen hne] at this
  linarith

/-- adding a linear function to the table adds it to the interpolation, inside the table -/
theorem interp_add_linear (xp fp : List ℝ) (hx : xp.Pairwise (· < ·)) (hlen : xp.length = fp.length)
    (hne : 0 < xp.length) (m x : ℝ) (h0 : xp[0] ≤ x) (h1 : x ≤ xp[xp.length - 1]) :
    interp xp (List.zipWith (fun y z => y + m * z) fp xp) x = interp xp fp x + m * x := by
  have hx' := hx.imp (fun {a b} (h : a < b) => h.le)
  have hl2 : xp.length = (List.zipWith (fun y z => y + m * z) fp xp).length := by simp; omega
  have hz : ∀ i (h : i < (List.zipWith (fun y z => y + m * z) fp xp).length) (hxi : i < xp.length)
      (hfi : i < fp.length), (List.zipWith (fun y z => y + m * z) fp xp)[i] = fp[i] + m * xp[i] := by
    intro i h _ _; rw [List.getElem_zipWith]
  rcases interp_cases xp fp x hx' hlen hne with ⟨h, e⟩ | ⟨h, e⟩ | ⟨j, hj, hs, g1, g2, e⟩
  · exact absurd h0 (not_le.2 h)
  · have hxe : x = xp[xp.length - 1] := le_antisymm h1 h
    have := interp_node xp (List.zipWith (fun y z => y + m * z) fp xp) hx hl2 (xp.length - 1) (by omega)
    rw [hz _ _ (by omega) (by omega)] at this
    rw [hxe, this]
    rw [hxe] at e
    rw [e]
  · have := interp_at_interval xp (List.zipWith (fun y z => y + m * z) fp xp) hx hl2 j hj x g1 g2
    rw [hz _ _ (by omega) (by omega), hz _ _ (by omega) (by omega)] at this
    rw [this, e]
    have hd : xp[j + 1] - xp[j] ≠ 0 := by linarith
    field_simp
    ring

end

end Verif.Production
