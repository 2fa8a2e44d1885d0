import Verif.Py.Num
import Mathlib.Algebra.BigOperators.Intervals
import Mathlib.Algebra.BigOperators.Ring.Finset
import Mathlib.Algebra.Order.BigOperators.Group.Finset
import Mathlib.Data.Real.Basic
import Mathlib.Tactic.Linarith
import Mathlib.Tactic.FieldSimp

/-! Lemmas for the age likelihood: monotone likelihood ratio, interpolation on ordered tables. -/

namespace Verif.Py

/-- monotone likelihood ratio: weighting with a non-decreasing factor moves mass upwards -/
theorem mlr_prefix (u r : ℕ → ℝ) (n j : ℕ) (hj : j ≤ n) (hu : ∀ i < n, 0 ≤ u i)
    (hr : ∀ i k, i ≤ k → k < n → r i ≤ r k) :
    (∑ i ∈ Finset.range j, u i * r i) * (∑ i ∈ Finset.range n, u i) ≤
      (∑ i ∈ Finset.range j, u i) * (∑ i ∈ Finset.range n, u i * r i) := by
  rcases Nat.lt_or_ge j n with hlt | hge
  · rw [← Finset.sum_range_add_sum_Ico u hj, ← Finset.sum_range_add_sum_Ico (fun i => u i * r i) hj]
    set A := ∑ i ∈ Finset.range j, u i
    set A' := ∑ i ∈ Finset.range j, u i * r i
    set B := ∑ i ∈ Finset.Ico j n, u i
    set B' := ∑ i ∈ Finset.Ico j n, u i * r i
    have hA : 0 ≤ A := Finset.sum_nonneg (fun i hi => hu i ((Finset.mem_range.1 hi).trans hlt))
    have hB : 0 ≤ B := Finset.sum_nonneg (fun i hi => hu i (Finset.mem_Ico.1 hi).2)
    have h1 : A' ≤ r j * A := by
      rw [Finset.mul_sum]
      apply Finset.sum_le_sum
      intro i hi
      have hi := Finset.mem_range.1 hi
      rw [mul_comm (r j)]
      exact mul_le_mul_of_nonneg_left (hr i j hi.le hlt) (hu i (hi.trans hlt))
    have h2 : r j * B ≤ B' := by
      rw [Finset.mul_sum]
      apply Finset.sum_le_sum
      intro i hi
      have hi := Finset.mem_Ico.1 hi
      rw [mul_comm (r j)]
      exact mul_le_mul_of_nonneg_left (hr j i hi.1 hi.2) (hu i hi.2)
    have h3 : A' * B ≤ A * B' :=
      calc A' * B ≤ (r j * A) * B := mul_le_mul_of_nonneg_right h1 hB
        _ = A * (r j * B) := by ring
        _ ≤ A * B' := mul_le_mul_of_nonneg_left h2 hA
    calc A' * (A + B) = A' * A + A' * B := by ring
      _ ≤ A' * A + A * B' := by linarith
      _ = A * (A' + B') := by ring
  · have : j = n := le_antisymm hj hge
    subst this
    rw [mul_comm]

/-- interpolation is antitone in the table of abscissae -/
theorem interp_anti_xp (xp xp' fp : List ℝ) (hx : xp.Pairwise (· ≤ ·)) (hx' : xp'.Pairwise (· ≤ ·))
    (hf : fp.Pairwise (· ≤ ·)) (hlen : xp.length = fp.length) (hlen' : xp'.length = fp.length) (hne : 0 < fp.length)
    (hle : ∀ i (h : i < fp.length), xp'[i]'(by omega) ≤ xp[i]'(by omega)) (q : ℝ) :
    interp xp fp q ≤ interp xp' fp q := by
  have hne1 : 0 < xp.length := by omega
  have hne2 : 0 < xp'.length := by omega
  rcases interp_cases xp fp q hx hlen hne1 with ⟨_, e⟩ | ⟨h1, e⟩ | ⟨j, hj, hs, h1, h2, e⟩
  · rw [e]; exact (interp_mem_range xp' fp hx' hf hlen' hne2 q).1
  · -- then q is above the last of xp', too
    have hl := hle (fp.length - 1) (by omega)
    have e1 : xp.length - 1 = fp.length - 1 := by omega
    have h1' : xp[fp.length - 1]'(by omega) ≤ q := by
      have : xp[xp.length - 1]'(by omega) = xp[fp.length - 1]'(by omega) := by simp only [e1]
      rw [← this]; exact h1
    rcases interp_cases xp' fp q hx' hlen' hne2 with ⟨g, e'⟩ | ⟨_, e'⟩ | ⟨j, hj, _, g1, g2, e'⟩
    · exfalso
      have := getElem_mono hx' (i := 0) (j := fp.length - 1) (by omega) (by omega)
      linarith
    · rw [e, e']
      have e2 : xp.length - 1 = xp'.length - 1 := by omega
      simp only [e2, le_refl]
    · exfalso
      have := getElem_mono hx' (i := j + 1) (j := fp.length - 1) (by omega) (by omega)
      linarith
  · have up : interp xp fp q ≤ fp[j + 1]'(by omega) := by
      have := lerp_mem h1 h2 (getElem_mono hf (i := j) (j := j + 1) (by omega) (by omega))
      rw [e]; exact this.2
    rcases interp_cases xp' fp q hx' hlen' hne2 with ⟨g, e'⟩ | ⟨g, e'⟩ | ⟨j', hj', hs', g1, g2, e'⟩
    · exfalso
      have := hle j (by omega)
      have := getElem_mono hx' (i := 0) (j := j) (by omega) (by omega)
      linarith
    · rw [e']
      exact up.trans (getElem_mono hf (by omega) (by omega))
    · rcases lt_trichotomy j j' with hlt | heq | hgt
      · have := lerp_mem g1 g2 (getElem_mono hf (i := j') (j := j' + 1) (by omega) (by omega))
        rw [e']
        exact up.trans ((getElem_mono hf (by omega) (by omega)).trans this.1)
      · subst heq
        rw [e, e']
        have a0 := hle j (by omega)
        have a1 := hle (j + 1) (by omega)
        have hy := getElem_mono hf (i := j) (j := j + 1) (by omega) (by omega)
        set y0 := fp[j]'(by omega)
        set y1 := fp[j + 1]'(by omega)
        set x0 := xp[j]
        set x1 := xp[j + 1]
        set z0 := xp'[j]
        set z1 := xp'[j + 1]
        have p1 : 0 < x1 - x0 := by linarith
        have p2 : 0 < z1 - z0 := by linarith
        have key : (q - x0) / (x1 - x0) ≤ (q - z0) / (z1 - z0) := by
          rw [div_le_div_iff₀ p1 p2]
          nlinarith
        have := mul_le_mul_of_nonneg_left key (sub_nonneg.2 hy)
        have r1 : (y1 - y0) / (x1 - x0) * (q - x0) = (y1 - y0) * ((q - x0) / (x1 - x0)) := by ring
        have r2 : (y1 - y0) / (z1 - z0) * (q - z0) = (y1 - y0) * ((q - z0) / (z1 - z0)) := by ring
        rw [r1, r2]
        linarith
      · exfalso
        have := hle j (by omega)
        have := getElem_mono hx' (i := j' + 1) (j := j) (by omega) (by omega)
        linarith

/-- strict monotonicity of interpolation inside the table -/
theorem interp_strict (xp fp : List ℝ) (hx : xp.Pairwise (· < ·)) (hf : fp.Pairwise (· < ·))
    (hlen : xp.length = fp.length) (hne : 0 < xp.length) {x y : ℝ} (hxy : x < y) (h0 : xp[0] ≤ x)
    (h1 : x < xp[xp.length - 1]'(by omega)) : interp xp fp x < interp xp fp y := by
  have hx' := hx.imp (fun {a b} (h : a < b) => h.le)
  have hf' := hf.imp (fun {a b} (h : a < b) => h.le)
  have hfp := List.pairwise_iff_getElem.1 hf
  rcases interp_cases xp fp x hx' hlen hne with ⟨g, _⟩ | ⟨g, _⟩ | ⟨j, hj, hs, g1, g2, e⟩
  · linarith
  · linarith
  · have hy01 := hfp j (j + 1) (by omega) (by omega) (by omega)
    have p1 : 0 < xp[j + 1] - xp[j] := by linarith
    have up : interp xp fp x < fp[j + 1]'(by omega) := by
      rw [e]
      have : (fp[j + 1]'(by omega) - fp[j]'(by omega)) / (xp[j + 1] - xp[j]) * (x - xp[j]) <
          (fp[j + 1]'(by omega) - fp[j]'(by omega)) := by
        rw [div_mul_eq_mul_div, div_lt_iff₀ p1]
        apply mul_lt_mul_of_pos_left <;> linarith
      linarith
    rcases interp_cases xp fp y hx' hlen hne with ⟨k, _⟩ | ⟨k, e'⟩ | ⟨j', hj', hs', k1, k2, e'⟩
    · linarith
    · rw [e']
      exact lt_of_lt_of_le up (getElem_mono hf' (by omega) (by omega))
    · rcases lt_trichotomy j j' with hlt | heq | hgt
      · have := lerp_mem k1 k2 (getElem_mono hf' (i := j') (j := j' + 1) (by omega) (by omega))
        rw [e']
        exact lt_of_lt_of_le up ((getElem_mono hf' (by omega) (by omega)).trans this.1)
      · subst heq
        rw [e, e']
        have : (fp[j + 1]'(by omega) - fp[j]'(by omega)) / (xp[j + 1] - xp[j]) * (x - xp[j]) <
            (fp[j + 1]'(by omega) - fp[j]'(by omega)) / (xp[j + 1] - xp[j]) * (y - xp[j]) :=
          mul_lt_mul_of_pos_left (by linarith) (div_pos (by linarith) p1)
        linarith
      · exfalso
        have := getElem_mono hx' (i := j' + 1) (j := j) (by omega) (by omega)
        linarith

theorem sum_take_eq_range (l : List ℝ) (j : ℕ) : (l.take j).sum = ∑ i ∈ Finset.range j, l.getD i 0 := by
  induction l generalizing j with
  | nil => simp
  | cons x l ih =>
    cases j with
    | zero => simp
    | succ j =>
      rw [List.take_succ_cons, List.sum_cons, ih, Finset.sum_range_succ', add_comm]
      simp

theorem sum_eq_range (l : List ℝ) : l.sum = ∑ i ∈ Finset.range l.length, l.getD i 0 := by
  rw [← sum_take_eq_range, List.take_length]

end Verif.Py
