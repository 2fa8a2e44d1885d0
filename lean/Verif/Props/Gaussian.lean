import Verif.Props.Likelihood
import Mathlib.Analysis.SpecialFunctions.Gaussian.GaussianIntegral
import Mathlib.MeasureTheory.Integral.IntervalIntegral.IntegrationByParts

/-! C27: Gaussian percentiles; C24: the reported age triple. -/

namespace Verif.Props
open Verif.Cratercount Verif.Py Verif.Craterpdf Verif.Chronology Verif.Production

noncomputable section

theorem gauss_continuous : Continuous (fun t : ℝ => Real.exp (-t ^ 2)) := by fun_prop

theorem erf_zero : erf 0 = 0 := by simp [erf]

theorem erf_strictMono : StrictMono erf := by
  intro x y hxy
  unfold erf
  apply mul_lt_mul_of_pos_left _ (by positivity)
  have h1 : ∫ t in (0 : ℝ)..y, Real.exp (-t ^ 2) = (∫ t in (0 : ℝ)..x, Real.exp (-t ^ 2)) + ∫ t in x..y, Real.exp (-t ^ 2) :=
    (intervalIntegral.integral_add_adjacent_intervals (gauss_continuous.intervalIntegrable _ _)
      (gauss_continuous.intervalIntegrable _ _)).symm
  rw [h1]
  have : 0 < ∫ t in x..y, Real.exp (-t ^ 2) :=
    intervalIntegral.intervalIntegral_pos_of_pos (gauss_continuous.intervalIntegrable _ _) (fun t => Real.exp_pos _) hxy
  linarith

theorem erf_lt_one (x : ℝ) : erf x < 1 := by
  have hle : ∀ y, 0 ≤ y → erf y ≤ 1 := by
    intro y hy
    have hint : MeasureTheory.IntegrableOn (fun t : ℝ => Real.exp (-t ^ 2)) (Set.Ioi 0) := by
      have := (integrable_exp_neg_mul_sq (b := 1) one_pos).integrableOn (s := Set.Ioi (0 : ℝ))
      simpa using this
    have h1 : ∫ t in (0 : ℝ)..y, Real.exp (-t ^ 2) ≤ ∫ t in Set.Ioi (0 : ℝ), Real.exp (-t ^ 2) := by
      rw [intervalIntegral.integral_of_le hy]
      apply MeasureTheory.setIntegral_mono_set hint
      · exact Filter.Eventually.of_forall (fun t => (Real.exp_pos _).le)
      · exact (Set.Ioc_subset_Ioi_self).eventuallyLE
    have h2 : ∫ t in Set.Ioi (0 : ℝ), Real.exp (-t ^ 2) = Real.sqrt Real.pi / 2 := by
      have := integral_gaussian_Ioi 1
      simpa using this
    unfold erf
    have hpi : 0 < Real.sqrt Real.pi := Real.sqrt_pos.2 Real.pi_pos
    rw [h2] at h1
    calc 2 / Real.sqrt Real.pi * ∫ t in (0 : ℝ)..y, Real.exp (-t ^ 2) ≤ 2 / Real.sqrt Real.pi * (Real.sqrt Real.pi / 2) :=
          mul_le_mul_of_nonneg_left h1 (by positivity)
      _ = 1 := by field_simp
  have := erf_strictMono (show x < max x 0 + 1 by have := le_max_left x 0; linarith)
  exact lt_of_lt_of_le this (hle _ (by have := le_max_right x 0; linarith))

theorem tail_bounds (i : ℕ) (hi : 1 ≤ i) : 0 < tail i ∧ tail i < 0.5 := by
  unfold Craterpdf.tail
  have h1 := erf_lt_one ((i : ℝ) / Real.sqrt 2)
  have h2 : 0 < erf ((i : ℝ) / Real.sqrt 2) := by
    rw [← erf_zero]
    apply erf_strictMono
    have : (0 : ℝ) < i := by exact_mod_cast hi
    positivity
  constructor
  · linarith
  · norm_num; linarith

theorem tail_anti {i j : ℕ} (h : i < j) : Craterpdf.tail j < Craterpdf.tail i := by
  unfold Craterpdf.tail
  have : erf ((i : ℝ) / Real.sqrt 2) < erf ((j : ℝ) / Real.sqrt 2) := by
    apply erf_strictMono
    have : (i : ℝ) < j := by exact_mod_cast h
    gcongr
  linarith

theorem percentiles_succ (n : ℕ) :
    gaussianPercentiles (n + 1) = [Craterpdf.tail (n + 1)] ++ gaussianPercentiles n ++ [1 - Craterpdf.tail (n + 1)] := by
  unfold gaussianPercentiles
  rw [List.range_succ, List.foldl_append]
  rfl

/-- **C27.** The n-sigma percentile list has 2n+1 strictly increasing entries strictly between 0 and 1; entry `n` (the
middle) is 0.5; entry `n+i` is the Gaussian probability of lying below +i sigma, `(1+erf(i/√2))/2`, and entry
`n-i` is its complement. -/
theorem C27_percentiles (n : ℕ) :
    (gaussianPercentiles n).length = 2 * n + 1 ∧ (gaussianPercentiles n).Pairwise (· < ·) ∧
    (∀ x ∈ gaussianPercentiles n, 0 < x ∧ x < 1) ∧ (gaussianPercentiles n)[n]? = some 0.5 ∧
    (∀ i, i ≤ n → (gaussianPercentiles n)[n + i]? = some ((1 + erf ((i : ℝ) / Real.sqrt 2)) / 2) ∧
      (gaussianPercentiles n)[n - i]? = some ((1 - erf ((i : ℝ) / Real.sqrt 2)) / 2)) := by
  have main : (gaussianPercentiles n).length = 2 * n + 1 ∧ (gaussianPercentiles n).Pairwise (· < ·) ∧
      (∀ x ∈ gaussianPercentiles n, Craterpdf.tail (n + 1) < x ∧ x < 1 - Craterpdf.tail (n + 1)) ∧
      (∀ i, i ≤ n → (gaussianPercentiles n)[n + i]? = some ((1 + erf ((i : ℝ) / Real.sqrt 2)) / 2) ∧
        (gaussianPercentiles n)[n - i]? = some ((1 - erf ((i : ℝ) / Real.sqrt 2)) / 2)) := by
    induction n with
    | zero =>
      refine ⟨rfl, by simp [gaussianPercentiles], ?_, ?_⟩
      · intro x hx
        have : x = 0.5 := by simpa [gaussianPercentiles] using hx
        subst this
        have := tail_bounds 1 le_rfl
        norm_num at this ⊢
        constructor <;> linarith
      · intro i hi
        have : i = 0 := by omega
        subst this
        simp [gaussianPercentiles, erf_zero]
        norm_num
    | succ n ih =>
      obtain ⟨h1, h2, h3, h4⟩ := ih
      have tb := tail_bounds (n + 1) (by omega)
      rw [percentiles_succ]
      refine ⟨by simp [h1]; omega, ?_, ?_, ?_⟩
      · rw [List.singleton_append, List.cons_append, List.pairwise_cons, List.pairwise_append]
        refine ⟨?_, h2, by simp, ?_⟩
        · intro x hx
          rw [List.mem_append, List.mem_singleton] at hx
          rcases hx with hx | rfl
          · exact (h3 x hx).1
          · norm_num at tb ⊢; linarith
        · intro x hx y hy
          rw [List.mem_singleton] at hy
          subst hy
          exact (h3 x hx).2
      · intro x hx
        have ta := tail_anti (show n + 1 < n + 1 + 1 by omega)
        simp only [List.cons_append, List.mem_cons, List.mem_append, List.not_mem_nil, or_false, false_or] at hx
        norm_num at tb
        rcases hx with rfl | hx | rfl
        · constructor <;> linarith
        · have := h3 x hx
          constructor <;> linarith
        · constructor <;> linarith
      · intro i hi
        rcases Nat.lt_or_ge n i with hlt | hge
        · have : i = n + 1 := by omega
          subst this
          constructor
          · rw [List.append_assoc, List.getElem?_append_right (by simp; omega), List.getElem?_append_right (by simp [h1]; omega)]
            simp only [List.length_singleton, h1]
            have : n + 1 + (n + 1) - 1 - (2 * n + 1) = 0 := by omega
            rw [this]
            simp only [List.getElem?_cons_zero, Craterpdf.tail]
            congr 1
            push_cast
            ring
          · simp [Craterpdf.tail]
        · obtain ⟨g1, g2⟩ := h4 i hge
          constructor
          · rw [List.append_assoc, List.getElem?_append_right (by simp; omega), List.getElem?_append_left (by simp [h1]; omega)]
            simp only [List.length_singleton]
            have : n + 1 + i - 1 = n + i := by omega
            rw [this, g1]
          · rw [List.append_assoc, List.getElem?_append_right (by simp; omega), List.getElem?_append_left (by simp [h1]; omega)]
            simp only [List.length_singleton]
            have : n + 1 - i - 1 = n - i := by omega
            rw [this, g2]
  obtain ⟨h1, h2, h3, h4⟩ := main
  refine ⟨h1, h2, ?_, ?_, h4⟩
  · intro x hx
    have tb := tail_bounds (n + 1) (by omega)
    have := h3 x hx
    constructor <;> linarith
  · have := (h4 0 (Nat.zero_le _)).1
    simp only [add_zero, Nat.cast_zero, zero_div, erf_zero] at this
    rw [this]
    norm_num

/-- **C24, the reported age.** The triple reported for a likelihood is (median, lower, upper) with
0 ≤ lower ≤ median ≤ upper ≤ 5 Ga, where the median is the age at cumulative fraction 0.5. -/
theorem C24_reported_age (pf : PFn) (c : Chron) (simpson : Simpson) (cc : Source) (lo hi : ℝ) (k : Option ℝ)
    (bcc : Bool) (n : ℕ) (p0 p1 p3 : ℝ) (hc : GoodChron c p0 p1 p3) (p : Pdf)
    (h : Craterpdf.init pf c simpson cc lo hi k none bcc n = .ok p) :
    ∃ med low up, p.median1sigma = [med, low, up] ∧ med = p.t 0.5 ∧ low = p.t ((1 - erf (1 / Real.sqrt 2)) / 2) ∧
      up = p.t ((1 + erf (1 / Real.sqrt 2)) / 2) ∧ 0 ≤ low ∧ low ≤ med ∧ med ≤ up ∧ up ≤ 5 := by
  obtain ⟨h1, h2, _⟩ := C24_percentiles_ordered pf c simpson cc lo hi k bcc n p0 p1 p3 hc p h
  obtain ⟨_, _, _, g0, g1⟩ := C27_percentiles 1
  obtain ⟨gu, gl⟩ := g1 1 le_rfl
  simp only [Nat.cast_one] at gu gl
  have hb := tail_bounds 1 le_rfl
  simp only [Craterpdf.tail, Nat.cast_one] at hb
  refine ⟨_, _, _, ?_, rfl, rfl, rfl, (h1 _).1, h2 _ _ ?_, h2 _ _ ?_, (h1 _).2⟩
  · simp only [Pdf.median1sigma, List.getD_eq_getElem?_getD, g0, gu, gl, List.map_cons, List.map_nil, Option.getD_some]
  · linarith
  · norm_num at hb ⊢; linarith

/-- a likelihood meeting the hypotheses -/
example (simpson : Simpson) : ∃ c p, GoodChron c 0 0 1 ∧
    Craterpdf.init (initPoly [0, -1] none) c simpson ⟨none, [], 10, none⟩ 1 2 (some ((3 : ℕ) : ℝ)) none false 5000 = .ok p := by
  obtain ⟨c, p, _, h1, h2, _⟩ := likelihood_example 5000 (by norm_num) 3 le_rfl simpson
  exact ⟨c, p, h1, h2⟩

end

end Verif.Props
