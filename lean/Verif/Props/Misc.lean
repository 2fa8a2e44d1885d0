import Verif.Model.Misc
import Verif.Lemmas.Plot
import Mathlib.Analysis.SpecialFunctions.Integrals.Basic
import Mathlib.Analysis.SpecialFunctions.Trigonometric.InverseDeriv
import Mathlib.MeasureTheory.Integral.IntervalIntegral.FundThmCalculus
import Mathlib.Analysis.Calculus.Deriv.MeanValue
import Mathlib.Analysis.SpecialFunctions.Trigonometric.DerivHyp
import Mathlib.Analysis.SpecialFunctions.Pow.Deriv

/-! C28, C29, C62, C63, C64, C67: small numeric helpers. -/

namespace Verif.Props
open Verif.Cratercount Verif.Py Verif.Misc

noncomputable section

/-! ### C28 -/

/-- mean over the bin `[d/√β, d√β]` of the power-law density `x^(k-1)` (the size density of a population with
cumulative slope `k`), relative to its value at the geometric mean `d` -/
def binAverage (beta k d : ℝ) : ℝ :=
  (∫ x in d / Real.sqrt beta..d * Real.sqrt beta, x ^ (k - 1)) / (d * Real.sqrt beta - d / Real.sqrt beta) / d ^ (k - 1)

theorem binAverage_eq {beta d : ℝ} (hb : 1 < beta) (hd : 0 < d) (k : ℝ) :
    binAverage beta k d = if k = 0 then Real.log beta / (Real.sqrt beta - 1 / Real.sqrt beta)
      else (beta ^ (k / 2) - beta ^ (-k / 2)) / ((Real.sqrt beta - 1 / Real.sqrt beta) * k) := by
  have hs : 1 < Real.sqrt beta := Real.lt_sqrt_of_sq_lt (by simpa using hb)
  have hs0 : 0 < Real.sqrt beta := by linarith
  have h0 : (0 : ℝ) ∉ Set.uIcc (d / Real.sqrt beta) (d * Real.sqrt beta) := by
    have h1 : 0 < d / Real.sqrt beta := by positivity
    have h2 : 0 < d * Real.sqrt beta := by positivity
    intro h
    rw [Set.mem_uIcc] at h
    rcases h with h | h <;> linarith
  have hg : d * Real.sqrt beta - d / Real.sqrt beta = d * (Real.sqrt beta - 1 / Real.sqrt beta) := by ring
  have hgp : 0 < Real.sqrt beta - 1 / Real.sqrt beta := by
    have : 1 / Real.sqrt beta < 1 := (div_lt_one hs0).2 hs
    linarith
  have hdk : d ^ (k - 1) = d ^ k / d := by rw [Real.rpow_sub hd, Real.rpow_one]
  have hdk0 : d ^ k ≠ 0 := (Real.rpow_pos_of_pos hd _).ne'
  unfold binAverage
  rw [hg]
  split
  · next hk =>
    subst hk
    have e : ∀ x : ℝ, x ^ ((0 : ℝ) - 1) = x⁻¹ := fun x => by rw [zero_sub, Real.rpow_neg_one]
    simp only [e]
    rw [integral_inv h0]
    have : d * Real.sqrt beta / (d / Real.sqrt beta) = beta := by
      have := Real.mul_self_sqrt (show (0 : ℝ) ≤ beta by linarith)
      field_simp
      nlinarith
    rw [this]
    field_simp
  · next hk =>
    rw [integral_rpow (Or.inr ⟨by intro h; apply hk; linarith, h0⟩), sub_add_cancel, hdk]
    have e1 : (d * Real.sqrt beta) ^ k = d ^ k * beta ^ (k / 2) := by
      rw [Real.mul_rpow hd.le hs0.le, Real.sqrt_eq_rpow, ← Real.rpow_mul (by linarith)]
      congr 2; ring
    have e2 : (d / Real.sqrt beta) ^ k = d ^ k * beta ^ (-k / 2) := by
      rw [Real.div_rpow hd.le hs0.le, Real.sqrt_eq_rpow, ← Real.rpow_mul (by linarith), div_eq_mul_inv,
        ← Real.rpow_neg (by linarith)]
      congr 2; ring
    rw [e1, e2]
    field_simp

/-- **C28 (partial: |k| ≥ 1e-5).** The correction factor is the bin average of the power law relative to its value at
the bin centre, whatever the bin's position `d`. -/
theorem C28_bin_average_partial (beta k d : ℝ) (hb : 1 < beta) (hd : 0 < d) (hk : 0.00001 ≤ |k|) :
    binBiasCorrection beta k = binAverage beta k d := by
  rw [binAverage_eq hb hd]
  have hk0 : k ≠ 0 := by rintro rfl; norm_num at hk
  rw [if_neg hk0]
  unfold binBiasCorrection
  rw [if_neg (not_lt.2 hk), Real.sqrt_eq_rpow]
  have e1 : beta ^ (0.5 : ℝ) = beta ^ (1 / 2 : ℝ) := by norm_num
  have e2 : beta ^ (-0.5 : ℝ) = 1 / beta ^ (1 / 2 : ℝ) := by
    rw [show (-0.5 : ℝ) = -(1 / 2) by norm_num, Real.rpow_neg (by linarith), one_div (beta ^ (1 / 2 : ℝ))]
  simp only [e1, e2]

/-- **C28.** The factor is symmetric in `k` and 1 at `k = 1` and `k = -1`. -/
theorem C28_symmetric (beta k : ℝ) (hb : 1 < beta) :
    binBiasCorrection beta (-k) = binBiasCorrection beta k ∧ binBiasCorrection beta 1 = 1 ∧
    binBiasCorrection beta (-1) = 1 := by
  have hsym : ∀ k, binBiasCorrection beta (-k) = binBiasCorrection beta k := by
    intro k
    unfold binBiasCorrection
    simp only [abs_neg, neg_neg]
    split
    · rfl
    · rw [mul_neg, ← neg_div_neg_eq, neg_neg, neg_sub]
  have h1 : binBiasCorrection beta 1 = 1 := by
    unfold binBiasCorrection
    rw [if_neg (by norm_num)]
    have e1 : beta ^ (0.5 : ℝ) = beta ^ (1 / 2 : ℝ) := by norm_num
    have e2 : beta ^ (-0.5 : ℝ) = beta ^ (-1 / 2 : ℝ) := by norm_num
    rw [mul_one, e1, e2]
    apply div_self
    have := Real.rpow_lt_rpow_of_exponent_lt hb (show (-1 / 2 : ℝ) < 1 / 2 by norm_num)
    linarith
  exact ⟨hsym k, h1, (hsym 1).trans h1⟩

theorem log_lt_sqrt_sub {beta : ℝ} (hb : 1 < beta) : Real.log beta < Real.sqrt beta - 1 / Real.sqrt beta := by
  have hl : 0 < Real.log beta := Real.log_pos hb
  have hs : Real.sqrt beta = Real.exp (Real.log beta / 2) := by
    rw [Real.sqrt_eq_rpow, Real.rpow_def_of_pos (by linarith)]
    congr 1; ring
  have h := Real.self_lt_sinh_iff.2 (show 0 < Real.log beta / 2 by linarith)
  rw [Real.sinh_eq] at h
  rw [hs, one_div, ← Real.exp_neg]
  linarith

/-- **C28 is false of the code for slopes near zero.** For `k = 0` and any bin ratio the code returns 1, but the bin
average is `ln β / (√β − 1/√β)`, strictly smaller. -/
theorem C28_zero_slope_counterexample (beta d : ℝ) (hb : 1 < beta) (hd : 0 < d) :
    binAverage beta 0 d < binBiasCorrection beta 0 := by
  have hs : 1 < Real.sqrt beta := Real.lt_sqrt_of_sq_lt (by simpa using hb)
  have hgp : 0 < Real.sqrt beta - 1 / Real.sqrt beta := by
    have : 1 / Real.sqrt beta < 1 := (div_lt_one (by linarith)).2 hs
    linarith
  rw [binAverage_eq hb hd, if_pos rfl]
  unfold binBiasCorrection
  rw [if_pos (by norm_num), div_lt_one hgp]
  exact log_lt_sqrt_sub hb

example : binBiasCorrection (Real.sqrt 2) (-2) = binAverage (Real.sqrt 2) (-2) 3 :=
  C28_bin_average_partial _ _ _ (Real.lt_sqrt_of_sq_lt (by norm_num)) (by norm_num) (by norm_num)

/-! ### C29 -/

/-- area of the part of the unit disc left of the chord `x = 2·lf − 1` (penetration depth `lf` diameters), as a
fraction of the area of the disc -/
def segmentFraction (lf : ℝ) : ℝ := (∫ x in (-1 : ℝ)..(2 * lf - 1), 2 * Real.sqrt (1 - x ^ 2)) / Real.pi

theorem areaFraction_continuous : Continuous areaFraction := by
  unfold areaFraction
  fun_prop

theorem areaFraction_deriv {y : ℝ} (h0 : -1 < y) (h1 : y < 1) :
    HasDerivAt (fun y => areaFraction ((y + 1) / 2)) (2 * Real.sqrt (1 - y ^ 2) / Real.pi) y := by
  have hd : HasDerivAt (fun y : ℝ => 1 - 2 * ((y + 1) / 2)) (-1) y := by
    have e : (fun y : ℝ => 1 - 2 * ((y + 1) / 2)) = fun y => -y := by funext y; ring
    rw [e]
    exact hasDerivAt_neg y
  have ha : HasDerivAt (fun y : ℝ => Real.arccos (1 - 2 * ((y + 1) / 2))) (1 / Real.sqrt (1 - y ^ 2)) y := by
    have e : 1 - 2 * ((y + 1) / 2) = -y := by ring
    have := (Real.hasDerivAt_arccos (x := 1 - 2 * ((y + 1) / 2)) (by rw [e]; intro h; linarith) (by rw [e]; intro h; linarith)).comp y hd
    refine this.congr_deriv ?_
    rw [e]
    ring_nf
  have ht := ha.const_mul 2
  have hs := (ht.sub ht.sin).const_mul (1 / (2 * Real.pi))
  refine HasDerivAt.congr_deriv (f := fun y => areaFraction ((y + 1) / 2)) hs ?_
  have hpos : 0 < 1 - y ^ 2 := by nlinarith
  have hq : Real.cos (2 * Real.arccos (1 - 2 * ((y + 1) / 2))) = 2 * y ^ 2 - 1 := by
    rw [Real.cos_two_mul, Real.cos_arccos (by linarith) (by linarith)]
    ring
  rw [hq]
  have hsq := Real.mul_self_sqrt hpos.le
  have hsp := Real.sqrt_pos.2 hpos
  have hpi := Real.pi_pos
  field_simp
  rw [Real.sq_sqrt hpos.le]
  ring

theorem areaFraction_zero : areaFraction 0 = 0 := by simp [areaFraction]

/-- **C29.** The area fraction is the geometric one: the area of the disc segment of depth `lf` over the area of the disc. -/
theorem C29_geometric (lf : ℝ) (h0 : 0 ≤ lf) (h1 : lf ≤ 1) : areaFraction lf = segmentFraction lf := by
  have hFTC := intervalIntegral.integral_eq_sub_of_hasDerivAt_of_le (a := (-1 : ℝ)) (b := 2 * lf - 1)
    (f := fun y => areaFraction ((y + 1) / 2)) (f' := fun y => 2 * Real.sqrt (1 - y ^ 2) / Real.pi) (by linarith)
    ((areaFraction_continuous.comp (by fun_prop : Continuous fun y : ℝ => (y + 1) / 2)).continuousOn)
    (fun y hy => areaFraction_deriv hy.1 (by linarith [hy.2]))
    (Continuous.intervalIntegrable (by fun_prop) _ _)
  rw [intervalIntegral.integral_div] at hFTC
  unfold segmentFraction
  rw [hFTC]
  have e1 : (2 * lf - 1 + 1) / 2 = lf := by ring
  have e2 : ((-1 : ℝ) + 1) / 2 = 0 := by ring
  rw [e1, e2, areaFraction_zero, sub_zero]

theorem areaFraction_strictMono : StrictMonoOn areaFraction (Set.Icc 0 1) := by
  have h : StrictMonoOn (fun y => areaFraction ((y + 1) / 2)) (Set.Icc (-1) 1) := by
    apply strictMonoOn_of_deriv_pos (convex_Icc _ _)
    · exact (areaFraction_continuous.comp (by fun_prop : Continuous fun y : ℝ => (y + 1) / 2)).continuousOn
    · intro y hy
      rw [interior_Icc] at hy
      rw [(areaFraction_deriv hy.1 hy.2).deriv]
      have : 0 < 1 - y ^ 2 := by nlinarith [hy.1, hy.2]
      have := Real.sqrt_pos.2 this
      have := Real.pi_pos
      positivity
  intro x hx y hy hxy
  have := h (a := 2 * x - 1) (b := 2 * y - 1) ⟨by linarith [hx.1], by linarith [hx.2]⟩ ⟨by linarith [hy.1], by linarith [hy.2]⟩
    (by linarith)
  have e1 : (2 * x - 1 + 1) / 2 = x := by ring
  have e2 : (2 * y - 1 + 1) / 2 = y := by ring
  simpa only [e1, e2] using this

theorem areaFraction_symm (lf : ℝ) : areaFraction (1 - lf) = 1 - areaFraction lf := by
  unfold areaFraction
  have e : 1 - 2 * (1 - lf) = -(1 - 2 * lf) := by ring
  simp only [e, Real.arccos_neg]
  have e2 : 2 * (Real.pi - Real.arccos (1 - 2 * lf)) = 2 * Real.pi - 2 * Real.arccos (1 - 2 * lf) := by ring
  rw [e2, Real.sin_sub, Real.sin_two_pi, Real.cos_two_pi]
  have := Real.pi_pos
  field_simp
  ring

/-- **C29.** Fraction 0 at depth 0, 1 at depth 1, strictly increasing and symmetric. -/
theorem C29_area_fraction : areaFraction 0 = 0 ∧ areaFraction 1 = 1 ∧ StrictMonoOn areaFraction (Set.Icc 0 1) ∧
    ∀ lf, areaFraction (1 - lf) = 1 - areaFraction lf := by
  refine ⟨areaFraction_zero, ?_, areaFraction_strictMono, areaFraction_symm⟩
  have := areaFraction_symm 0
  rw [sub_zero, areaFraction_zero] at this
  linarith

theorem foldl_min_le (a : ℝ) (l : List ℝ) : minOf a l ≤ a ∧ (∀ x ∈ l, minOf a l ≤ x) ∧ (minOf a l = a ∨ minOf a l ∈ l) := by
  unfold minOf
  induction l generalizing a with
  | nil => simp
  | cons b l ih =>
    obtain ⟨h1, h2, h3⟩ := ih (min a b)
    simp only [List.foldl_cons]
    refine ⟨h1.trans (min_le_left _ _), ?_, ?_⟩
    · intro x hx
      rcases List.mem_cons.1 hx with rfl | hx
      · exact h1.trans (min_le_right _ _)
      · exact h2 x hx
    · rcases h3 with h3 | h3
      · rcases min_choice a b with h | h
        · left; rw [h3, h]
        · right; rw [h3, h]; exact List.mem_cons_self
      · right; exact List.mem_cons_of_mem _ h3

theorem foldl_max_ge (a : ℝ) (l : List ℝ) : a ≤ maxOf a l ∧ (∀ x ∈ l, x ≤ maxOf a l) ∧ (maxOf a l = a ∨ maxOf a l ∈ l) := by
  unfold maxOf
  induction l generalizing a with
  | nil => simp
  | cons b l ih =>
    obtain ⟨h1, h2, h3⟩ := ih (max a b)
    simp only [List.foldl_cons]
    refine ⟨(le_max_left _ _).trans h1, ?_, ?_⟩
    · intro x hx
      rcases List.mem_cons.1 hx with rfl | hx
      · exact (le_max_right _ _).trans h1
      · exact h2 x hx
    · rcases h3 with h3 | h3
      · rcases max_choice a b with h | h
        · left; rw [h3, h]
        · right; rw [h3, h]; exact List.mem_cons_self
      · right; exact List.mem_cons_of_mem _ h3

theorem clip_of_mem {x : ℝ} (h0 : 0 ≤ x) (h1 : x ≤ 1) : clip x 0 1 = x := by
  unfold clip
  rw [max_eq_left h0, min_eq_right h1]

theorem lfTable_eq : lfTable = .ok ((List.range 100).map (fun i : ℕ => (i : ℝ) / 99)) := by
  have hr : (List.range 100).map (fun i : ℕ => (i : ℝ)) = 0 :: (List.range 99).map (fun i : ℕ => ((i + 1 : ℕ) : ℝ)) := by
    rw [List.range_succ_eq_map]
    simp [List.map_map, Function.comp_def]
  have hmin : minOf 0 ((List.range 99).map (fun i : ℕ => ((i + 1 : ℕ) : ℝ))) = 0 := by
    obtain ⟨h1, _, h3⟩ := foldl_min_le 0 ((List.range 99).map (fun i : ℕ => ((i + 1 : ℕ) : ℝ)))
    rcases h3 with h3 | h3
    · exact h3
    · obtain ⟨i, _, e⟩ := List.mem_map.1 h3
      have : (0 : ℝ) < ((i + 1 : ℕ) : ℝ) := by positivity
      linarith
  have hmax : maxOf 0 ((List.range 99).map (fun i : ℕ => ((i + 1 : ℕ) : ℝ))) = 99 := by
    obtain ⟨_, h2, h3⟩ := foldl_max_ge 0 ((List.range 99).map (fun i : ℕ => ((i + 1 : ℕ) : ℝ)))
    have h99 := h2 99 (List.mem_map.2 ⟨98, by simp, by norm_num⟩)
    rcases h3 with h3 | h3
    · rw [h3] at h99; norm_num at h99
    · obtain ⟨i, hi, e⟩ := List.mem_map.1 h3
      have : ((i + 1 : ℕ) : ℝ) ≤ 99 := by
        have := List.mem_range.1 hi
        exact_mod_cast this
      linarith
  unfold lfTable
  rw [hr]
  simp only [scl, hmin, hmax]
  rw [if_neg (by norm_num), ← hr]
  simp only [List.map_map, Function.comp_def, DType.cast]
  congr 1
  apply List.map_congr_left
  intro i hi
  have h99 : (i : ℝ) ≤ 99 := by
    have := List.mem_range.1 hi
    exact_mod_cast (by omega : i ≤ 99)
  have h0 : (0 : ℝ) ≤ i := Nat.cast_nonneg i
  rw [clip_of_mem (by rw [sub_zero, sub_zero]; positivity) (by rw [sub_zero, sub_zero]; rw [div_le_one (by norm_num)]; exact h99)]
  ring

/-- interpolation in two increasing tables is strictly increasing between their ends -/
theorem interp_strict (xp fp : List ℝ) (hx : xp.Pairwise (· < ·)) (hf : fp.Pairwise (· < ·)) (hlen : xp.length = fp.length)
    (hne : 0 < xp.length) {x y : ℝ} (h0 : xp[0] ≤ x) (hxy : x < y) (h1 : y ≤ xp[xp.length - 1]) : interp xp fp x < interp xp fp y := by
  have hfl := List.pairwise_iff_getElem.1 hf
  have hxl := List.pairwise_iff_getElem.1 hx
  rcases interp_cases xp fp x (hx.imp le_of_lt) hlen hne with ⟨g, _⟩ | ⟨g, _⟩ | ⟨j, h, _, g1, g2, e⟩
  · linarith
  · linarith
  · have hxj := hxl j (j + 1) (by omega) h (by omega)
    have hfj := hfl j (j + 1) (by omega) (by omega) (by omega)
    have hlt : interp xp fp x < fp[j + 1]'(by omega) := by
      rw [e]
      have : (fp[j + 1]'(by omega) - fp[j]'(by omega)) / (xp[j + 1] - xp[j]) * (x - xp[j]) < fp[j + 1]'(by omega) - fp[j]'(by omega) := by
        rw [div_mul_eq_mul_div, div_lt_iff₀ (by linarith)]
        nlinarith
      linarith
    rcases interp_cases xp fp y (hx.imp le_of_lt) hlen hne with ⟨k, _⟩ | ⟨k, e'⟩ | ⟨i, hi, _, k1, k2, e'⟩
    · linarith
    · rw [e']
      exact hlt.trans_le (getElem_mono (hf.imp le_of_lt) (by omega) (by omega))
    · have hji : j ≤ i := by
        by_contra hc
        have := getElem_mono (hx.imp le_of_lt) (i := i + 1) (j := j) (by omega) (by omega)
        linarith
      rcases Nat.eq_or_lt_of_le hji with rfl | hji
      · rw [e, e']
        have : 0 < (fp[j + 1]'(by omega) - fp[j]'(by omega)) / (xp[j + 1] - xp[j]) := div_pos (by linarith) (by linarith)
        nlinarith
      · have h3 : fp[j + 1]'(by omega) ≤ fp[i]'(by omega) := getElem_mono (hf.imp le_of_lt) (by omega) (by omega)
        have h4 : fp[i]'(by omega) ≤ interp xp fp y := by
          rw [e']
          have hfi := hfl i (i + 1) (by omega) (by omega) (by omega)
          have hxi := hxl i (i + 1) (by omega) hi (by omega)
          have : 0 ≤ (fp[i + 1]'(by omega) - fp[i]'(by omega)) / (xp[i + 1] - xp[i]) * (y - xp[i]) :=
            mul_nonneg (div_nonneg (by linarith) (by linarith)) (by linarith)
          linarith
        linarith

/-- **C29.** The tabulated inverse never fails, maps into [0,1], is non-decreasing everywhere and increasing on [0,1]; it is exact at
the 100 table depths `i/99`, and maps 1/2 to 1/2 (0 to 0 and 1 to 1 are the table ends). -/
theorem C29_inverse : ∃ inv : ℝ → ℝ, (∀ af, af2lf af = .ok (inv af)) ∧ (∀ af, 0 ≤ inv af ∧ inv af ≤ 1) ∧ Monotone inv ∧
    (∀ i : ℕ, i ≤ 99 → inv (segmentFraction ((i : ℝ) / 99)) = (i : ℝ) / 99) ∧ inv 0 = 0 ∧ inv 1 = 1 ∧
    inv (1 / 2) = 1 / 2 ∧ StrictMonoOn inv (Set.Icc 0 1) := by
  set lf := (List.range 100).map (fun i : ℕ => (i : ℝ) / 99) with hlf
  have hlen : lf.length = 100 := by simp [hlf]
  have hget : ∀ (i : ℕ) (hi : i < lf.length), lf[i] = (i : ℝ) / 99 := by intro i hi; simp [hlf]
  have hmem : ∀ (i : ℕ), i ≤ 99 → (i : ℝ) / 99 ∈ Set.Icc (0 : ℝ) 1 := by
    intro i hi
    have : (i : ℝ) ≤ 99 := by exact_mod_cast hi
    exact ⟨by positivity, (div_le_one (by norm_num)).2 this⟩
  have hlfs : lf.Pairwise (· < ·) := by
    rw [List.pairwise_iff_getElem]
    intro i j hi hj hij
    rw [hget, hget]
    have : (i : ℝ) < j := by exact_mod_cast hij
    gcongr
  have hafs : (lf.map areaFraction).Pairwise (· < ·) := by
    rw [List.pairwise_iff_getElem]
    intro i j hi hj hij
    rw [List.length_map, hlen] at hi hj
    have e : ∀ (i : ℕ) (h : i < (lf.map areaFraction).length), (lf.map areaFraction)[i] = areaFraction ((i : ℝ) / 99) := by
      intro i h
      have := hget i (by simpa using h)
      rw [← this]
      exact List.getElem_map _
    rw [e, e]
    apply areaFraction_strictMono (hmem i (by omega)) (hmem j (by omega))
    have : (i : ℝ) < j := by exact_mod_cast hij
    gcongr
  have hl2 : (lf.map areaFraction).length = lf.length := by simp
  have hnode : ∀ i : ℕ, i ≤ 99 → interp (lf.map areaFraction) lf (areaFraction ((i : ℝ) / 99)) = (i : ℝ) / 99 := by
    intro i hi
    have := interp_node (lf.map areaFraction) lf hafs hl2 i (by rw [hl2, hlen]; omega)
    rw [List.getElem_map, hget] at this
    exact this
  have hr := fun x => interp_mem_range (lf.map areaFraction) lf (hafs.imp le_of_lt) (hlfs.imp le_of_lt) hl2 (by rw [hl2, hlen]; norm_num) x
  refine ⟨fun af => interp (lf.map areaFraction) lf af, ?_, ?_, ?_, ?_, ?_, ?_, ?_, ?_⟩
  · intro af
    simp only [af2lf, lfTable_eq, except_ok_bind, hlf]
  · intro af
    have := hr af
    rw [hget, hget] at this
    simp only [hlen] at this
    norm_num at this
    exact this
  · intro x y hxy
    exact interp_mono _ _ (hafs.imp le_of_lt) (hlfs.imp le_of_lt) hl2 (by rw [hl2, hlen]; norm_num) hxy
  · intro i hi
    rw [← C29_geometric _ (hmem i hi).1 (hmem i hi).2]
    exact hnode i hi
  · have := hnode 0 (by norm_num)
    simpa [areaFraction_zero] using this
  · have := hnode 99 le_rfl
    norm_num at this
    rwa [C29_area_fraction.2.1] at this
  · have h49 := areaFraction_symm (49 / 99)
    have e50 : (1 : ℝ) - 49 / 99 = 50 / 99 := by norm_num
    rw [e50] at h49
    have hlt := areaFraction_strictMono (hmem 49 (by norm_num)) (hmem 50 (by norm_num)) (by norm_num : ((49 : ℕ) : ℝ) / 99 < ((50 : ℕ) : ℝ) / 99)
    norm_num at hlt
    have g49 : (lf.map areaFraction)[49]'(by rw [hl2, hlen]; norm_num) = areaFraction (49 / 99) := by
      rw [List.getElem_map, hget]; norm_num
    have g50 : (lf.map areaFraction)[50]'(by rw [hl2, hlen]; norm_num) = areaFraction (50 / 99) := by
      rw [List.getElem_map, hget]; norm_num
    have := interp_at_interval (lf.map areaFraction) lf hafs hl2 49 (by rw [hl2, hlen]; norm_num) (1 / 2)
      (by rw [g49]; linarith) (by rw [g50]; linarith)
    show interp (lf.map areaFraction) lf (1 / 2) = 1 / 2
    rw [this, g49, g50, hget, hget, h49]
    push_cast
    have : 1 - areaFraction (49 / 99) - areaFraction (49 / 99) ≠ 0 := by linarith
    field_simp
    ring
  · intro x hx y hy hxy
    have e0 : (lf.map areaFraction)[0]'(by rw [hl2, hlen]; norm_num) = 0 := by
      rw [List.getElem_map, hget]; norm_num [areaFraction_zero]
    have e1 : (lf.map areaFraction)[(lf.map areaFraction).length - 1]'(by rw [hl2, hlen]; norm_num) = 1 := by
      rw [List.getElem_map, hget, hl2, hlen]; norm_num [C29_area_fraction.2.1]
    exact interp_strict _ _ hafs hlfs hl2 (by rw [hl2, hlen]; norm_num) (by rw [e0]; exact hx.1) hxy (by rw [e1]; exact hy.2)

/-! ### C62 -/

/-- **C62 (partial: non-empty vectors).** `gm.range` gives the least and greatest element; with `outer` the greatest
integer below and the least integer above; `gm.mag` their difference. -/
theorem C62_range_partial (x : List ℝ) (hx : x ≠ []) : ∃ mn mx, mn ∈ x ∧ mx ∈ x ∧ (∀ v ∈ x, mn ≤ v ∧ v ≤ mx) ∧
    range x false false = .pair mn mx ∧ mag x false = .number (mx - mn) ∧
    range x false true = .pair ⌊mn⌋ ⌈mx⌉ ∧ mag x true = .number (⌈mx⌉ - ⌊mn⌋) := by
  cases x with
  | nil => exact absurd rfl hx
  | cons a l =>
    obtain ⟨a1, a2, a3⟩ := foldl_min_le a l
    obtain ⟨b1, b2, b3⟩ := foldl_max_ge a l
    refine ⟨minOf a l, maxOf a l, ?_, ?_, ?_, rfl, rfl, rfl, rfl⟩
    · rcases a3 with h | h
      · rw [h]; exact List.mem_cons_self
      · exact List.mem_cons_of_mem _ h
    · rcases b3 with h | h
      · rw [h]; exact List.mem_cons_self
      · exact List.mem_cons_of_mem _ h
    · intro v hv
      rcases List.mem_cons.1 hv with rfl | hv
      · exact ⟨a1, b1⟩
      · exact ⟨a2 v hv, b2 v hv⟩

/-- **C62 is false of the code for the empty vector**: the magnitude is returned as the pair (nan, nan), not as nan. -/
theorem C62_empty_counterexample : mag [] false = .nanPair ∧ mag [] false ≠ .nan := ⟨rfl, nofun⟩

/-! ### C63 -/

theorem clip01 (v : ℝ) : 0 ≤ clip v 0 1 ∧ clip v 0 1 ≤ 1 := by
  unfold clip
  exact ⟨le_min zero_le_one (le_max_right _ _), min_le_left _ _⟩

theorem clip01_mono {u v : ℝ} (h : u ≤ v) : clip u 0 1 ≤ clip v 0 1 := by
  unfold clip
  exact min_le_min_left _ (max_le_max_right _ h)

theorem clip01_ge {v : ℝ} (h : 1 ≤ v) : clip v 0 1 = 1 := by
  unfold clip; rw [max_eq_left (by linarith), min_eq_left h]

theorem clip01_le {v : ℝ} (h : v ≤ 0) : clip v 0 1 = 0 := by
  unfold clip; rw [max_eq_right h, min_eq_right zero_le_one]

theorem cast_mono (t : DType) : Monotone t.cast := by
  intro u v h
  cases t with
  | float => exact h
  | int =>
    simp only [DType.cast]
    split <;> split
    · exact_mod_cast Int.floor_le_floor h
    · linarith
    · next hu hv =>
      have h1 : (⌈u⌉ : ℝ) ≤ 0 := by exact_mod_cast Int.ceil_le.2 (by push_cast; linarith)
      have h2 : (0 : ℝ) ≤ ⌊v⌋ := by exact_mod_cast Int.le_floor.2 (by push_cast; linarith)
      linarith
    · exact_mod_cast Int.ceil_le_ceil h

theorem cast_int (t : DType) (z : ℤ) : t.cast (z : ℝ) = z := by
  cases t with
  | float => rfl
  | int => simp [DType.cast]

/-- the conversion keeps a number `o` unchanged: always for floats, for whole numbers otherwise -/
def Keeps (t : DType) (o : ℝ) : Prop := t = .float ∨ ∃ z : ℤ, o = z

theorem cast_keeps {t : DType} {o : ℝ} (h : Keeps t o) : t.cast o = o := by
  rcases h with rfl | ⟨z, rfl⟩
  · rfl
  · exact cast_int t z

/-- **C63.** For an explicit input range `(a, b)`, `a < b`, and an output range `(o0, o1)`, `o0 ≤ o1`, whose limits are
representable in the output type: the result is, element by element, a non-decreasing function of the input, lies
in the output range, and takes everything up to `a` to `o0` and everything from `b` to `o1`; in between it is the
straight line through these points, truncated toward zero for integer output. -/
theorem C63_scl (x : List ℝ) (hx : x ≠ []) (xt t : DType) (a b o0 o1 : ℝ) (hab : a < b) (ho : o0 ≤ o1)
    (h0 : Keeps t o0) (h1 : Keeps t o1) :
    ∃ f : ℝ → ℝ, scl x xt (some (a, b)) (some ((o0, o1), t)) none = .ok (x.map f) ∧ Monotone f ∧
      (∀ v, o0 ≤ f v ∧ f v ≤ o1) ∧ (∀ v ≤ a, f v = o0) ∧ (∀ v, b ≤ v → f v = o1) ∧
      ∀ v, a ≤ v → v ≤ b → f v = t.cast (o0 + (v - a) / (b - a) * (o1 - o0)) := by
  have hba : 0 < b - a := by linarith
  have hmono : Monotone (fun v => t.cast (o0 + clip ((v - a) / (b - a)) 0 1 * (o1 - o0))) := by
    intro u v huv
    apply cast_mono
    have : (u - a) / (b - a) ≤ (v - a) / (b - a) := by gcongr
    have := clip01_mono this
    have : 0 ≤ o1 - o0 := by linarith
    gcongr
  have hlow : ∀ v ≤ a, t.cast (o0 + clip ((v - a) / (b - a)) 0 1 * (o1 - o0)) = o0 := by
    intro v hv
    rw [clip01_le (div_nonpos_of_nonpos_of_nonneg (by linarith) hba.le), zero_mul, add_zero, cast_keeps h0]
  have hhigh : ∀ v, b ≤ v → t.cast (o0 + clip ((v - a) / (b - a)) 0 1 * (o1 - o0)) = o1 := by
    intro v hv
    rw [clip01_ge ((one_le_div hba).2 (by linarith)), one_mul, add_sub_cancel, cast_keeps h1]
  refine ⟨fun v => t.cast (o0 + clip ((v - a) / (b - a)) 0 1 * (o1 - o0)), ?_, hmono, ?_, hlow, hhigh, ?_⟩
  · cases x with
    | nil => exact absurd rfl hx
    | cons c l =>
      simp only [scl]
      rw [if_neg hba.ne']
      simp only [List.map_map, Function.comp_def]
  · intro v
    constructor
    · have := hmono (min_le_left v a)
      simp only [hlow _ (min_le_right v a)] at this
      exact this
    · have := hmono (le_max_left v b)
      simp only [hhigh _ (le_max_right v b)] at this
      exact this
  · intro v hv1 hv2
    simp only
    rw [clip_of_mem (div_nonneg (by linarith) hba.le) ((div_le_one hba).2 (by linarith))]

/-- **C63, ranges in either direction.** For any two different input limits and any output limits representable in the output type: the result
lies between the output limits, everything on the far side of `a` goes to `o0` and everything on the far side of `b` to `o1`, in between it is the
straight line (truncated for integer output), and order is kept, or reversed if just one of the ranges is given in descending order. -/
theorem C63_reversed (x : List ℝ) (hx : x ≠ []) (xt t : DType) (a b o0 o1 : ℝ) (hab : a ≠ b) (h0 : Keeps t o0) (h1 : Keeps t o1) :
    ∃ f : ℝ → ℝ, scl x xt (some (a, b)) (some ((o0, o1), t)) none = .ok (x.map f) ∧
      (∀ v, min o0 o1 ≤ f v ∧ f v ≤ max o0 o1) ∧ (∀ v, (v ≤ a ∧ a < b) ∨ (a ≤ v ∧ b < a) → f v = o0) ∧
      (∀ v, (b ≤ v ∧ a < b) ∨ (v ≤ b ∧ b < a) → f v = o1) ∧
      (∀ v, (a ≤ v ∧ v ≤ b) ∨ (b ≤ v ∧ v ≤ a) → f v = t.cast (o0 + (v - a) / (b - a) * (o1 - o0))) ∧
      (0 ≤ (b - a) * (o1 - o0) → Monotone f) ∧ ((b - a) * (o1 - o0) ≤ 0 → Antitone f) := by
  have hba : b - a ≠ 0 := fun h => hab (by linarith)
  set g : ℝ → ℝ := fun v => clip ((v - a) / (b - a)) 0 1 with hg
  have hlow : ∀ v, (v ≤ a ∧ a < b) ∨ (a ≤ v ∧ b < a) → g v = 0 := by
    rintro v (⟨h, h'⟩ | ⟨h, h'⟩)
    · exact clip01_le (div_nonpos_of_nonpos_of_nonneg (by linarith) (by linarith))
    · exact clip01_le (div_nonpos_of_nonneg_of_nonpos (by linarith) (by linarith))
  have hhigh : ∀ v, (b ≤ v ∧ a < b) ∨ (v ≤ b ∧ b < a) → g v = 1 := by
    rintro v (⟨h, h'⟩ | ⟨h, h'⟩)
    · exact clip01_ge ((one_le_div (by linarith)).2 (by linarith))
    · exact clip01_ge ((one_le_div_of_neg (by linarith)).2 (by linarith))
  have hin : ∀ v, (a ≤ v ∧ v ≤ b) ∨ (b ≤ v ∧ v ≤ a) → g v = (v - a) / (b - a) := by
    rintro v (⟨h, h'⟩ | ⟨h, h'⟩)
    · have : a < b := lt_of_le_of_ne (h.trans h') hab
      exact clip_of_mem (div_nonneg (by linarith) (by linarith)) ((div_le_one (by linarith)).2 (by linarith))
    · have : b < a := lt_of_le_of_ne (h.trans h') hab.symm
      exact clip_of_mem (div_nonneg_of_nonpos (by linarith) (by linarith)) ((div_le_one_of_neg (by linarith)).2 (by linarith))
  have hup : a < b → Monotone g := fun h u v huv => clip01_mono (by
    have : 0 < b - a := by linarith
    gcongr)
  have hdown : b < a → Antitone g := fun h u v huv => clip01_mono (by
    rw [div_le_div_right_of_neg (by linarith)]
    linarith)
  have hbetween : ∀ v, min o0 o1 ≤ o0 + g v * (o1 - o0) ∧ o0 + g v * (o1 - o0) ≤ max o0 o1 := by
    intro v
    obtain ⟨c0, c1⟩ := clip01 ((v - a) / (b - a))
    change 0 ≤ g v at c0
    change g v ≤ 1 at c1
    rcases le_total o0 o1 with h | h
    · rw [min_eq_left h, max_eq_right h]
      constructor <;> nlinarith
    · rw [min_eq_right h, max_eq_left h]
      constructor <;> nlinarith
  have hk : Keeps t (min o0 o1) ∧ Keeps t (max o0 o1) := by
    rcases le_total o0 o1 with h | h
    · rw [min_eq_left h, max_eq_right h]; exact ⟨h0, h1⟩
    · rw [min_eq_right h, max_eq_left h]; exact ⟨h1, h0⟩
  refine ⟨fun v => t.cast (o0 + g v * (o1 - o0)), ?_, ?_, ?_, ?_, ?_, ?_, ?_⟩
  · cases x with
    | nil => exact absurd rfl hx
    | cons c l =>
      simp only [scl]
      rw [if_neg hba]
      simp only [List.map_map, Function.comp_def, hg]
  · intro v
    constructor
    · have := cast_mono t (hbetween v).1
      rwa [cast_keeps hk.1] at this
    · have := cast_mono t (hbetween v).2
      rwa [cast_keeps hk.2] at this
  · intro v hv
    simp only
    rw [hlow v hv, zero_mul, add_zero, cast_keeps h0]
  · intro v hv
    simp only
    rw [hhigh v hv, one_mul, add_sub_cancel, cast_keeps h1]
  · intro v hv
    simp only
    rw [hin v hv]
  · intro h u v huv
    apply cast_mono
    rcases lt_or_gt_of_ne hab with hl | hl
    · have h1 := hup hl huv
      have h2 : 0 ≤ o1 - o0 := by
        by_contra hn
        nlinarith
      nlinarith
    · have h1 := hdown hl huv
      have h2 : o1 - o0 ≤ 0 := by
        by_contra hn
        nlinarith
      nlinarith
  · intro h u v huv
    apply cast_mono
    rcases lt_or_gt_of_ne hab with hl | hl
    · have h1 := hup hl huv
      have h2 : o1 - o0 ≤ 0 := by
        by_contra hn
        nlinarith
      nlinarith
    · have h1 := hdown hl huv
      have h2 : 0 ≤ o1 - o0 := by
        by_contra hn
        nlinarith
      nlinarith

example : ∃ f : ℝ → ℝ, scl [2, 7] .int (some (3, 5)) (some ((20, 10), .int)) none = .ok ([2, 7].map f) ∧ Antitone f := by
  obtain ⟨f, h1, -, -, -, -, -, h2⟩ := C63_reversed [2, 7] (by simp) .int .int 3 5 20 10 (by norm_num)
    (Or.inr ⟨20, by norm_num⟩) (Or.inr ⟨10, by norm_num⟩)
  exact ⟨f, h1, h2 (by norm_num)⟩

/-- without an explicit input range the range of the data is used -/
theorem C63_default_input (x : List ℝ) (mn mx : ℝ) (xt : DType) (o : Option ((ℝ × ℝ) × DType)) (tn : Option TName)
    (h : range x false false = .pair mn mx) : scl x xt none o tn = scl x xt (some (mn, mx)) o tn := by
  cases x with
  | nil => simp [range] at h
  | cons a l =>
    simp only [range, Bool.false_eq_true, if_false, RangeResult.pair.injEq] at h
    obtain ⟨rfl, rfl⟩ := h
    rfl

/-- the named integer types: every element of the result is a whole number of that type -/
theorem C63_named_types (x : List ℝ) (hx : x ≠ []) (xt : DType) (a b : ℝ) (hab : a < b) :
    (∃ l : List ℤ, scl x xt (some (a, b)) none (some .byte) = .ok (l.map (fun z : ℤ => (z : ℝ))) ∧ ∀ z ∈ l, 0 ≤ z ∧ z ≤ 255) ∧
    (∃ l : List ℤ, scl x xt (some (a, b)) none (some .uint16) = .ok (l.map (fun z : ℤ => (z : ℝ))) ∧ ∀ z ∈ l, 0 ≤ z ∧ z ≤ 65535) ∧
    (∃ l : List ℤ, scl x xt (some (a, b)) none (some .int16) = .ok (l.map (fun z : ℤ => (z : ℝ))) ∧ ∀ z ∈ l, -32768 ≤ z ∧ z ≤ 32767) := by
  have hba : b - a ≠ 0 := by intro h; linarith
  have key : ∀ (n : TName) (o0 o1 : ℝ) (z0 z1 : ℤ), o0 = z0 → z0 ≤ 0 → 0 ≤ z1 → o0 ≤ o1 → o1 < z1 + 1 →
      scl x xt (some (a, b)) none (some n) = .ok (x.map (fun v => DType.int.cast (o0 + clip ((v - a) / (b - a)) 0 1 * (o1 - o0)))) →
      ∃ l : List ℤ, scl x xt (some (a, b)) none (some n) = .ok (l.map (fun z : ℤ => (z : ℝ))) ∧ ∀ z ∈ l, z0 ≤ z ∧ z ≤ z1 := by
    intro n o0 o1 z0 z1 e0 hz0 hz1 ho h1 he
    let tr : ℝ → ℤ := fun v => if 0 ≤ v then ⌊v⌋ else ⌈v⌉
    have htr : ∀ v, DType.int.cast v = (tr v : ℝ) := by
      intro v
      simp only [DType.cast, tr]
      split <;> rfl
    refine ⟨x.map (fun v => tr (o0 + clip ((v - a) / (b - a)) 0 1 * (o1 - o0))), ?_, ?_⟩
    · rw [he, List.map_map]
      congr 1
      apply List.map_congr_left
      intro v _
      exact htr _
    · intro z hz
      obtain ⟨v, _, rfl⟩ := List.mem_map.1 hz
      obtain ⟨c0, c1⟩ := clip01 ((v - a) / (b - a))
      have g0 : o0 ≤ o0 + clip ((v - a) / (b - a)) 0 1 * (o1 - o0) := by nlinarith
      have g1 : o0 + clip ((v - a) / (b - a)) 0 1 * (o1 - o0) ≤ o1 := by nlinarith
      generalize o0 + clip ((v - a) / (b - a)) 0 1 * (o1 - o0) = w at g0 g1
      simp only [tr]
      split
      · next hw =>
        constructor
        · apply Int.le_floor.2; linarith
        · apply Int.lt_add_one_iff.1
          apply Int.floor_lt.2
          push_cast
          linarith
      · next hw =>
        constructor
        · have : (z0 : ℝ) ≤ ⌈w⌉ := by linarith [Int.le_ceil w]
          exact_mod_cast this
        · apply Int.ceil_le.2
          have : (0 : ℝ) ≤ z1 := by exact_mod_cast hz1
          linarith
  refine ⟨key .byte 0 (256 - 0.00001) 0 255 (by norm_num) (by norm_num) (by norm_num) (by norm_num) (by norm_num) ?_,
    key .uint16 0 (65536 - 0.01) 0 65535 (by norm_num) (by norm_num) (by norm_num) (by norm_num) (by norm_num) ?_,
    key .int16 (-32768) (32768 - 0.01) (-32768) 32767 (by norm_num) (by norm_num) (by norm_num) (by norm_num) (by norm_num) ?_⟩ <;>
  · cases x with
    | nil => exact absurd rfl hx
    | cons c l =>
      simp only [scl]
      rw [if_neg hba]
      simp only [List.map_map, Function.comp_def]

/-- **C63 is false of the code** when a type name and an output range are both given: every call fails. -/
theorem C63_both_counterexample (x : List ℝ) (xt : DType) (ir : Option (ℝ × ℝ)) (o : (ℝ × ℝ) × DType) (n : TName) :
    ∀ y, scl x xt ir (some o) (some n) ≠ .ok y := by
  intro y h
  cases x with
  | nil => simp [scl] at h
  | cons a l =>
    obtain ⟨r, t⟩ := o
    simp only [scl] at h
    split at h <;> split at h <;> injection h

example : scl [2, 7] .int none (some ((10, 20), .float)) none = scl [2, 7] .int (some (2, 7)) (some ((10, 20), .float)) none :=
  C63_default_input _ _ _ _ _ _ (by norm_num [range, minOf, maxOf])

example : ∃ f : ℝ → ℝ, scl [2, 7] .int (some (3, 5)) (some ((10, 20), .int)) none = .ok ([2, 7].map f) ∧ Monotone f := by
  obtain ⟨f, h1, h2, _⟩ := C63_scl [2, 7] (by simp) .int .int 3 5 10 20 (by norm_num) (by norm_num)
    (Or.inr ⟨10, by norm_num⟩) (Or.inr ⟨20, by norm_num⟩)
  exact ⟨f, h1, h2⟩

/-! ### C64 -/

theorem nSigma_pos {v : ℝ} (h : 0 < v) : nSigmaScaling v = v ^ (0.6 : ℝ) := by
  simp [nSigmaScaling, Misc.sign, h, abs_of_pos h]

theorem nSigma_neg (v : ℝ) : nSigmaScaling (-v) = -nSigmaScaling v := by
  unfold nSigmaScaling Misc.sign
  rw [abs_neg]
  rcases lt_trichotomy v 0 with h | h | h
  · simp [h, h.le, not_lt.2 h.le]
  · subst h; simp
  · simp [h, not_lt.2 h.le]

theorem nSigma_zero : nSigmaScaling 0 = 0 := by simp [nSigmaScaling, Misc.sign]

/-- **C64.** -/
theorem C64_n_sigma : (∀ v, nSigmaScaling (-v) = -nSigmaScaling v) ∧ StrictMono nSigmaScaling ∧
    nSigmaScaling 0 = 0 ∧ nSigmaScaling 1 = 1 ∧ nSigmaScaling (-1) = -1 ∧
    (∀ v, |v| ≤ 1 → |v| ≤ |nSigmaScaling v|) ∧ (∀ v, 1 ≤ |v| → |nSigmaScaling v| ≤ |v|) ∧
    (∀ v, 0 < v → nSigmaScaling v = v ^ (3 / 5 : ℝ)) := by
  have hone : nSigmaScaling 1 = 1 := by rw [nSigma_pos one_pos, Real.one_rpow]
  have hp : ∀ v, 0 < v → 0 < nSigmaScaling v := fun v h => by rw [nSigma_pos h]; exact Real.rpow_pos_of_pos h _
  have habs : ∀ v, |nSigmaScaling v| = |v| ^ (0.6 : ℝ) := by
    intro v
    rcases lt_trichotomy v 0 with h | h | h
    · rw [← neg_neg v, nSigma_neg, abs_neg, abs_neg, nSigma_pos (by linarith), abs_of_pos (Real.rpow_pos_of_pos (by linarith) _), abs_of_pos (by linarith)]
    · subst h; rw [nSigma_zero, abs_zero, Real.zero_rpow (by norm_num)]
    · rw [nSigma_pos h, abs_of_pos (Real.rpow_pos_of_pos h _), abs_of_pos h]
  refine ⟨nSigma_neg, ?_, nSigma_zero, hone, by rw [nSigma_neg, hone], ?_, ?_, ?_⟩
  · have hpos : ∀ u v : ℝ, 0 < u → u < v → nSigmaScaling u < nSigmaScaling v := by
      intro u v hu huv
      rw [nSigma_pos hu, nSigma_pos (hu.trans huv)]
      exact Real.rpow_lt_rpow hu.le huv (by norm_num)
    intro u v huv
    rcases lt_trichotomy u 0 with hu | hu | hu
    · have h1 : nSigmaScaling u < 0 := by
        have := hp (-u) (by linarith)
        rw [nSigma_neg] at this
        linarith
      rcases lt_trichotomy v 0 with hv | hv | hv
      · have := hpos (-v) (-u) (by linarith) (by linarith)
        rw [nSigma_neg, nSigma_neg] at this
        linarith
      · subst hv; rw [nSigma_zero]; exact h1
      · exact h1.trans (hp v hv)
    · subst hu; rw [nSigma_zero]; exact hp v huv
    · exact hpos u v hu huv
  · intro v hv
    rw [habs]
    rcases (abs_nonneg v).eq_or_lt with h | h
    · rw [← h, Real.zero_rpow (by norm_num)]
    · calc |v| = |v| ^ (1 : ℝ) := (Real.rpow_one _).symm
        _ ≤ |v| ^ (0.6 : ℝ) := Real.rpow_le_rpow_of_exponent_ge h hv (by norm_num)
  · intro v hv
    rw [habs]
    calc |v| ^ (0.6 : ℝ) ≤ |v| ^ (1 : ℝ) := Real.rpow_le_rpow_of_exponent_le hv (by norm_num)
      _ = |v| := Real.rpow_one _
  · intro v hv
    rw [nSigma_pos hv]
    norm_num

/-! ### C67 -/

/-- the items handed to the consumer -/
def yielded {α : Type} : List (Event α) → List (ℕ × α)
  | [] => []
  | .put _ _ :: l => yielded l
  | .yield i x :: l => (i, x) :: yielded l

/-- the progress messages -/
def reported {α : Type} : List (Event α) → List (ℕ × Option ℕ)
  | [] => []
  | .put c t :: l => (c, t) :: reported l
  | .yield _ _ :: l => reported l

/-- **C67.** Iterating over `enumerate(items)` with progress reporting hands over exactly the numbered items, in
order, and the messages are 1, 2, …, n with the given total; also, whenever the consumer stops (after any number of
events), what was handed over is an initial part, and no more than one message is ahead of it. -/
theorem C67_progress {α : Type} (items : List α) (total : Option ℕ) :
    yielded (iteratorWithProgress (items.zipIdx.map Prod.swap) total) = items.zipIdx.map Prod.swap ∧
    reported (iteratorWithProgress (items.zipIdx.map Prod.swap) total) = (List.range items.length).map (fun i => (i + 1, total)) ∧
    ∀ n, let seen := (iteratorWithProgress (items.zipIdx.map Prod.swap) total).take n
      yielded seen <+: items.zipIdx.map Prod.swap ∧ (yielded seen).length ≤ (reported seen).length ∧
      (reported seen).length ≤ (yielded seen).length + 1 := by
  have hy : ∀ l : List (ℕ × α), yielded (iteratorWithProgress l total) = l := by
    intro l
    induction l with
    | nil => rfl
    | cons p l ih => simp only [iteratorWithProgress, List.flatMap_cons, List.cons_append, List.nil_append, yielded] at ih ⊢; rw [ih]
  have hr : ∀ l : List (ℕ × α), reported (iteratorWithProgress l total) = l.map (fun p => (p.1 + 1, total)) := by
    intro l
    induction l with
    | nil => rfl
    | cons p l ih => simp only [iteratorWithProgress, List.flatMap_cons, List.cons_append, List.nil_append, reported, List.map_cons] at ih ⊢; rw [ih]
  have hp : ∀ (l : List (ℕ × α)) (n : ℕ), yielded ((iteratorWithProgress l total).take n) <+: l ∧
      (yielded ((iteratorWithProgress l total).take n)).length ≤ (reported ((iteratorWithProgress l total).take n)).length ∧
      (reported ((iteratorWithProgress l total).take n)).length ≤ (yielded ((iteratorWithProgress l total).take n)).length + 1 := by
    intro l
    induction l with
    | nil => intro n; simp [iteratorWithProgress, yielded, reported]
    | cons p l ih =>
      intro n
      match n with
      | 0 => simp [yielded, reported]
      | 1 => simp [iteratorWithProgress, yielded, reported]
      | n + 2 =>
        have e : (iteratorWithProgress (p :: l) total).take (n + 2) =
            .put (p.1 + 1) total :: .yield p.1 p.2 :: (iteratorWithProgress l total).take n := by
          simp [iteratorWithProgress]
        rw [e]
        obtain ⟨i1, i2, i3⟩ := ih n
        simp only [yielded, reported, List.length_cons]
        refine ⟨List.cons_prefix_cons.2 ⟨rfl, i1⟩, by omega, by omega⟩
  refine ⟨hy _, ?_, hp _⟩
  rw [hr, List.map_map]
  apply List.ext_getElem (by simp)
  intro i h1 h2
  simp

end

end Verif.Props
