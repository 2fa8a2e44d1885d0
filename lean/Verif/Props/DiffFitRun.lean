import Verif.Props.FitRun

/-!
C157: the fits to the differential distribution in the table of ages of a command.
-/

namespace Verif.Props

open Verif.Spec Verif.Py Verif.Text Verif.Rand Verif.Cli Verif.PlotObject Verif.Epochs Verif.EpochPlot
open Verif.CountFile Verif.Cratercount Verif.Chronology Verif.Production Verif.Craterpdf Verif.Age Verif.FileAge Verif.RunAges Verif.FunctionRun Verif.EpochRun

noncomputable section

/-- Specification: the slope of the straight line in logarithms through the points of a curve at `e` and `e'` -/
def chordSlope (κ : ℝ → ℝ) (e e' : ℝ) : ℝ := Real.logb 10 (κ e' / κ e) / Real.logb 10 (e' / e)

/-- Specification: the mean, over the diameters from `e` to `e'`, of the derivative of a power law with the slope of the curve, relative to its value at the geometric mean; 1 if the
slope is less than 0.00001 -/
def chordBias (κ : ℝ → ℝ) (e e' : ℝ) : ℝ :=
  if |chordSlope κ e e'| < 0.00001 then 1
  else (∫ x in e..e', x ^ (chordSlope κ e e' - 1)) / (e' - e) / Real.sqrt (e * e') ^ (chordSlope κ e e' - 1)

/-- Specification: the deviation of the craters per diameter and area, corrected for the width of the bins, from the curve `φ` with logarithm `α`: the squares of the differences of
the logarithms at the geometric means of the bins, weighted with the craters per diameter and area divided by the square root of their number -/
def diffDeviation (cs : List (ℝ × ℝ)) (area : ℝ) (κ φ : ℝ → ℝ) (l : List (ℝ × ℝ)) (α : ℝ) : ℝ :=
  (l.map (fun x => weightIn cs x.1 x.2 / (x.2 - x.1) / area / Real.sqrt (countIn cs x.1 x.2) *
    (Real.logb 10 (weightIn cs x.1 x.2 / (x.2 - x.1) / area / chordBias κ x.1 x.2) - (α + Real.logb 10 (φ (Real.sqrt (x.1 * x.2))))) ^ 2)).sum

/-- the two ends of a bin by its geometric mean and ratio -/
theorem bin_ends {e e' : ℝ} (he : 0 < e) (hlt : e < e') : (Real.sqrt (e' * e) / e) ^ 2 = e' / e ∧ Real.sqrt (e' * e) * Real.sqrt (e' / e) = e' ∧
    Real.sqrt (e' * e) / Real.sqrt (e' / e) = e := by
  have he' : 0 < e' := he.trans hlt
  have h1 : Real.sqrt (e' * e) = Real.sqrt e' * Real.sqrt e := Real.sqrt_mul he'.le e
  have h2 : Real.sqrt (e' / e) = Real.sqrt e' / Real.sqrt e := Real.sqrt_div he'.le e
  have s1 : 0 < Real.sqrt e' := Real.sqrt_pos.2 he'
  have s2 : 0 < Real.sqrt e := Real.sqrt_pos.2 he
  have q1 := Real.mul_self_sqrt he'.le
  have q2 := Real.mul_self_sqrt he.le
  refine ⟨?_, ?_, ?_⟩
  · rw [div_pow, Real.sq_sqrt (by positivity)]
    field_simp
  · rw [h1, h2, mul_div_assoc', mul_assoc, mul_comm (Real.sqrt e) (Real.sqrt e'), ← mul_assoc, q1, mul_div_assoc, div_self s2.ne', mul_one]
  · rw [h1, h2, div_div_eq_mul_div, mul_assoc, q2, mul_comm, mul_div_assoc, div_self s1.ne', mul_one]

/-- the correction of a bin is that of the specification, for every multiple of the curve -/
theorem bias_chord {κ C0 : ℝ → ℝ} {q : ℝ} (hq : 0 < q) (hC : ∀ d, 0 < d → C0 d = q * κ d) {e e' : ℝ} (he : 0 < e) (hlt : e < e') :
    binBiasCorrection ((Real.sqrt (e' * e) / e) ^ 2) (slopeK (some C0) ((Real.sqrt (e' * e) / e) ^ 2) (Real.sqrt (e' * e))) = chordBias κ e e' ∧ 0 < chordBias κ e e' := by
  have he' : 0 < e' := he.trans hlt
  obtain ⟨h1, h2, h3⟩ := bin_ends he hlt
  have hb : 1 < e' / e := by rw [one_lt_div he]; exact hlt
  have hs : slopeK (some C0) (e' / e) (Real.sqrt (e' * e)) = chordSlope κ e e' := by
    unfold slopeK chordSlope
    dsimp only
    rw [h2, h3, hC _ he, hC _ he', mul_div_mul_left _ _ hq.ne']
    rfl
  rw [h1, hs]
  have hpos := binBias_pos hb (chordSlope κ e e')
  suffices h : binBiasCorrection (e' / e) (chordSlope κ e e') = chordBias κ e e' from ⟨h, h ▸ hpos⟩
  unfold chordBias
  by_cases hk : |chordSlope κ e e'| < 0.00001
  · rw [if_pos hk, binBiasCorrection]
    rw [if_pos hk]
  · rw [if_neg hk, C28_bin_average_partial _ _ (Real.sqrt (e' * e)) hb (Real.sqrt_pos.2 (by positivity)) (not_lt.1 hk), binAverage, h2, h3, mul_comm e' e]

/-- **C157, a list of craters.** A fit to the differential distribution of a list of craters: the density found is the only one for which the craters per diameter and area, corrected for the
width of the bins, deviate least from the differential curve, over the bins with craters in the range; the bounds are those of the number of craters in the first bin, the lower
one if there is one; the ages are those of the chronology; the numbers are those of the craters in the bins. -/
theorem C157_fit (f : PFn) (hf : Constructed f) (c : Chron) (p0 p1 p3 : ℝ) (hc : GoodChron c p0 p1 p3) (cf : CurveFit) (hcf : CurveFitSpec cf) (pfc : PF)
    (κ φ : ℝ → ℝ) (q : ℝ) (hq : 0 < q) (hκ : ∀ d, 0 < d → pfc.C0 d = q * κ d) (hφ : ∀ d, 0 < d → ∀ a : ℝ, f.F d a = .ok (10 ^ a * φ d))
    (k : Reading.Count) (hpre : k.prebinned = false) (harea : 0 < k.area)
    (cs : List Crater) (hperm : k.craters.Perm cs) (hfrac : ∀ c ∈ cs, 0 < c.2) (b : Binning) (hb : b ≠ .none)
    (hfall : ∀ e e', NextEdges (gridOf b 0) e e' → 0 < weightIn cs e e' → 0 < φ (Real.sqrt (e * e')))
    (r : EReal × EReal) (resurf : Bool) (ref : ℝ) (res : FitAge)
    (h : Verif.Age.fitAge f c cf pfc (object (.craters k)) .dFit b r resurf ref = .ok res) :
    ∃ first rest hi thi B, FitBins (gridOf b 0) cs r (first :: rest) ∧
      (∀ α, α ≠ res.a0.best → diffDeviation cs k.area κ φ (first :: rest) res.a0.best < diffDeviation cs k.area κ φ (first :: rest) α) ∧
      B = chordBias κ first.1 first.2 / Real.sqrt (countIn cs first.1 first.2) ∧
      (∀ lo, res.a0.lower = .ok lo ↔ 0.98 * B < 1 ∧ lo = res.a0.best + Real.logb 10 (1 - 0.98 * B)) ∧
      res.a0.upper = .ok hi ∧ hi = res.a0.best + Real.logb 10 (1 + 0.98 * B) ∧
      (∀ tlo, res.tLower = .ok tlo → ∃ lo, res.a0.lower = .ok lo ∧ AgeNear p0 p1 p3 (10 ^ lo) tlo) ∧
      res.tUpper = .ok thi ∧ AgeNear p0 p1 p3 (10 ^ res.a0.best) res.t ∧ AgeNear p0 p1 p3 (10 ^ hi) thi ∧
      res.n = ((first :: rest).map (fun x => weightIn cs x.1 x.2)).sum ∧ res.nEvent = (((first :: rest).map (fun x => countIn cs x.1 x.2)).sum : ℕ) := by
  unfold Verif.Age.fitAge at h
  dsimp only at h
  obtain ⟨pd, p1', h⟩ := except_bind_eq_ok h
  obtain ⟨a0, q1, h⟩ := except_bind_eq_ok h
  obtain ⟨t0, q2, h⟩ := except_bind_eq_ok h
  obtain ⟨nd, _, h⟩ := except_bind_eq_ok h
  injection h with h
  obtain ⟨t, ht, hpd⟩ : ∃ t, applyBinning b 0 k.craters = .ok t ∧ plotData .differential b t k.area 0 (some pfc.C0) (some r) false false = .ok pd := by
    unfold Obj.getplotdata at p1'
    have hens : (object (.craters k)).ensure b = (applyBinning b 0 k.craters >>= fun t => .ok ⟨k.craters, k.area, false, some b, t⟩) := by
      simp [Obj.ensure, object, hpre]
    rw [show (FitType.dFit.args b r resurf pfc).binning = b from rfl, hens] at p1'
    cases hab : applyBinning b 0 k.craters with
    | error e => rw [hab] at p1'; cases p1'
    | ok t =>
      rw [hab] at p1'
      refine ⟨t, rfl, ?_⟩
      exact p1'
  rw [C04_order_irrelevant b 0 _ _ hperm] at ht
  obtain ⟨g1, g2, g3, _⟩ := plotData_ok hpd
  have hcont := fun x hx => C03_bin_contents b hb 0 cs t ht x hx
  have hbins := selected_bins hb hfrac ht r
  set S := Verif.Spec.selected t (some r) false with hS
  have hsel : ∀ x ∈ S, x ∈ t ∧ 0 < x.n := by
    intro x hx
    simp only [hS, Verif.Spec.selected, List.mem_filter, decide_eq_true_eq] at hx
    exact ⟨hx.1, hx.2.1⟩
  obtain ⟨y, hy⟩ : ∃ y : ℝ → ℝ → ℝ, ∀ e e', y e e' = weightIn cs e e' / (e' - e) / k.area := ⟨_, fun _ _ => rfl⟩
  have hpts : pd.points = S.map (fun x => (⟨Real.sqrt (x.dMin * x.dMax), y x.dMin x.dMax / chordBias κ x.dMin x.dMax,
      y x.dMin x.dMax / Real.sqrt (countIn cs x.dMin x.dMax)⟩ : Point)) := by
    refine forall₂_mapped g1 _ ?_
    rintro x hx ⟨pd, py, pe⟩ ⟨_, _, _, _, e1, _, e2, e3⟩
    obtain ⟨_, _, d3, d4, _, d6, d7, d8, d9, _⟩ := hcont x (hsel x hx).1
    dsimp only at e1 e2 e3
    rw [d6, d8, ← hy, d7, (bias_chord hq hκ d4 d3).1] at e2
    rw [d6, d8, ← hy, d9] at e3
    rw [d7, mul_comm] at e1
    rw [e1, e2, e3]
  have hwpos : ∀ x ∈ S, 0 < weightIn cs x.dMin x.dMax := fun x hx => by
    rw [← (hcont x (hsel x hx).1).2.2.2.2.2.2.2.1]
    exact (hsel x hx).2
  have hypos : ∀ x ∈ S, 0 < y x.dMin x.dMax := fun x hx => by
    rw [hy]
    exact div_pos (div_pos (hwpos x hx) (by linarith [(hcont x (hsel x hx).1).2.2.1])) harea
  have hdpos : ∀ x ∈ S, 0 < x.dMin := fun x hx => (hcont x (hsel x hx).1).2.2.2.1
  have hmpos : ∀ x ∈ S, 0 < Real.sqrt (x.dMin * x.dMax) := fun x hx =>
    Real.sqrt_pos.2 (mul_pos (hdpos x hx) ((hdpos x hx).trans (hcont x (hsel x hx).1).2.2.1))
  have hBpos : ∀ x ∈ S, 0 < chordBias κ x.dMin x.dMax := fun x hx => (bias_chord hq hκ (hdpos x hx) (hcont x (hsel x hx).1).2.2.1).2
  have hφpos : ∀ x ∈ S, 0 < φ (Real.sqrt (x.dMin * x.dMax)) := fun x hx => by
    obtain ⟨d1, d2, d3, _, d5, _⟩ := hcont x (hsel x hx).1
    exact hfall _ _ ⟨d1, d2, d3, d5⟩ (hwpos x hx)
  have hMpos : ∀ x ∈ S, (1 : ℝ) ≤ countIn cs x.dMin x.dMax := by
    intro x hx
    have : 0 < countIn cs x.dMin x.dMax := by
      rw [countIn, List.length_pos_iff]
      intro hnil
      have := hwpos x hx
      rw [weightIn, hnil] at this
      simp at this
    exact_mod_cast this
  have hspos : ∀ x ∈ S, 0 < Real.sqrt (countIn cs x.dMin x.dMax) := fun x hx => Real.sqrt_pos.2 (by linarith [hMpos x hx])
  cases hSe : S with
  | nil =>
    rw [hpts, hSe] at q1
    cases q1
  | cons x0 S' =>
    have hx0 : x0 ∈ S := by rw [hSe]; exact List.mem_cons_self
    have hhead : pd.points.head? = some (⟨Real.sqrt (x0.dMin * x0.dMax), y x0.dMin x0.dMax / chordBias κ x0.dMin x0.dMax,
      y x0.dMin x0.dMax / Real.sqrt (countIn cs x0.dMin x0.dMax)⟩ : Point) := by rw [hpts, hSe]; rfl
    have hmemp : ∀ p ∈ pd.points, ∃ x ∈ S, p = ⟨Real.sqrt (x.dMin * x.dMax), y x.dMin x.dMax / chordBias κ x.dMin x.dMax,
        y x.dMin x.dMax / Real.sqrt (countIn cs x.dMin x.dMax)⟩ := by
      intro p hp
      rw [hpts, List.mem_map] at hp
      obtain ⟨x, hx, rfl⟩ := hp
      exact ⟨x, hx, rfl⟩
    obtain ⟨K, hKdef⟩ : ∃ K : ℝ → ℝ → ℝ, ∀ d a, K d a = 10 ^ a * φ d := ⟨fun d a => 10 ^ a * φ d, fun _ _ => rfl⟩
    have hK : ∀ p ∈ pd.points, ∀ a, FitKind.differential.curve f p.d a = .ok (K p.d a) ∧ 0 < K p.d a := by
      intro p hp a
      obtain ⟨x, hx, rfl⟩ := hmemp p hp
      rw [hKdef]
      exact ⟨hφ _ (hmpos x hx) a, mul_pos (pow10_pos a) (hφpos x hx)⟩
    have hyp : ∀ p ∈ pd.points, 0 < p.y := by
      intro p hp
      obtain ⟨x, hx, rfl⟩ := hmemp p hp
      exact div_pos (hypos x hx) (hBpos x hx)
    have hwp : ∀ p ∈ pd.points, 0 < FitKind.differential.weight p := by
      intro p hp
      obtain ⟨x, hx, rfl⟩ := hmemp p hp
      exact div_pos (hypos x hx) (hspos x hx)
    obtain ⟨a0', w1, w2, w3, w4, _⟩ := fit_eq f hf cf hcf .differential K pd.points _ hhead hK hyp hwp
    obtain ⟨a0'', v1, v2⟩ := C20_fit_minimises f hf cf hcf .differential K pd.points (by rw [hpts, hSe]; simp) hK hyp hwp
    have hw : f.fit cf FitKind.differential.pr pd.points = .ok a0 := q1
    rw [hw] at w1 v1
    injection w1 with w1
    injection v1 with v1
    subst w1
    subst v1
    set M : ℝ := (countIn cs x0.dMin x0.dMax : ℝ) with hMdef
    have hsM := hspos x0 hx0
    rw [← hMdef] at hsM
    have hy0 := hypos x0 hx0
    have hB0 := hBpos x0 hx0
    obtain ⟨B, hB⟩ : ∃ B, B = chordBias κ x0.dMin x0.dMax / Real.sqrt M := ⟨_, rfl⟩
    have hBp : 0 < B := by rw [hB]; exact div_pos hB0 hsM
    obtain ⟨Y, hY⟩ : ∃ Y, Y = y x0.dMin x0.dMax / chordBias κ x0.dMin x0.dMax := ⟨_, rfl⟩
    have hYp : 0 < Y := by rw [hY]; exact div_pos hy0 hB0
    have herr : y x0.dMin x0.dMax / Real.sqrt M = Y * B := by
      rw [hY, hB]
      field_simp
    dsimp only at w3 w4
    rw [← hY, herr] at w3 w4
    have elo : ∀ lo, a0.lower = .ok lo ↔ 0.98 * B < 1 ∧ lo = a0.best + Real.logb 10 (1 - 0.98 * B) := by
      intro lo
      rw [w3, show Y - 0.98 * (Y * B) = Y * (1 - 0.98 * B) by ring]
      constructor
      · intro hl
        obtain ⟨l, l1, l2⟩ := except_bind_eq_ok hl
        obtain ⟨l3, l4⟩ := log10E_ok.1 l1
        have h1 : 0 < 1 - 0.98 * B := (mul_pos_iff_of_pos_left hYp).1 l3
        injection l2 with l2
        refine ⟨by linarith, ?_⟩
        rw [← l2, l4, log10_mul hYp h1]
        unfold log10
        ring
      · rintro ⟨h1, rfl⟩
        have h1' : 0 < 1 - 0.98 * B := by linarith
        rw [log10E_pos (mul_pos hYp h1'), except_ok_bind, log10_mul hYp h1']
        congr 1
        unfold log10
        ring
    have ehi : a0.upper = .ok (a0.best + Real.logb 10 (1 + 0.98 * B)) := by
      have h1' : 0 < 1 + 0.98 * B := by positivity
      rw [w4, show Y + 0.98 * (Y * B) = Y * (1 + 0.98 * B) by ring, log10E_pos (mul_pos hYp h1'), except_ok_bind, log10_mul hYp h1']
      congr 1
      unfold log10
      ring
    obtain ⟨p, c0, c1, c2, c3, c4, c5, c6⟩ := hc
    obtain ⟨age, _, b2, b3, _, _, b6, _, b8⟩ := C15_age_inversion p c c0 p0 p1 p3 c1 c2 c3 c4 c5 c6
    have hN : ∀ τ, c.N1 τ = .ok (p0 * (Real.exp (p1 * τ) - 1) + p3 * τ) := by
      intro τ
      obtain ⟨hp, _, _⟩ := init_tables c0 c1 c2 c3
      simp only [Chron.N1, hp, coeffs_ok c1 c2 c3, except_ok_bind, n1Coeff]
    have hage : ∀ n, AgeNear p0 p1 p3 n (age n) := by
      intro n
      refine ⟨(b3 n).1, (b3 n).2, ?_⟩
      rintro τ hτ rfl
      exact ⟨fun h5 => b6 τ hτ h5 _ (hN τ), fun h5 => b8 τ h5 _ (hN τ)⟩
    have et : t0 = age (10 ^ a0.best) := by
      rw [b2] at q2
      injection q2 with q2
      exact q2.symm
    have hl : S.map (fun x : Bin => (x.dMin, x.dMax)) = (x0.dMin, x0.dMax) :: S'.map (fun x : Bin => (x.dMin, x.dMax)) := by rw [hSe]; rfl
    rw [hl] at hbins
    rw [← h]
    dsimp only
    refine ⟨(x0.dMin, x0.dMax), S'.map (fun x : Bin => (x.dMin, x.dMax)), _, age _, B, hbins, ?_, hB, elo, ehi, rfl, ?_,
      by rw [ehi]; exact b2 _ none, by rw [et]; exact hage _, hage _, ?_, ?_⟩
    · intro α hα
      have hdev : ∀ α, objective .differential K pd.points α = diffDeviation cs k.area κ φ ((x0.dMin, x0.dMax) :: S'.map (fun x => (x.dMin, x.dMax))) α := by
        intro α
        rw [← hl, objective, diffDeviation, hpts, List.map_map, List.map_map]
        congr 1
        refine List.map_congr_left ?_
        intro x hx
        simp only [Function.comp, FitKind.weight]
        rw [hKdef, log10_mul (pow10_pos α) (hφpos x hx), log10_pow10, hy]
        rfl
      rw [← hdev, ← hdev]
      exact v2 α hα
    · intro tlo htlo
      cases hlo : a0.lower with
      | error e => rw [hlo] at htlo; cases htlo
      | ok lo =>
        rw [hlo] at htlo
        have h' : c.t (some lo) none = .ok tlo := htlo
        rw [b2] at h'
        injection h' with h'
        exact ⟨lo, rfl, by rw [← h']; exact hage _⟩
    · rw [← hl, g2, List.map_map]
      congr 1
      refine List.map_congr_left ?_
      intro x hx
      exact (hcont x (hsel x hx).1).2.2.2.2.2.2.2.1
    · rw [← hl, g3, List.map_map, Nat.cast_list_sum, List.map_map]
      congr 1
      refine List.map_congr_left ?_
      intro x hx
      exact (hcont x (hsel x hx).1).2.2.2.2.2.2.2.2.1

/-- **C157, existence.** Every list of craters with an area can be fitted over its whole range of diameters, with a production function which has a value at 1 km and whose
differential curve is positive in the bins. -/
theorem C157_exists (f : PFn) (hf : Constructed f) (hev1 : ∃ n, f.evaluate .cumulative 1 none = .ok n) (c : Chron) (cf : CurveFit) (hcf : CurveFitSpec cf) (pfc : PF)
    (κ φ : ℝ → ℝ) (q : ℝ) (hq : 0 < q) (hκ : ∀ d, 0 < d → pfc.C0 d = q * κ d) (hφ : ∀ d, 0 < d → ∀ a : ℝ, f.F d a = .ok (10 ^ a * φ d))
    (k : Reading.Count) (hpre : k.prebinned = false) (harea : 0 < k.area) (hne : k.craters ≠ []) (hpos : ∀ c ∈ k.craters, 0 < c.1) (hfrac : ∀ c ∈ k.craters, 0 < c.2)
    (b : Binning) (hb : b ≠ .none) (hfall : ∀ e e', NextEdges (gridOf b 0) e e' → 0 < weightIn k.craters e e' → 0 < φ (Real.sqrt (e * e'))) (resurf : Bool) :
    ∃ res lo hi, Verif.Age.fitAge f c cf pfc (object (.craters k)) .dFit b (0, ⊤) resurf 1 = .ok res ∧ res.binRange = (((lo : ℝ) : EReal), ((hi : ℝ) : EReal)) := by
  obtain ⟨t, ht, htne⟩ := C01_binning_succeeds b k.craters hne hpos 0
  have hl : 0 < t.length := List.length_pos_iff.2 htne
  have hcont := fun x hx => C03_bin_contents b hb 0 k.craters t ht x hx
  have hcount : ∀ x ∈ t, 0 < x.n → (0 : ℝ) < x.nEvent := by
    intro x hx hn
    obtain ⟨_, _, _, _, _, _, _, d8, d9, _⟩ := hcont x hx
    have : 0 < countIn k.craters x.dMin x.dMax := by
      rw [countIn, List.length_pos_iff]
      intro hnil
      rw [d8, weightIn, hnil] at hn
      simp at hn
    rw [d9]
    exact_mod_cast this
  obtain ⟨pts, hpts⟩ := mapM_succeeds (point .differential k.area 0 (some pfc.C0))
    ((nonEmpty t).filter (inRange (0, ⊤) false)) (by
      intro x hx
      have h1 := (List.mem_filter.1 hx).1
      unfold nonEmpty at h1
      rw [List.mem_filter] at h1
      obtain ⟨_, _, d3, d4, _, d6, d7, d8, d9, _⟩ := hcont x h1.1
      refine ⟨⟨x.dMean, _, _⟩, (point_iff _ _ _ _ _ _).2 ⟨harea.ne', by rw [d6]; linarith, hcount x h1.1 (by simpa using h1.2), d4.ne', rfl, ?_, rfl, rfl⟩⟩
      rw [d7, (bias_chord hq hκ d4 d3).1]
      exact (bias_chord hq hκ d4 d3).2.ne')
  have h1 := binRangeOf_open b hb _ t ht 0 (t.length - 1) (by omega) (by omega) 0 ⊤ false (by simp) (by simp)
  obtain ⟨pd, hpd⟩ : ∃ pd, plotData .differential b t k.area 0 (some pfc.C0) (some (0, ⊤)) false false = .ok pd := by
    simp only [plotData, hpts, h1, except_ok_bind]
    exact ⟨_, rfl⟩
  have hbr : pd.binRange = ((t[0].dMin : EReal), (t[t.length - 1].dMax : EReal)) :=
    C68_open_ends b hb _ t ht 0 (t.length - 1) (by omega) (by omega) 0 ⊤ false (by simp) (by simp) _ _ _ _ _ pd hpd
  have hget : ((object (.craters k)).getplotdata (FitType.dFit.args b (0, ⊤) resurf pfc)).2 = .ok pd := by
    unfold Obj.getplotdata
    have hens : (object (.craters k)).ensure b = .ok ⟨k.craters, k.area, false, some b, t⟩ := by
      simp [Obj.ensure, object, hpre, ht]
    rw [show (FitType.dFit.args b (0, ⊤) resurf pfc).binning = b from rfl, hens]
    exact hpd
  obtain ⟨g1, _⟩ := plotData_ok hpd
  have hpne : pd.points ≠ [] := by
    obtain ⟨cr, hcr⟩ := List.exists_mem_of_ne_nil _ hne
    obtain ⟨A, m, hm, hlen, _, hcr', hcol⟩ := table_cols hb ht
    have hmono := gridFn_strictMono hb (0 : ℝ)
    obtain ⟨x, hx, x1, x2⟩ : ∃ x ∈ t, x.dMin ≤ cr.1 ∧ cr.1 < x.dMax := by
      by_contra hno
      push Not at hno
      have key : ∀ j : ℕ, j ≤ m - 1 → gridFn b 0 (A + j) ≤ cr.1 := by
        intro j
        induction j with
        | zero => intro _; simpa using (hcr' cr hcr).2.1
        | succ j ih =>
          intro hj
          have hjt : j < t.length := by omega
          obtain ⟨e1, e2, _⟩ := hcol j hjt
          have := hno t[j] (List.getElem_mem hjt) (by rw [e1]; exact ih (by omega))
          rw [e2] at this
          rw [show A + ((j + 1 : ℕ) : ℤ) = A + j + 1 by push_cast; ring]
          exact this
      exact absurd (hcr' cr hcr).2.2 (not_lt.2 (key (m - 1) le_rfl))
    obtain ⟨d1, d2, d3, d4, _, _, d7, d8, _⟩ := hcont x hx
    have hw : 0 < x.n := by
      rw [d8, weightIn]
      have hmem : cr ∈ k.craters.filter (fun c => decide (x.dMin ≤ c.1 ∧ c.1 < x.dMax)) := List.mem_filter.2 ⟨hcr, by simp [x1, x2]⟩
      have hle := List.single_le_sum (l := (k.craters.filter (fun c => decide (x.dMin ≤ c.1 ∧ c.1 < x.dMax))).map Prod.snd) (by
        intro y hy
        obtain ⟨c', hc', rfl⟩ := List.mem_map.1 hy
        exact (hfrac c' (List.mem_filter.1 hc').1).le) cr.2 (List.mem_map_of_mem hmem)
      exact lt_of_lt_of_le (hfrac cr hcr) hle
    have hsel : x ∈ Verif.Spec.selected t (some (0, ⊤)) false := by
      have hmean : 0 < x.dMean := by rw [d7]; exact Real.sqrt_pos.2 (mul_pos (by linarith) d4)
      simp only [Verif.Spec.selected, List.mem_filter, decide_eq_true_eq, Bool.false_eq_true, if_false]
      exact ⟨hx, hw, by exact_mod_cast hmean, EReal.coe_lt_top _⟩
    intro e
    rw [e] at g1
    have := g1.length_eq
    have hp := List.length_pos_of_mem hsel
    simp at this
    rw [this] at hp
    simp at hp
  have hall : ∀ p ∈ pd.points, 0 < φ p.d ∧ 0 < p.d ∧ 0 < p.y ∧ 0 < p.err := by
    intro p hp
    obtain ⟨x, hx, _, _, h3, _, e1, _, e2, e3⟩ := forall₂_right g1 hp
    have hxt : x ∈ t ∧ 0 < x.n := by
      simp only [Verif.Spec.selected, List.mem_filter, decide_eq_true_eq] at hx
      exact ⟨hx.1, hx.2.1⟩
    obtain ⟨d1, d2, d3, d4, d5, d6, d7, d8, d9, _⟩ := hcont x hxt.1
    have hn := hxt.2
    have hwd : 0 < x.width := by rw [d6]; linarith
    have hB := bias_chord hq hκ d4 d3
    rw [e1, e2, e3, d7, hB.1]
    rw [d8] at hn
    refine ⟨?_, Real.sqrt_pos.2 (mul_pos (by linarith) d4), div_pos (div_pos (div_pos hxt.2 hwd) harea) hB.2, div_pos (div_pos (div_pos hxt.2 hwd) harea) (Real.sqrt_pos.2 h3)⟩
    rw [mul_comm]
    exact hfall _ _ ⟨d1, d2, d3, d5⟩ hn
  obtain ⟨a0, hfit, _⟩ := C20_fit_minimises f hf cf hcf .differential (fun d a => 10 ^ a * φ d) pd.points hpne
    (fun p hp a => ⟨hφ _ (hall p hp).2.1 a, mul_pos (pow10_pos a) (hall p hp).1⟩) (fun p hp => (hall p hp).2.2.1) (fun p hp => (hall p hp).2.2.2)
  obtain ⟨nd, hev⟩ : ∃ nd, densityAt f 1 [a0.best] = .ok nd := by
    obtain ⟨K, hK⟩ := C20_cumulative_applies f
    simp only [densityAt]
    by_cases h0 : a0.best = 0
    · obtain ⟨n, hn⟩ := hev1
      refine ⟨n, ?_⟩
      rw [← hn, h0]
      simp only [PFn.evaluate, if_true]
    · rw [(C18_evaluate_partial f .cumulative 1).1 a0.best _ h0 rfl]
      exact ⟨_, (hK 1 a0.best one_pos).1⟩
  obtain ⟨res, hr, ha⟩ := fitAge_ok (c := c) (k := .dFit) (b := b) (range := (0, ⊤)) (resurf := resurf) (pfc := pfc) (o := object (.craters k)) hget hfit hev
  refine ⟨res, t[0].dMin, t[t.length - 1].dMax, hr, ?_⟩
  unfold Verif.Age.fitAge at hr
  dsimp only at hr
  rw [hget, except_ok_bind] at hr
  obtain ⟨_, _, hr⟩ := except_bind_eq_ok hr
  obtain ⟨_, _, hr⟩ := except_bind_eq_ok hr
  obtain ⟨_, _, hr⟩ := except_bind_eq_ok hr
  injection hr with hr
  rw [← hr]
  exact hbr

/-- the production function of a polynomial of the list -/
theorem polynomial_made {C : Classes} {v : TVal} {ds : List (List Char × TVal)} (hv : SourceOf C (.dict v) ds) (hpn : 2 ≤ (occurrences ds "production".toList).length)
    {s : System} {p : List ℚ} {q : ℚ} {qs : List ℚ} {r : ℝ × ℝ} (hdef : FunctionsDefined ds s p (q :: qs) r) {f : PFn}
    (hf : makeProduction C (.dict v) s.pf false = .ok (some f)) : f = .poly ((q :: qs).map (fun q : ℚ => (q : ℝ))) r := by
  obtain ⟨_, ids, i1, ht, hp, hr, hy⟩ := hdef
  have hty : typeField (.dict (dictOf ids)) = .ok (.str "polynomial".toList) := by
    rw [typeField]
    rcases ht with ht | ht
    · rw [if_neg (by rw [has_noEntry ht]; simp)]
    · rw [if_pos (by rw [has_dictOf, ht]; rfl), tget_dictOf ht]
  obtain ⟨r', hr1, hr2⟩ : ∃ r', pairField (.dict (dictOf ids)) "range".toList = .ok r' ∧ r'.getD (0.0001, 2000) = r := by
    rcases hr with ⟨h1, rfl⟩ | ⟨a, b, h1, rfl⟩
    · refine ⟨none, pairField_none h1, ?_⟩
      rw [Option.getD_none]
      norm_num
    · exact ⟨some (a, b), pairField_some h1, rfl⟩
  obtain ⟨y', hy1⟩ : ∃ y', pairField (.dict (dictOf ids)) "yrange".toList = .ok y' := by
    rcases hy with h1 | ⟨a, b, h1⟩
    · exact ⟨_, pairField_none h1⟩
    · exact ⟨_, pairField_some h1⟩
  rw [makeProduction, definition_found (kind := productionKind false) hv (production_word false) hpn i1, ok_bind, hty, ok_bind, hr1, ok_bind, hy1, ok_bind, makeByType,
    if_pos rfl, floats_entry hp, ok_bind, initPoly, hr2] at hf
  injection hf with hf
  injection hf with hf
  exact hf.symm

/-- its curves -/
theorem polynomial_curves (q : ℚ) (qs : List ℚ) (r : ℝ × ℝ) :
    (∀ d : ℝ, 0 < d → ∀ n, (PFn.poly ((q :: qs).map (fun q : ℚ => (q : ℝ))) r).evaluate .cumulative d none = .ok n → n = 10 ^ (q : ℝ) * curveAt 0 qs d) ∧
    (∀ d : ℝ, 0 < d → ∃ n, (PFn.poly ((q :: qs).map (fun q : ℚ => (q : ℝ))) r).evaluate .cumulative d none = .ok n) ∧
    ∀ φ : ℝ → ℝ, (∀ d : ℝ, 0 < d → HasDerivAt (curveAt 0 qs) (-φ d) d) →
      ∀ d : ℝ, 0 < d → ∀ a : ℝ, (PFn.poly ((q :: qs).map (fun q : ℚ => (q : ℝ))) r).F d a = .ok (10 ^ a * φ d) := by
  have hC : ∀ d a0 : ℝ, 0 < d → (PFn.poly ((q :: qs).map (fun q : ℚ => (q : ℝ))) r).C d a0 = .ok (curveAt a0 qs d) := by
    intro d a0 hd
    unfold curveAt
    rw [poly_sum, pow_zero, one_mul]
    exact polyC_eq hd
  refine ⟨fun d hd n hn => ?_, fun d hd => ⟨_, hC d _ hd⟩, fun φ hφ d hd a => ?_⟩
  · have := (hC d (q : ℝ) hd).symm.trans hn
    injection this with this
    rw [← this, curveAt_zero]
  · obtain ⟨K, G, h⟩ := C17_derivative ((q :: qs).map (fun q : ℚ => (q : ℝ))) (some r) 0
    have heq : ∀ x : ℝ, 0 < x → K x = curveAt 0 qs x := by
      intro x hx
      have := (h x hx).1.symm.trans (hC x 0 hx)
      injection this with this
    obtain ⟨_, h2, h3, _⟩ := h d hd
    have h4 : HasDerivAt (curveAt 0 qs) (-G d) d := by
      refine h3.congr_of_eventuallyEq ?_
      filter_upwards [lt_mem_nhds hd] with x hx
      exact (heq x hx).symm
    have h5 : G d = φ d := by
      have := h4.unique (hφ d hd)
      linarith
    have := (C16_scaling (initPoly ((q :: qs).map (fun q : ℚ => (q : ℝ))) (some r)) (.inl ⟨_, _, rfl⟩) d 0 a (G d)).2.1 h2
    rw [zero_add, h5] at this
    exact this

/-- Specification: the fields of the row of a fit to the differential distribution, as those of a fit to the cumulative distribution, with the limits of the density for the relative error `B` of the first bin -/
structure DiffRow (T : TableRow.Env) (p0 p1 p3 : ℝ) (cs : List (ℝ × ℝ)) (l : List (ℝ × ℝ)) (B α : ℝ) (f : List (List Char)) : Prop where
  fractions : f[7]? = some (T.floatStr (l.map (fun x => weightIn cs x.1 x.2)).sum)
  craters : Field f 8 (fun s => decVal s = some (((l.map (fun x => countIn cs x.1 x.2)).sum : ℕ) : ℚ))
  limits : ∃ t lo hi : ℝ, ∃ αlo αhi, 0.98 * B < 1 ∧ αlo = α + Real.logb 10 (1 - 0.98 * B) ∧ αhi = α + Real.logb 10 (1 + 0.98 * B) ∧
    AgeNear p0 p1 p3 (10 ^ α) t ∧ AgeNear p0 p1 p3 (10 ^ αlo) lo ∧ AgeNear p0 p1 p3 (10 ^ αhi) hi ∧
    Field f 10 (Denotes 3 (T.ρ t)) ∧ Field f 11 (Denotes 3 (T.ρ lo)) ∧ Field f 12 (Denotes 3 (T.ρ hi)) ∧
    Field f 13 (Denotes 4 (T.ρ α)) ∧ Field f 14 (Denotes 4 (T.ρ αlo)) ∧ Field f 15 (Denotes 4 (T.ρ αhi)) ∧
    Field f 16 (Denotes 3 (T.ρ ((10 : ℝ) ^ α))) ∧ Field f 17 (Denotes 3 (T.ρ ((10 : ℝ) ^ αlo))) ∧ Field f 18 (Denotes 3 (T.ρ ((10 : ℝ) ^ αhi)))

/-- **C157, a command.** If the file given for a differential fit lists craters with their area, its row in the table of ages shows the density for which the craters per diameter and area, corrected for
the width of the bins, deviate least from the derivative of the polynomial of the chronology system asked for, according to the list of functions, over the bins of the binning asked for with craters in the
range asked for, with its bounds and the ages of the chronology. -/
theorem C157_command_partial (C : Classes) (isNeg : List Char → Bool) (F : FileSys) (cwd : List Char) (words : List (List Char))
    (l flat : List Given) (cwd' : List Char) (n : ℕ) (hw : CommandOf isNeg words l) (h : Expands C isNeg F cwd l flat cwd' n)
    (depth : ℕ) (hd : n ≤ depth) (E : List Char → RunEnv Opened (EReal × EReal)) (hE : ∀ d, (E d).set.classes = C)
    (hdec : (E cwd').decode = decodeOf) (hload : ∀ c, (E cwd').load [] ≠ .ok c)
    (v : TVal) (ds : List (List Char × TVal)) (hv : SourceOf C (.dict v) ds) (systems : List System)
    (hsys : List.Forall₂ SystemEntry (occurrences ds "chronology_system".toList) systems) (h2 : 2 ≤ systems.length)
    (hcn : 2 ≤ (occurrences ds "chronology".toList).length) (hpn : 2 ≤ (occurrences ds "production".toList).length)
    (hset : (E cwd').set.systems = systems) (hnl : ∀ s ∈ systems, '\n' ∉ s.name)
    (T : TableRow.Env) (hT : ∀ x, OneField (T.floatStr x)) (hcf : CurveFitSpec T.curveFit) (plotPF : PFn → PF)
    (hplot : ∀ f d n, 0 < d → f.evaluate .cumulative d none = .ok n → (plotPF f).C0 d = n) :
    ∃ st, runCommand C isNeg F depth cwd words = .ok st ∧ ∀ P out, prepareRun E st = .ok P → runTable C v T plotPF P = .ok out →
      ∃ i s, systems[i]? = some s ∧ (∀ (j : ℕ) s', j < i → systems[j]? = some s' → s'.name ≠ s.name) ∧
        SystemAsked (E cwd').set.lower (systems.map System.name) flat s.name ∧
        ∀ (p0 p1 p2 p3 : ℚ) more, 0 ≤ p0 → 0 ≤ p1 → 0 < p3 → ∀ q0 qs rg, FunctionsDefined ds s (p0 :: p1 :: p2 :: p3 :: more) (q0 :: qs) rg →
        ∀ φ : ℝ → ℝ, (∀ d : ℝ, 0 < d → HasDerivAt (curveAt 0 qs) (-φ d) d) →
        ∃ p input items, PresentedAs (E cwd').set.lower flat p ∧ InputOf flat input ∧
        List.Forall₂ (ItemsOf C) ((flat.filter (fun g => g.dest = "plot".toList)).map (fun g => g.values)) items ∧
        ∀ env : PlotEnv Opened, env = ⟨C, (E cwd').set.lower, (E cwd').path, (E cwd').isabs, input, p == "sequence".toList, (E cwd').load⟩ →
          PlainInput env → ∀ asks, AskedPlots env items asks → (∀ y ∈ agesAsked asks, FitsTable y.2) →
          ∀ (j : ℕ) q shp file diam frac a b, (agesAsked asks)[j]? = some (.differential, q) → String.ofList q.binning = Binning.name b → b ≠ .none →
            ListsCraters C file diam frac a → 0 < a → (∀ x ∈ frac, 0 < x) → (E cwd').load q.source = openCount C shp ".diam".toList file →
            (∀ e e', NextEdges (gridOf b 0) e e' → 0 < weightIn (craterPairs diam frac) e e' → 0 < φ (Real.sqrt (e * e'))) →
            ∃ t row c r first rest α, out = some t ∧ (split '\n' t)[3 + j]? = some row ∧ openCount C shp ".diam".toList file = .ok c ∧ RangeAsked c q r ∧
              FitBins (gridOf b 0) (craterPairs diam frac) r (first :: rest) ∧
              (∀ α', α' ≠ α → diffDeviation (craterPairs diam frac) a (curveAt 0 qs) φ (first :: rest) α < diffDeviation (craterPairs diam frac) a (curveAt 0 qs) φ (first :: rest) α') ∧
              (split ',' row)[0]? = some q.name ∧ Field (split ',' row) 1 (Denotes 5 (T.ρ (a : ℝ))) ∧ (split ',' row)[2]? = some q.binning ∧ (split ',' row)[5]? = some "d-fit".toList ∧
              DiffRow T p0 p1 p3 (craterPairs diam frac) (first :: rest)
                (chordBias (curveAt 0 qs) first.1 first.2 / Real.sqrt (countIn (craterPairs diam frac) first.1 first.2)) α (split ',' row) := by
  have hlist := C153_list C v ds hv systems hsys h2
  obtain ⟨st, h1, hchoice⟩ := C153_system C isNeg F cwd words l flat cwd' n hw h depth hd E hE v systems hlist hset hnl T plotPF
  refine ⟨st, h1, fun P out hP hout => ?_⟩
  obtain ⟨i, s, c, f, ref, mu, q2, q4, hask, _, _, hc, hf, htab⟩ := hchoice P out hP hout
  refine ⟨i, s, q2, q4, hask, ?_⟩
  intro p0 p1 p2 p3 more h0 h1' h3 q0 qs rg hdef φ hφ
  obtain ⟨cids, hci, hcp⟩ : ChronologyDefined ds s (p0 :: p1 :: p2 :: p3 :: more) := hdef.1
  have hgood := made_chron hv hcn hci hcp h0 h1' h3 hc
  have hfc := made_constructed hf
  have hfp := polynomial_made hv hpn hdef hf
  obtain ⟨z1, z2, z3⟩ := polynomial_curves q0 qs rg
  rw [← hfp] at z1 z2 z3
  set T' : TableRow.Env := { T with classes := C, chron := c, pf := f, plotPF := plotPF f, ref := ref, mu := mu } with hT'
  obtain ⟨st', h1'', htable⟩ := C152_table_partial C isNeg F cwd words l flat cwd' n hw h depth hd E hE hdec hload T' hT
  rw [h1] at h1''
  injection h1'' with h1''
  subst h1''
  obtain ⟨p, input, items, a1, a2, a3, hrows⟩ := htable P out hP htab
  refine ⟨p, input, items, a1, a2, a3, ?_⟩
  intro env henv hplain asks hasks hfits j q shp file diam frac a b hj hbin hb hlists ha hfr hopen hfall
  have hne : agesAsked asks ≠ [] := by
    intro e
    rw [e] at hj
    simp at hj
  obtain ⟨t, fs, t1, _, _, hrow⟩ := (hrows env henv hplain asks hasks hfits).2 _ (List.getLast?_eq_some_getLast hne)
  obtain ⟨o, row, c0, r, range, r1, r2, r3, r4, r5, _, _, r8⟩ := hrow j _ q hj
  obtain ⟨k, k1, k2, k3, _, k5, k6, _⟩ := open_lists shp hlists
  rw [hopen, k1] at r3
  injection r3 with r3
  subst r3
  obtain ⟨b', res, b1, b2, b3, b4, b5, b6, b7, b8, b9, b10, _⟩ := r5
  have hbb : b' = b := binning_name (b1.trans hbin)
  subst hbb
  have hfr' : ∀ x ∈ craterPairs diam frac, 0 < x.2 := by
    intro x hx
    rw [craterPairs, List.mem_map] at hx
    obtain ⟨y, hy, rfl⟩ := hx
    have := hfr y.2 (List.of_mem_zip hy).2
    show (0 : ℝ) < (y.2 : ℝ)
    exact_mod_cast this
  obtain ⟨first, rest, hi, thi, B, f1, f2, f3, f4, f5, f6, f7, f8, f9, f10, f11, f12⟩ :=
    C157_fit f hfc c p0 p1 p3 hgood T.curveFit hcf (plotPF f) (curveAt 0 qs) φ (10 ^ (q0 : ℝ)) (pow10_pos _)
      (fun d hd => by obtain ⟨n, hn⟩ := z2 d hd; rw [hplot f d n hd hn]; exact z1 d hd n hn) (z3 φ hφ) k k5
      (by rw [k3]; exact_mod_cast ha) (craterPairs diam frac) k2 hfr' b' hb hfall r _ ref res b2
  rw [k3] at f2
  subst f3
  obtain ⟨lo, g1, g2⟩ := f7 _ b4
  obtain ⟨g3, g4⟩ := (f4 lo).1 g1
  rw [f8] at b5
  rw [g1] at b7
  rw [f5] at b8
  injection b5 with b5
  injection b7 with b7
  injection b8 with b8
  obtain ⟨_, w0, w1, w2, w3, w4, w5, w6, w7, w9, w10, w11, w12, w13, w14, w15, w16, w17, w18, _⟩ := r8
  refine ⟨t, row, _, r, first, rest, res.a0.best, t1, r2, k1, r4, f1, f2, w0, ?_, w2, w5, ?_⟩
  · rw [← k3]
    exact w1
  · obtain ⟨s7, u1, s8, u2, u3, u4⟩ := w7
    refine ⟨?_, ⟨s8, u2, ?_⟩, ?_⟩
    · rcases u3 with ⟨_, e⟩ | ⟨e, _⟩
      · rw [u1, e, b9, f11]
      · exact absurd e (by decide)
    · rcases u4 with ⟨⟨_, _, e⟩, _⟩ | ⟨_, e⟩
      · cases e
      · rw [e, b10, f12, Nat.floor_natCast]
    · rw [b3, ← b5] at *
      refine ⟨_, _, _, lo, hi, g3, g4, f6, f9, g2, f10, w10, w11, w12, ?_⟩
      rw [b6, ← b7, ← b8] at *
      exact ⟨w13, w14, w15, w16, w17, w18⟩

/-! ### the curve of the sample -/

theorem inverse_curve {d : ℝ} (hd : 0 < d) : curveAt 0 [-1] d = d⁻¹ := by
  unfold curveAt
  simp only [List.map_cons, List.map_nil, List.zipIdx_cons, List.zipIdx_nil, List.foldr_cons, List.foldr_nil]
  have e : (0 : ℝ) * Real.logb 10 d ^ 0 + (((-1 : ℚ) : ℝ) * Real.logb 10 d ^ (0 + 1) + 0) = Real.logb 10 d * -1 := by
    push_cast
    ring
  rw [e, Real.rpow_mul (by norm_num), Real.rpow_logb (by norm_num) (by norm_num) hd, Real.rpow_neg_one]

theorem inverse_slope (d : ℝ) (hd : 0 < d) : HasDerivAt (curveAt 0 [-1]) (-(d ^ 2)⁻¹) d := by
  refine (hasDerivAt_inv hd.ne').congr_of_eventuallyEq ?_
  filter_upwards [lt_mem_nhds hd] with x hx
  exact inverse_curve hx

theorem inverse_bias {e e' : ℝ} (he : 0 < e) (hlt : e < e') : chordBias (curveAt 0 [-1]) e e' = 1 := by
  have he' : 0 < e' := he.trans hlt
  have hb : 1 < e' / e := by rw [one_lt_div he]; exact hlt
  have hs : chordSlope (curveAt 0 [-1]) e e' = -1 := by
    unfold chordSlope
    rw [inverse_curve he, inverse_curve he', show e'⁻¹ / e⁻¹ = (e' / e)⁻¹ by rw [inv_div_inv, inv_div], Real.logb_inv, neg_div, div_self]
    exact (Real.logb_pos (by norm_num) hb).ne'
  obtain ⟨h1, h2, h3⟩ := bin_ends he hlt
  unfold chordBias
  have h4 := (C28_symmetric (e' / e) 1 hb).2.2
  rw [C28_bin_average_partial _ _ (Real.sqrt (e' * e)) hb (Real.sqrt_pos.2 (by positivity)) (by norm_num), binAverage, h2, h3, mul_comm e' e] at h4
  rw [hs, if_neg (by norm_num)]
  exact h4

/-! ### a command -/

/-- a command for the data of the file and a differential fit -/
def diffWords : List (List Char) := ["-p", "source=/m.diam,name=Mare", "-p", "type=d-fit"].map String.toList

def diffItems : List (List (List Char × List Char)) :=
  [[("source".toList, "/m.diam".toList), ("name".toList, "Mare".toList)], [("type".toList, "d-fit".toList)]]

def diffGiven : List Given := [⟨"plot", ["source=/m.diam,name=Mare"]⟩, ⟨"plot", ["type=d-fit"]⟩].map
  fun x : String × List String => ⟨x.1.toList, x.2.map String.toList⟩

def diffCheck : Bool :=
  match runCommand .ascii (fun _ => false) ageFiles 1 "/u/".toList diffWords with
  | .ok st => match prepareRun (undecoded ageEnv) st with
    | .ok P => P.plots.all (fun x => isWhole x.2)
    | .error _ => false
  | .error _ => false

theorem diff_check : diffCheck = true := by decide +kernel

/-- the command can be run -/
theorem diffed_runs : ∃ st P, runCommand .ascii (fun _ => false) ageFiles 1 "/u/".toList diffWords = .ok st ∧ prepareRun ageEnv st = .ok P := by
  have h := diff_check
  unfold diffCheck at h
  have hw : CommandOf (fun _ => false) diffWords diffGiven := (C133_grammar _ _ _).1 (by decide +kernel)
  have hx : Expands .ascii (fun _ => false) ageFiles "/u/".toList diffGiven diffGiven "/u/".toList 0 := by
    refine .option _ _ _ _ _ _ (by unfold Loads; decide +kernel) (admissible_ok (by decide +kernel)) ?_
    refine .option _ _ _ _ _ _ (by unfold Loads; decide +kernel) (admissible_ok (by decide +kernel)) ?_
    exact .nil _ _
  obtain ⟨st, h1, hpl⟩ := C141_plots .ascii (fun _ => false) ageFiles "/u/".toList diffWords diffGiven diffGiven "/u/".toList 0 hw hx 1 (by omega)
    (undecoded ageEnv) (fun _ => rfl)
  rw [h1] at h
  dsimp only at h
  cases hP : prepareRun (undecoded ageEnv) st with
  | error e => rw [hP] at h; cases h
  | ok P =>
    rw [hP] at h
    dsimp only at h
    obtain ⟨P', hP'⟩ : ∃ P', prepareRun ageEnv st = .ok P' := by
      apply run_decoded hP
      intro x hx
      have hwhole := List.all_eq_true.1 h x hx
      obtain ⟨p, input, items, dark, _, _, _, g4, _, g5⟩ := hpl P hP
      obtain ⟨i, hi, e⟩ := List.getElem_of_mem hx
      obtain ⟨_, _, s, c, b3, b4, _⟩ := g5 _ rfl i x.1 x.2 items[i] (by rw [List.getElem?_eq_getElem hi, e]) (List.getElem?_eq_getElem (by omega))
      have hc : c = sampleOpened := by
        have b3' : (if s = "/m.diam".toList then Except.ok sampleOpened else .error Exc.system) = Except.ok c := b3
        by_cases hs : s = "/m.diam".toList
        · rw [if_pos hs] at b3'
          injection b3' with b3'
          exact b3'.symm
        · rw [if_neg hs] at b3'
          cases b3'
      have hx2 : x.2.1 = c := by
        obtain ⟨c0, p0, specs, ds, c1, ratio, dark', r1, r2, r3, r4, r5, r6, r7, r8⟩ := run_ok hP
        obtain ⟨y, _, hy⟩ := forall₂_right (Verif.Cratercount.mapM_ok _ r8) hx
        obtain ⟨c', rv, bv, sv, d1, _, _, _, d5⟩ := made_range (o := x.1) (r := x.2) hy
        rw [b4] at d1
        injection d1 with d1
        injection d1 with d1
        injection d5 with d5
        rw [← d5, d1]
      obtain ⟨o, c', a, b, s'⟩ := x
      dsimp only at hx2 hwhole ⊢
      rw [hx2, hc]
      have hform : a = .strs ["0".toList, "inf".toList] ∧ b = .str "pseudo-log".toList ∧ s' = .num 1 := by
        unfold isWhole at hwhole
        split at hwhole
        · rename_i a b c e
          injection e with e1 e2
          injection e2 with e2 e3
          simp only [Bool.and_eq_true, beq_iff_eq] at hwhole
          obtain ⟨⟨w1, w2⟩, w3⟩ := hwhole
          exact ⟨by rw [e1, w1, w2], by rw [e2, w3], e3⟩
        · cases hwhole
      obtain ⟨rfl, rfl, rfl⟩ := hform
      exact ⟨_, sample_decodes⟩
    exact ⟨st, P', h1, hP'⟩

def askDiff : Ask := ⟨"d-fit".toList, "m".toList, "/m.diam".toList, "pseudo-log".toList, "0".toList, "inf".toList, 1, 0⟩

theorem diffed_asked : AskedPlots agePlotEnv diffItems [askData, askDiff] := by
  refine ⟨rfl, fun i q hi => ?_⟩
  match i, hi with
  | 0, hi =>
    injection hi with hi
    subst hi
    refine ⟨.inr ⟨not_given (by decide +kernel), by decide +kernel⟩, .inr ⟨not_given (by decide +kernel), by decide +kernel⟩,
      ⟨.num 1, .inr ⟨not_given (by decide +kernel), by decide +kernel⟩, .num 1⟩,
      ⟨"/m.diam".toList, last_given [] [("name".toList, "Mare".toList)] rfl (by decide +kernel) (by decide +kernel) (by decide +kernel), .inl ⟨.inl rfl, rfl⟩⟩, _, rfl,
      .inr ⟨not_given (by decide +kernel), by decide +kernel⟩, ⟨.num 0, .inr ⟨not_given (by decide +kernel), by decide +kernel⟩, .num 0⟩,
      "Mare".toList, .inl (last_given [("source".toList, "/m.diam".toList)] [] rfl (by decide +kernel) (by decide +kernel) (by decide +kernel)),
      .inl ⟨by decide, rfl⟩⟩
  | 1, hi =>
    injection hi with hi
    subst hi
    refine ⟨.inl (last_given [("source".toList, "/m.diam".toList), ("name".toList, "Mare".toList)] [] rfl (by decide +kernel) (by decide +kernel) (by decide +kernel)),
      .inr ⟨not_given (by decide +kernel), by decide +kernel⟩,
      ⟨.num 1, .inr ⟨not_given (by decide +kernel), by decide +kernel⟩, .num 1⟩,
      ⟨"/m.diam".toList, last_given [] [("name".toList, "Mare".toList), ("type".toList, "d-fit".toList)] rfl (by decide +kernel) (by decide +kernel) (by decide +kernel),
        .inl ⟨.inl rfl, rfl⟩⟩, _, rfl,
      .inr ⟨not_given (by decide +kernel), by decide +kernel⟩, ⟨.num 0, .inr ⟨not_given (by decide +kernel), by decide +kernel⟩, .num 0⟩,
      [], .inr ⟨not_given (by decide +kernel), by decide +kernel⟩,
      .inr ⟨rfl, "/".toList, ".diam".toList, ?_, by decide +kernel⟩⟩
    refine ⟨rfl, by decide +kernel, .inr ⟨'/', rfl, by decide +kernel⟩, by decide +kernel, .inr ?_, fun h => absurd h (by decide)⟩
    exact ⟨"diam".toList, rfl, by decide +kernel, by decide +kernel, by decide +kernel⟩
  | n + 2, hi => cases hi

/-- nothing else is given -/
theorem diffed_no (k : String) (hk : k.toList ≠ "plot".toList) : ∀ g ∈ diffGiven, g.dest ≠ k.toList := by
  intro g hg
  simp only [diffGiven, List.map_cons, List.map_nil, List.mem_cons, List.not_mem_nil, or_false] at hg
  rcases hg with rfl | rfl <;> exact fun h => hk h.symm

theorem diffed_presented {p : List Char} (h : PresentedAs (ageEnv "/u/".toList).set.lower diffGiven p) : p = "differential".toList := by
  rcases h with ⟨_, h⟩ | ⟨v, ⟨pre, post, e, _⟩, _⟩
  · exact h
  · exact absurd rfl (diffed_no "presentation" (by decide) ⟨"presentation".toList, [v]⟩ (by rw [e]; simp))

theorem diffed_input {f : Option (List Char)} (h : InputOf diffGiven f) : f = none := by
  rcases h with ⟨_, h⟩ | ⟨⟨v, ⟨pre, post, e, _⟩, _⟩, _⟩
  · exact h
  · exact absurd rfl (diffed_no "input" (by decide) ⟨"input".toList, v⟩ (by rw [e]; simp))

theorem diffed_e : (diffGiven.filter (fun g => g.dest = "plot".toList)).map (fun g => g.values) =
      [["source=/m.diam,name=Mare".toList], ["type=d-fit".toList]] := by decide +kernel

theorem diffed_items {items : List (List (List Char × List Char))}
    (h : List.Forall₂ (ItemsOf .ascii) ((diffGiven.filter (fun g => g.dest = "plot".toList)).map (fun g => g.values)) items) : items = diffItems :=
  two_items h diffed_e sample_p1 (by decide +kernel)

theorem diffed_ages : agesAsked [askData, askDiff] = [(.differential, askDiff)] := by
  have e1 : kindNamed "data".toList = none := by decide +kernel
  have e2 : kindNamed "d-fit".toList = some .differential := by decide +kernel
  have f1 : kindNamed askData.type = none := e1
  have f2 : kindNamed askDiff.type = some .differential := e2
  simp only [agesAsked, List.filterMap_cons, List.filterMap_nil, f1, f2, Option.map_none, Option.map_some]

theorem diffed_fitting : ∀ y ∈ agesAsked [askData, askDiff], FitsTable y.2 := by
  rw [diffed_ages]
  intro y hy
  rw [List.mem_singleton] at hy
  subst hy
  show "m".toList ≠ [] ∧ OneField "m".toList ∧ OneField "/m.diam".toList ∧ OneField "pseudo-log".toList
  decide +kernel

theorem diffed_range (r : EReal × EReal) (hr : RangeAsked sampleOpened askDiff r) : r = (0, ⊤) := by
  obtain ⟨k, hk, hkb, _⟩ := sample_listed
  rw [hk] at hr
  exact C152_whole k hkb askDiff rfl rfl r hr

theorem diffed_words : CommandOf (fun _ => false) diffWords diffGiven := (C133_grammar _ _ _).1 (by decide +kernel)

theorem diffed_expands : Expands .ascii (fun _ => false) ageFiles "/u/".toList diffGiven diffGiven "/u/".toList 0 := by
  refine .option _ _ _ _ _ _ (by unfold Loads; decide +kernel) (admissible_ok (by decide +kernel)) ?_
  refine .option _ _ _ _ _ _ (by unfold Loads; decide +kernel) (admissible_ok (by decide +kernel)) ?_
  exact .nil _ _

/-- the table of the sample can be made -/
theorem diffed_written (T : TableRow.Env) (hT : ∀ x, OneField (T.floatStr x)) (o : Outcome) (ho : FitFound T (plotFor askDiff sampleOpened (0, ⊤)) .dFit o)
    (hbr : ∀ r, o.bins = some r → Writable r) (st : CmdState) (P : Prepared Opened (EReal × EReal))
    (hst : runCommand .ascii (fun _ => false) ageFiles 1 "/u/".toList diffWords = .ok st) (hP : prepareRun ageEnv st = .ok P) :
    ∃ out, TableRow.table T P.plots = .ok out := by
  obtain ⟨st', hst', hpl⟩ := C152_plots .ascii (fun _ => false) ageFiles "/u/".toList diffWords diffGiven diffGiven "/u/".toList 0 diffed_words diffed_expands 1 (by omega)
    ageEnv (fun _ => rfl) rfl sample_noload
  rw [hst] at hst'
  injection hst' with hst'
  subst hst'
  obtain ⟨p, input, items, g1, g2, g3, g4, g5⟩ := hpl P hP
  obtain rfl := diffed_presented g1
  obtain rfl := diffed_input g2
  obtain rfl := diffed_items g3
  have hall : List.Forall₂ (Answers (ageEnv "/u/".toList).load) [askData, askDiff] P.plots := by
    rw [List.forall₂_iff_get]
    refine ⟨g4.symm, fun i hi hj => ?_⟩
    exact g5 agePlotEnv rfl sample_plain i _ _ (List.getElem?_eq_getElem hj) (diffed_asked.2 i _ (List.getElem?_eq_getElem hi))
  obtain ⟨ps, i1, i2⟩ := plots_of_asks hall
  rw [diffed_ages] at i2
  cases i2 with
  | @cons a z as zs hz i2 =>
    cases i2
    obtain ⟨z1, c', r, z2, z3, z4⟩ := hz
    have z2' : (ageEnv "/u/".toList).load "/m.diam".toList = .ok c' := z2
    rw [sample_load] at z2'
    injection z2' with z2'
    subst z2'
    obtain rfl := diffed_range r z3
    apply C147_written T hT P.plots [z] i1
    · intro p hp
      rw [List.mem_singleton] at hp
      subst hp
      rw [z4]
      exact diffed_fitting _ (by rw [diffed_ages]; exact List.mem_singleton_self _)
    · intro p hp
      rw [List.mem_singleton] at hp
      subst hp
      rw [z1, z4]
      exact ⟨.inl rfl, o, ho, hbr⟩
    · intro last hl hb p hp
      rw [List.mem_singleton] at hp
      subst hp
      rw [z1]
      rfl

theorem diffed_system {lower : Char → Char} {names : List (List Char)} {name : List Char} (h : SystemAsked lower names diffGiven name) :
    name = "Moon, Neukum (1983)".toList := by
  rcases h with ⟨_, h⟩ | ⟨t, k, ⟨pre, post, e, _⟩, _⟩
  · exact h
  · exact absurd rfl (diffed_no "chronology_system" (by decide) ⟨"chronology_system".toList, [t]⟩
      (by rw [e]; exact List.mem_append_right _ List.mem_cons_self))

/-- the settings of the sample -/
theorem diffed_settings {st : CmdState} {P : Prepared Opened (EReal × EReal)} (hst : runCommand .ascii (fun _ => false) ageFiles 1 "/u/".toList diffWords = .ok st)
    (hP : prepareRun ageEnv st = .ok P) : numberAttr P.set "ref_diameter" = .ok 1 ∧ numberAttr P.set "mu" = .ok 1 := by
  obtain ⟨st', h1, hdisp⟩ := C141_display_partial .ascii (fun _ => false) ageFiles "/u/".toList diffWords diffGiven diffGiven "/u/".toList 0 diffed_words
    diffed_expands 1 (by omega) ageEnv (fun _ => rfl)
  rw [hst] at h1
  injection h1 with h1
  subst h1
  obtain ⟨p, _, _, hd⟩ := hdisp P hP
  obtain ⟨w, w1, w2⟩ := (hd "ref_diameter" (by decide) (fun _ => by decide)).2 (diffed_no _ (by decide))
  obtain ⟨u, u1, u2⟩ := (hd "mu" (by decide) (fun _ => by decide)).2 (diffed_no _ (by decide))
  obtain rfl := standard_ref w1
  obtain rfl := standard_mu u1
  constructor
  · unfold numberAttr
    rw [w2]
    dsimp only
    norm_num
  · unfold numberAttr
    rw [u2]
    dsimp only
    norm_num

theorem diffed_named {st : CmdState} {P : Prepared Opened (EReal × EReal)} (hst : runCommand .ascii (fun _ => false) ageFiles 1 "/u/".toList diffWords = .ok st)
    (hP : prepareRun ageEnv st = .ok P) : getStr P.settings "chronology_system" = .ok "Moon, Neukum (1983)".toList := by
  obtain ⟨st', h1, hcwd, hs⟩ := C133_in_place_partial .ascii (fun _ => false) ageFiles "/u/".toList diffWords diffGiven diffGiven "/u/".toList 0 diffed_words
    diffed_expands 1 (by omega)
  rw [hst] at h1
  injection h1 with h1
  subst h1
  obtain ⟨c0, p0, specs, ds, c1, ratio, dark, r1, r2, r3, r4, r5, r6, r7, r8⟩ := run_ok hP
  rw [hcwd] at r1 r5
  have n0 := settings_nodup r1
  obtain ⟨n1, e1⟩ := defaultName_keys r5 n0
  obtain ⟨n2, e2⟩ := legend_keys r6 n1
  have hnl : ∀ s ∈ (ageEnv "/u/".toList).set.systems, '\n' ∉ s.name := by
    show ∀ s ∈ exEnv.systems, '\n' ∉ s.name
    decide +kernel
  obtain ⟨name, i, s, q1, q2, q3, q4, _, _, q5, q6⟩ := C60_system (ageEnv "/u/".toList).set hnl _ _ r1
  have hn := q5 ((args_last hs "chronology_system" (by decide)).2 (diffed_no _ (by decide)))
  rw [getStr, e2 _ (by decide), e1 _ (by decide), q1, hn]

/-- the command of the sample with the functions of the small list: the row of the fit to the four craters -/
example (T : TableRow.Env) (hT : ∀ x, OneField (T.floatStr x)) (hcf : CurveFitSpec T.curveFit) : ∃ v plotPF st P t row first rest α,
    loadFunctions .ascii none smallDisk = .ok v ∧ (∀ f d n, 0 < d → f.evaluate .cumulative d none = .ok n → (plotPF f).C0 d = n) ∧
    runCommand .ascii (fun _ => false) ageFiles 1 "/u/".toList diffWords = .ok st ∧ prepareRun ageEnv st = .ok P ∧
    runTable .ascii v T plotPF P = .ok (some t) ∧ (split '\n' t)[3]? = some row ∧ (split ',' row)[0]? = some "m".toList ∧
    FitBins (gridOf .pseudoLog 0) (craterPairs [1, 3, 3 / 2, 2] [1, 1, 1 / 2, 1]) (0, ⊤) (first :: rest) ∧
    (∀ α', α' ≠ α → diffDeviation (craterPairs [1, 3, 3 / 2, 2] [1, 1, 1 / 2, 1]) 10 (curveAt 0 [-1]) (fun d => (d ^ 2)⁻¹) (first :: rest) α <
      diffDeviation (craterPairs [1, 3, 3 / 2, 2] [1, 1, 1 / 2, 1]) 10 (curveAt 0 [-1]) (fun d => (d ^ 2)⁻¹) (first :: rest) α') ∧
    DiffRow T 0 0 2 (craterPairs [1, 3, 3 / 2, 2] [1, 1, 1 / 2, 1]) (first :: rest)
      (chordBias (curveAt 0 [-1]) first.1 first.2 / Real.sqrt (countIn (craterPairs [1, 3, 3 / 2, 2] [1, 1, 1 / 2, 1]) first.1 first.2)) α (split ',' row) := by
  obtain ⟨v, hv, hsrc⟩ := small_source
  obtain ⟨st, P, hst, hP⟩ := diffed_runs
  obtain ⟨plotPF, hplot⟩ : ∃ plotPF : PFn → PF, ∀ f d n, 0 < d → f.evaluate .cumulative d none = .ok n → (plotPF f).C0 d = n := by
    refine ⟨fun f => ⟨fun _ => 0, fun _ _ => 0, fun d => match f.evaluate .cumulative d none with | .ok n => n | .error _ => 0⟩, fun f d n _ hn => ?_⟩
    dsimp only
    rw [hn]
  have hlist := C153_list .ascii v _ hsrc _ small_systems (by decide)
  have hcn : 2 ≤ (occurrences smallDefinitions "chronology".toList).length := by decide +kernel
  have hpn : 2 ≤ (occurrences smallDefinitions "production".toList).length := by decide +kernel
  obtain ⟨c, hc, hinit⟩ := small_chronology hsrc
  have hgood : GoodChron c 0 0 2 := ⟨_, hinit, rfl, rfl, rfl, le_rfl, le_rfl, two_pos⟩
  obtain ⟨hl, ho, _⟩ := sample_count.choose_spec.choose_spec
  have ho' : openCount .ascii (.error .system) ".diam".toList sampleFile = .ok sampleOpened := ho
  obtain ⟨k, k1, k2, k3, _, k5, _, _⟩ := open_lists (.error .system) hl
  have hk : sampleOpened = .craters k := by
    have : openCount .ascii (.error .system) ".diam".toList sampleFile = .ok (.craters k) := k1
    rw [ho'] at this
    injection this
  obtain ⟨k', hk', _, hkne, hkd⟩ := sample_listed
  obtain rfl : k' = k := Opened.craters.inj (hk'.symm.trans hk)
  have hfr : ∀ x ∈ craterPairs [1, 3, 3 / 2, 2] [1, 1, 1 / 2, 1], 0 < x.2 := by
    intro x hx
    simp only [craterPairs, List.zip_cons_cons, List.zip_nil_right, List.map_cons, List.map_nil, List.mem_cons, List.not_mem_nil, or_false] at hx
    rcases hx with rfl | rfl | rfl | rfl <;> norm_num
  have hfr' : ∀ x ∈ k'.craters, 0 < x.2 := fun x hx => hfr x (k2.mem_iff.1 hx)
  have hfall : ∀ (cs : List (ℝ × ℝ)) (e e' : ℝ), NextEdges (gridOf .pseudoLog 0) e e' → 0 < weightIn cs e e' → (0 : ℝ) < ((Real.sqrt (e * e')) ^ 2)⁻¹ := by
    rintro cs e e' ⟨g1, g2, _⟩ _
    obtain ⟨m, hm⟩ := (edge_iff (by simp) 0 _).1 g1
    obtain ⟨m', hm'⟩ := (edge_iff (by simp) 0 _).1 g2
    have h1 : 0 < e := by rw [hm]; exact gridFn_pos _ 0 m
    have h2 : 0 < e' := by rw [hm']; exact gridFn_pos _ 0 m'
    have : 0 < Real.sqrt (e * e') := Real.sqrt_pos.2 (mul_pos h1 h2)
    positivity
  obtain ⟨f, hf⟩ : ∃ f, f = initPoly [0, -1] (some (1, 2.5)) := ⟨_, rfl⟩
  have hcon : Constructed f := hf ▸ .inl ⟨_, _, rfl⟩
  obtain ⟨K, hK⟩ := C20_cumulative_applies f
  have hev1 : ∃ n, f.evaluate .cumulative 1 none = .ok n := by
    refine ⟨K 1 0, ?_⟩
    rw [(C18_evaluate_partial f .cumulative 1).2.1 _ _ _ (hf.trans rfl) 0 rfl rfl]
    exact (hK 1 0 one_pos).1
  have ha : 0 < k'.area := by rw [k3]; norm_num
  have hpoly : f = .poly (((0 : ℚ) :: [-1]).map (fun q : ℚ => (q : ℝ))) (1, 2.5) := by
    rw [hf, initPoly]
    norm_num
  obtain ⟨z1, z2, z3⟩ := polynomial_curves 0 [-1] (1, 2.5)
  rw [← hpoly] at z1 z2 z3
  have hκ : ∀ d, 0 < d → (plotPF f).C0 d = 10 ^ ((0 : ℚ) : ℝ) * curveAt 0 [-1] d := fun d hd => by
    obtain ⟨n, hn⟩ := z2 d hd
    rw [hplot f d n hd hn]
    exact z1 d hd n hn
  have hφ := z3 (fun d => (d ^ 2)⁻¹) inverse_slope
  obtain ⟨res, lo', hi', hres, hbr⟩ := C157_exists f hcon hev1 c T.curveFit hcf (plotPF f) _ _ _ (pow10_pos _) hκ hφ k' k5 ha hkne
    (fun x hx => lt_of_lt_of_le (by norm_num) (hkd x hx)) hfr' .pseudoLog (by simp) (hfall _) false
  obtain ⟨first, rest, hi, thi, B, f1, _, f3, f4, f5, _, f7, f8, _⟩ := C157_fit f hcon c 0 0 2 hgood T.curveFit hcf (plotPF f) _ _ _ (pow10_pos _) hκ hφ
    k' k5 ha _ (List.Perm.refl _) hfr' .pseudoLog (by simp) (hfall _) (0, ⊤) false 1 res hres
  have hB : 0.98 * B < 1 := by
    obtain ⟨⟨g1, g2, g3, _⟩, g4, _⟩ := (f1.bins first).1 List.mem_cons_self
    obtain ⟨m, hm⟩ := (edge_iff (by simp) 0 _).1 g1
    have h1 : 0 < first.1 := by rw [hm]; exact gridFn_pos _ 0 m
    have h2 : (1 : ℝ) ≤ countIn k'.craters first.1 first.2 := by
      have : 0 < countIn k'.craters first.1 first.2 := by
        rw [countIn, List.length_pos_iff]
        intro hnil
        rw [weightIn, hnil] at g4
        simp at g4
      exact_mod_cast this
    have h3 : 1 ≤ Real.sqrt (countIn k'.craters first.1 first.2) := by
      rw [show (1 : ℝ) = Real.sqrt 1 by simp]
      exact Real.sqrt_le_sqrt h2
    have h4 : 1 / Real.sqrt (countIn k'.craters first.1 first.2) ≤ 1 := by
      rw [div_le_one (by linarith)]
      exact h3
    rw [f3, inverse_bias h1 g3]
    norm_num at h4 ⊢
    linarith
  obtain ⟨lo, hlo⟩ : ∃ lo, res.a0.lower = .ok lo := ⟨_, (f4 _).2 ⟨hB, rfl⟩⟩
  obtain ⟨tlo, htlo⟩ : ∃ tlo, res.tLower = .ok tlo := by
    obtain ⟨p, c0, c1, c2, c3, c4, c5, c6⟩ := hgood
    obtain ⟨age, _, b2, _⟩ := C15_age_inversion p c c0 0 0 2 c1 c2 c3 c4 c5 c6
    unfold Verif.Age.fitAge at hres
    dsimp only at hres
    obtain ⟨_, _, hres⟩ := except_bind_eq_ok hres
    obtain ⟨_, _, hres⟩ := except_bind_eq_ok hres
    obtain ⟨_, _, hres⟩ := except_bind_eq_ok hres
    obtain ⟨_, _, hres⟩ := except_bind_eq_ok hres
    injection hres with hres
    rw [← hres] at hlo ⊢
    dsimp only at hlo ⊢
    rw [hlo]
    exact ⟨_, b2 lo none⟩
  obtain ⟨t1, t2⟩ := diffed_settings hst hP
  have hfun : systemFunctions .ascii v "Moon, Neukum (1983)".toList = .ok (c, initPoly [0, -1] (some (1, 2.5))) := by
    have hfind : exEnv.systems.find? (fun s => s.name = "Moon, Neukum (1983)".toList) =
        some ⟨"Moon, Neukum (1983)".toList, "c".toList, "p".toList, "Moon".toList⟩ := by decide +kernel
    unfold systemFunctions
    rw [hlist, ok_bind, hfind]
    dsimp only
    rw [hc, ok_bind, small_production hsrc, ok_bind]
  obtain ⟨out, hout⟩ : ∃ out, runTable .ascii v T plotPF P = .ok out := by
    unfold runTable
    rw [diffed_named hst hP, ok_bind, hfun, ok_bind, t1, ok_bind, t2, ok_bind]
    have := diffed_written ⟨.ascii, T.ρ, T.floatStr, f, plotPF f, c, T.simpson, T.curveFit, 1, decide ((1 : ℝ) ≠ 0)⟩ hT
      ⟨(res.t, tlo, thi), (res.a0.best, lo, hi), res.n, res.nEvent, some res.binRange⟩
      ⟨.pseudoLog, res, by decide +kernel, by rw [show (plotFor askDiff sampleOpened (0, ⊤)).count = .craters k' from hk]; exact hres, rfl, htlo, f8, rfl, hlo, f5, rfl, rfl, rfl⟩
      (by
        intro r hr
        injection hr with hr
        rw [← hr, hbr]
        exact .inr ⟨_, _, rfl⟩) st P hst hP
    rw [hf] at this
    exact this
  obtain ⟨st', hst', hfile⟩ := C157_command_partial .ascii (fun _ => false) ageFiles "/u/".toList diffWords diffGiven diffGiven "/u/".toList 0 diffed_words diffed_expands 1
    (by omega) ageEnv (fun _ => rfl) rfl sample_noload v smallDefinitions hsrc exEnv.systems small_systems (by decide) hcn hpn rfl (by decide +kernel) T hT hcf plotPF hplot
  rw [hst] at hst'
  injection hst' with hst'
  subst hst'
  obtain ⟨i, s, s1, _, s2, s3⟩ := hfile P out hP hout
  have hs : s = ⟨"Moon, Neukum (1983)".toList, "c".toList, "p".toList, "Moon".toList⟩ := by
    have hn := diffed_system s2
    have : ∀ s ∈ exEnv.systems, s.name = "Moon, Neukum (1983)".toList → s = ⟨"Moon, Neukum (1983)".toList, "c".toList, "p".toList, "Moon".toList⟩ := by
      decide +kernel
    exact this s (List.mem_of_getElem? s1) hn
  subst hs
  obtain ⟨p, input, items, g1, g2, g3, g4⟩ := s3 0 0 0 2 [] le_rfl le_rfl (by norm_num) 0 [-1] (1, 2.5) small_functions (fun d => (d ^ 2)⁻¹) inverse_slope
  obtain rfl := diffed_presented g1
  obtain rfl := diffed_input g2
  obtain rfl := diffed_items g3
  obtain ⟨t, row, c', r, first, rest, α, e1, e2, e3, e4, e5, e6, e7, _, _, _, e8⟩ := g4 agePlotEnv rfl sample_plain [askData, askDiff] diffed_asked diffed_fitting 0 askDiff
    (.error .system) sampleFile [1, 3, 3 / 2, 2] [1, 1, 1 / 2, 1] 10 .pseudoLog (by rw [diffed_ages]; rfl) (by decide +kernel) (by simp) hl (by norm_num)
    (by intro x hx; simp only [List.mem_cons, List.not_mem_nil, or_false] at hx; rcases hx with rfl | rfl | rfl | rfl <;> norm_num) (sample_load.trans ho.symm) (hfall _)
  rw [ho'] at e3
  injection e3 with e3
  subst e3
  obtain rfl := diffed_range r e4
  rw [show ((10 : ℚ) : ℝ) = 10 by norm_num] at e6
  rw [show ((0 : ℚ) : ℝ) = 0 by norm_num, show ((2 : ℚ) : ℝ) = 2 by norm_num] at e8
  exact ⟨v, plotPF, st, P, t, row, first, rest, α, hv, hplot, hst, hP, by rw [hout, e1], e2, e7, e5, e6, e8⟩

end

end Verif.Props
