import Verif.Model.Chronology
import Verif.Lemmas.Binning
import Verif.Lemmas.Plot
import Mathlib.Analysis.SpecialFunctions.ExpDeriv
import Mathlib.Analysis.Convex.SpecificFunctions.Basic
import Mathlib.Analysis.Calculus.Deriv.MeanValue

/-! C14, C15, C69: chronology functions. -/

namespace Verif.Props
open Verif.Cratercount Verif.Py Verif.Chronology

noncomputable section

attribute [local irreducible] linspace

theorem coeffs_ok {p : List ℝ} {a b c : ℝ} (h0 : p[0]? = some a) (h1 : p[1]? = some b) (h3 : p[3]? = some c) :
    coeffs p = .ok (a, b, c) := by
  simp only [coeffs, h0, h1, h3]

/-- **C14, the formula.** The objects constructed from at least four coefficients evaluate
`N1(t) = p0 (e^{p1 t} - 1) + p3 t` and its rate; shorter lists are rejected on construction. -/
theorem C14_construct (p : List ℝ) :
    (p.length < 4 → Chronology.init p = .error .index) ∧
    (4 ≤ p.length → ∃ c, Chronology.init p = .ok c ∧ c.p = p) := by
  constructor
  · intro h
    have : p[3]? = none := List.getElem?_eq_none (by omega)
    have e : coeffs p = .error .index := by
      unfold coeffs
      rw [this]
      split
      · next h => cases h
      · rfl
    simp only [Chronology.init, e, except_error_bind]
  · intro h
    have e := coeffs_ok (p := p) (List.getElem?_eq_getElem (by omega)) (List.getElem?_eq_getElem (by omega))
      (List.getElem?_eq_getElem (by omega))
    simp only [Chronology.init, e, except_ok_bind]
    exact ⟨_, rfl, rfl⟩

theorem n1_hasDerivAt (p0 p1 p3 t : ℝ) : HasDerivAt (n1Coeff p0 p1 p3) (phiCoeff p0 p1 p3 t) t := by
  have h1 : HasDerivAt (fun t : ℝ => p1 * t) p1 t := by simpa using (hasDerivAt_id t).const_mul p1
  have h2 := ((h1.exp.sub_const 1).const_mul p0).add ((hasDerivAt_id t).const_mul p3)
  have : HasDerivAt (fun t => p0 * (Real.exp (p1 * t) - 1) + p3 * t) (p0 * (Real.exp (p1 * t) * p1) + p3 * 1) t := h2
  unfold n1Coeff phiCoeff
  convert this using 1
  ring

theorem phi_pos {p0 p1 p3 : ℝ} (h0 : 0 ≤ p0) (h1 : 0 ≤ p1) (h3 : 0 < p3) (t : ℝ) : 0 < phiCoeff p0 p1 p3 t := by
  unfold phiCoeff
  have := mul_nonneg (mul_nonneg h1 h0) (Real.exp_pos (p1 * t)).le
  linarith

theorem n1_strictMono {p0 p1 p3 : ℝ} (h0 : 0 ≤ p0) (h1 : 0 ≤ p1) (h3 : 0 < p3) : StrictMono (n1Coeff p0 p1 p3) :=
  strictMono_of_deriv_pos (fun t => by rw [(n1_hasDerivAt p0 p1 p3 t).deriv]; exact phi_pos h0 h1 h3 t)

/-- **C14.** For a chronology object with non-negative exponential coefficients and positive linear coefficient:
N(1) is 0 at age 0, strictly increases with age, and the impact rate is everywhere its derivative, positive
and non-decreasing. -/
theorem C14_increasing_and_rate (p : List ℝ) (c : Chron) (hc : Chronology.init p = .ok c) (p0 p1 p3 : ℝ)
    (e0 : p[0]? = some p0) (e1 : p[1]? = some p1) (e3 : p[3]? = some p3)
    (h0 : 0 ≤ p0) (h1 : 0 ≤ p1) (h3 : 0 < p3) :
    ∃ N rate : ℝ → ℝ, (∀ t, c.N1 t = .ok (N t)) ∧ (∀ t, c.phi t = .ok (rate t)) ∧
      (∀ t, N t = p0 * (Real.exp (p1 * t) - 1) + p3 * t) ∧
      N 0 = 0 ∧ StrictMono N ∧ (∀ t, HasDerivAt N (rate t) t) ∧ (∀ t, 0 < rate t) ∧ Monotone rate := by
  have hp : c.p = p := by
    have e := coeffs_ok e0 e1 e3
    simp only [Chronology.init, e, except_ok_bind] at hc
    injection hc with hc
    rw [← hc]
  have e := coeffs_ok e0 e1 e3
  refine ⟨n1Coeff p0 p1 p3, phiCoeff p0 p1 p3, ?_, ?_, fun t => rfl, by simp [n1Coeff], n1_strictMono h0 h1 h3,
    n1_hasDerivAt p0 p1 p3, phi_pos h0 h1 h3, ?_⟩
  · intro t; simp only [Chron.N1, hp, e, except_ok_bind]
  · intro t; simp only [Chron.phi, hp, e, except_ok_bind]
  · intro s t hst
    unfold phiCoeff
    have : Real.exp (p1 * s) ≤ Real.exp (p1 * t) := Real.exp_le_exp.2 (mul_le_mul_of_nonneg_left hst h1)
    have := mul_le_mul_of_nonneg_left this (mul_nonneg h1 h0)
    linarith

/-- the lunar coefficients of config/functions.txt meet the hypotheses of C14 and C15 -/
example : ∃ c, Chronology.init [5.44e-14, 6.93, 0, 8.38e-4] = .ok c ∧
    ([5.44e-14, 6.93, 0, 8.38e-4] : List ℝ)[0]? = some (5.44e-14 : ℝ) ∧ (0 : ℝ) ≤ 5.44e-14 ∧ (0 : ℝ) ≤ 6.93 ∧
    (0 : ℝ) < 8.38e-4 := by
  obtain ⟨c, h, _⟩ := (C14_construct [5.44e-14, 6.93, 0, 8.38e-4]).2 (by simp)
  exact ⟨c, h, rfl, by norm_num, by norm_num, by norm_num⟩

/-! ### C15 -/

theorem init_tables {p : List ℝ} {c : Chron} (hc : Chronology.init p = .ok c) {p0 p1 p3 : ℝ}
    (e0 : p[0]? = some p0) (e1 : p[1]? = some p1) (e3 : p[3]? = some p3) :
    c.p = p ∧ c.ts = linspace 0 5 1000 ∧ c.n1s = (linspace 0 5 1000).map (n1Coeff p0 p1 p3) := by
  have e := coeffs_ok e0 e1 e3
  simp only [Chronology.init, e, except_ok_bind] at hc
  injection hc with hc
  rw [← hc]
  exact ⟨rfl, rfl, rfl⟩

theorem ts_sorted : (linspace (0 : ℝ) 5 1000).Pairwise (· < ·) := linspace_strictMono (by norm_num) _

theorem n1s_sorted {p0 p1 p3 : ℝ} (h0 : 0 ≤ p0) (h1 : 0 ≤ p1) (h3 : 0 < p3) :
    ((linspace (0 : ℝ) 5 1000).map (n1Coeff p0 p1 p3)).Pairwise (· < ·) :=
  ts_sorted.map _ (fun _ _ h => n1_strictMono h0 h1 h3 h)

theorem ts_getElem (i : ℕ) (h : i < (linspace (0 : ℝ) 5 1000).length) : (linspace (0 : ℝ) 5 1000)[i] = (i : ℝ) * (5 / 999) := by
  rw [linspace_getElem]; norm_num

/-- the chord between two ages lies above N1 (convexity), by comparing slopes -/
theorem n1_convex {p0 p1 p3 : ℝ} (h0 : 0 ≤ p0) : ConvexOn ℝ Set.univ (n1Coeff p0 p1 p3) := by
  have hexp : ConvexOn ℝ Set.univ (fun t : ℝ => Real.exp (p1 * t)) := by
    have := convexOn_exp.comp_linearMap (LinearMap.mulLeft ℝ p1)
    simpa [Function.comp_def] using this
  have h1 : ConvexOn ℝ Set.univ (fun t : ℝ => p0 * Real.exp (p1 * t)) := by
    simpa using hexp.smul h0
  have h2 : ConvexOn ℝ Set.univ (fun t : ℝ => p3 * t - p0) := by
    refine ⟨convex_univ, ?_⟩
    intro x _ y _ a b ha hb hab
    simp only [smul_eq_mul]
    have : p0 = (a + b) * p0 := by rw [hab, one_mul]
    nlinarith
  have := h1.add h2
  refine ConvexOn.congr this ?_
  intro t _
  simp only [Pi.add_apply, n1Coeff]
  ring

/-- **C15.** Converting a density into an age always succeeds with a value in [0,5] Ga (`c.t (some a0) _` takes the
density 10^a0), is monotone in the density, is exact at the 1000 tabulated ages, and for every age in [0,5]
gives back an age which is not above it and less than 5/999 Ga below it. -/
theorem C15_age_inversion (p : List ℝ) (c : Chron) (hc : Chronology.init p = .ok c) (p0 p1 p3 : ℝ)
    (e0 : p[0]? = some p0) (e1 : p[1]? = some p1) (e3 : p[3]? = some p3)
    (h0 : 0 ≤ p0) (h1 : 0 ≤ p1) (h3 : 0 < p3) :
    ∃ age : ℝ → ℝ, (∀ n, c.t none (some n) = .ok (age n)) ∧ (∀ a n, c.t (some a) n = .ok (age ((10 : ℝ) ^ a))) ∧
      (∀ n, 0 ≤ age n ∧ age n ≤ 5) ∧ Monotone age ∧
      (∀ i : ℕ, i < 1000 → ∀ n, c.N1 ((i : ℝ) * (5 / 999)) = .ok n → age n = (i : ℝ) * (5 / 999)) ∧
      (∀ t, 0 ≤ t → t ≤ 5 → ∀ n, c.N1 t = .ok n → age n ≤ t ∧ t - 5 / 999 < age n) ∧
      (∀ n, n ≤ 0 → age n = 0) ∧ (∀ t, 5 ≤ t → ∀ n, c.N1 t = .ok n → age n = 5) := by
  obtain ⟨hp, hts, hns⟩ := init_tables hc e0 e1 e3
  have e := coeffs_ok e0 e1 e3
  have hN : ∀ t, c.N1 t = .ok (n1Coeff p0 p1 p3 t) := by
    intro t; simp only [Chron.N1, hp, e, except_ok_bind]
  have hmono := n1_strictMono h0 h1 h3
  have hsx := n1s_sorted h0 h1 h3
  have hsx' := hsx.imp (fun {a b} (h : a < b) => h.le)
  have hst := ts_sorted.imp (fun {a b} (h : a < b) => h.le)
  have hlx : ((linspace (0 : ℝ) 5 1000).map (n1Coeff p0 p1 p3)).length = 1000 := by simp
  have hlt : (linspace (0 : ℝ) 5 1000).length = 1000 := by simp
  have hlen : ((linspace (0 : ℝ) 5 1000).map (n1Coeff p0 p1 p3)).length = (linspace (0 : ℝ) 5 1000).length := by simp
  have hxi : ∀ i (h : i < ((linspace (0 : ℝ) 5 1000).map (n1Coeff p0 p1 p3)).length),
      ((linspace (0 : ℝ) 5 1000).map (n1Coeff p0 p1 p3))[i] = n1Coeff p0 p1 p3 ((i : ℝ) * (5 / 999)) := by
    intro i h
    rw [List.getElem_map, ts_getElem]
  have hnode : ∀ i : ℕ, i < 1000 → interp c.n1s c.ts (n1Coeff p0 p1 p3 ((i : ℝ) * (5 / 999))) = (i : ℝ) * (5 / 999) := by
    intro i hi
    have := interp_node _ _ hsx hlen i (by rw [hlx]; exact hi)
    rw [hns, hts]
    rw [hxi i (by rw [hlx]; exact hi), ts_getElem] at this
    exact this
  have hrange : ∀ n, 0 ≤ interp c.n1s c.ts n ∧ interp c.n1s c.ts n ≤ 5 := by
    intro n
    have := interp_mem_range _ _ hsx' hst hlen (by rw [hlx]; norm_num) n
    rw [hns, hts]
    rw [ts_getElem, ts_getElem] at this
    simp only [hlt] at this
    norm_num at this
    exact this
  have hmon : Monotone (fun n => interp c.n1s c.ts n) := by
    intro a b hab
    simp only [hns, hts]
    exact interp_mono _ _ hsx' hst hlen (by rw [hlx]; norm_num) hab
  refine ⟨fun n => interp c.n1s c.ts n, fun n => rfl, fun a n => rfl, hrange, hmon, ?_, ?_, ?_, ?_⟩
  · intro i hi n hn
    rw [hN] at hn
    injection hn with hn
    subst hn
    exact hnode i hi
  · intro t ht0 ht5 n hn
    rw [hN] at hn
    injection hn with hn
    subst hn
    rcases ht5.eq_or_lt with h5 | h5
    · subst h5
      have := hnode 999 (by norm_num)
      norm_num at this ⊢
      rw [this]
      norm_num
    · -- the located interval
      obtain ⟨j, hj, hj1, hj2⟩ : ∃ j : ℕ, j + 1 < 1000 ∧ (j : ℝ) * (5 / 999) ≤ t ∧ t < ((j + 1 : ℕ) : ℝ) * (5 / 999) := by
        refine ⟨⌊t * (999 / 5)⌋₊, ?_, ?_, ?_⟩
        · have : ⌊t * (999 / 5)⌋₊ < 999 := by
            rw [Nat.floor_lt (by positivity)]
            push_cast; linarith
          omega
        · have := Nat.floor_le (a := t * (999 / 5)) (by positivity)
          linarith
        · have := Nat.lt_floor_add_one (t * (999 / 5))
          push_cast
          linarith
      have k1 := hmono.monotone hj1
      have k2 := hmono hj2
      have hint := interp_at_interval _ _ hsx hlen j (by rw [hlx]; exact hj) (n1Coeff p0 p1 p3 t)
        (by rw [hxi]; exact k1) (by rw [hxi]; exact k2)
      rw [hxi, hxi, ts_getElem, ts_getElem] at hint
      simp only [hns, hts]
      rw [hint]
      set a := (j : ℝ) * (5 / 999) with ha
      set b := ((j + 1 : ℕ) : ℝ) * (5 / 999) with hb
      have hab : b - a = 5 / 999 := by rw [ha, hb]; push_cast; ring
      have hlt2 := hmono (show a < b by linarith)
      have hd : 0 < n1Coeff p0 p1 p3 b - n1Coeff p0 p1 p3 a := by linarith
      constructor
      · -- convexity
        rcases hj1.eq_or_lt with he | hl
        · rw [← he]; simp
        · have hcv := (n1_convex (p0 := p0) (p1 := p1) (p3 := p3) h0).secant_mono_aux1
            (Set.mem_univ a) (Set.mem_univ b) hl hj2
          have : (b - a) * (n1Coeff p0 p1 p3 t - n1Coeff p0 p1 p3 a) ≤
              (t - a) * (n1Coeff p0 p1 p3 b - n1Coeff p0 p1 p3 a) := by nlinarith
          have h3 : (b - a) / (n1Coeff p0 p1 p3 b - n1Coeff p0 p1 p3 a) *
              (n1Coeff p0 p1 p3 t - n1Coeff p0 p1 p3 a) ≤ t - a := by
            rw [div_mul_eq_mul_div, div_le_iff₀ hd]; exact this
          linarith
      · have h4 : 0 ≤ (b - a) / (n1Coeff p0 p1 p3 b - n1Coeff p0 p1 p3 a) *
              (n1Coeff p0 p1 p3 t - n1Coeff p0 p1 p3 a) :=
          mul_nonneg (div_nonneg (by linarith) hd.le) (by linarith)
        linarith
  · intro n hn
    have h00 := hnode 0 (by norm_num)
    have hz : n1Coeff p0 p1 p3 (((0 : ℕ) : ℝ) * (5 / 999)) = 0 := by simp [n1Coeff]
    rw [hz] at h00
    have := hmon hn
    simp only [h00] at this
    have h2 := (hrange n).1
    simp only [Nat.cast_zero, zero_mul] at this
    exact le_antisymm this h2
  · intro t ht n hn
    rw [hN] at hn
    injection hn with hn
    subst hn
    have h999 := hnode 999 (by norm_num)
    have h5 : ((999 : ℕ) : ℝ) * (5 / 999) = 5 := by norm_num
    rw [h5] at h999
    have := hmon (hmono.monotone ht)
    simp only [h999] at this
    exact le_antisymm (hrange _).2 this

/-- **C69.** The curve drawn for a chronology has 1000 points with strictly increasing ages between 0 (linear axis) or
1e-9 (logarithmic axis) and 5 Ga, both ends included, each carrying the value of the function itself. -/
theorem C69_plotted_chronology (p : List ℝ) (c : Chron) (hc : Chronology.init p = .ok c) (linear phi : Bool) :
    ∃ t y, c.getplotdata phi linear = .ok (t, y) ∧ t.length = 1000 ∧ y.length = 1000 ∧ t.Pairwise (· < ·) ∧
      t[0]? = some (if linear then 0 else (10 : ℝ) ^ (-9 : ℝ)) ∧ t[999]? = some 5 ∧
      ∀ (i : ℕ) v x, t[i]? = some x → y[i]? = some v → (if phi then c.phi x else c.N1 x) = .ok v := by
  have h4 : 4 ≤ p.length := by
    by_contra h
    rw [(C14_construct p).1 (by omega)] at hc
    cases hc
  have e0 := List.getElem?_eq_getElem (l := p) (i := 0) (by omega)
  have e1 := List.getElem?_eq_getElem (l := p) (i := 1) (by omega)
  have e3 := List.getElem?_eq_getElem (l := p) (i := 3) (by omega)
  obtain ⟨hp, _, _⟩ := init_tables hc e0 e1 e3
  have e := coeffs_ok e0 e1 e3
  set f : ℝ → ℝ := fun x => if phi then phiCoeff p[0] p[1] p[3] x else n1Coeff p[0] p[1] p[3] x with hf
  have hfun : ∀ x, (if phi = true then c.phi x else c.N1 x) = .ok (f x) := by
    intro x
    simp only [hf, Chron.phi, Chron.N1, hp, e, except_ok_bind]
    split <;> rfl
  have hmap : ∀ l : List ℝ, l.mapM (fun x => if phi = true then c.phi x else c.N1 x) = Except.ok (l.map f) := by
    intro l
    simp only [hfun]
    induction l with
    | nil => rfl
    | cons x l ih => simp only [List.mapM_cons, ih, except_ok_bind, List.map_cons]; rfl
  have h59 : (-9 : ℝ) < log10 5 := by
    have : 0 < log10 5 := Real.logb_pos (by norm_num) (by norm_num)
    linarith
  simp only [Chron.getplotdata, hmap, except_ok_bind]
  refine ⟨_, _, rfl, ?_, ?_, ?_, ?_, ?_, ?_⟩
  · split <;> simp
  · split <;> simp
  · split
    · exact linspace_strictMono (by norm_num) _
    · exact (linspace_strictMono h59 _).map _ (fun _ _ h => pow10_lt.2 h)
  · split
    · rw [List.getElem?_eq_getElem (by simp), linspace_zero]
    · rw [List.getElem?_eq_getElem (by simp), List.getElem_map, linspace_zero]
  · split
    · rw [List.getElem?_eq_getElem (by simp)]
      exact congrArg some (linspace_last 0 5 1000 (by norm_num) (by simp))
    · rw [List.getElem?_eq_getElem (by simp), List.getElem_map]
      have := linspace_last (-9) (log10 5) 1000 (by norm_num) (by simp)
      rw [this, pow10_log10 (by norm_num)]
  · intro i v x hx hv
    rw [List.getElem?_map, hx] at hv
    rw [hfun]
    simpa using hv

/-- with the lunar coefficients -/
example : ∃ c, Chronology.init [5.44e-14, 6.93, 0, 8.38e-4] = .ok c := by
  obtain ⟨c, h, _⟩ := (C14_construct [5.44e-14, 6.93, 0, 8.38e-4]).2 (by simp)
  exact ⟨c, h⟩

end

end Verif.Props
