import Mathlib.Analysis.Complex.ExponentialBounds
import Verif.Props.Likelihood

/-! C25 is false where the likelihood is not resolved by the grid and an artificial peak is inserted. -/

namespace Verif.Props
open Verif.Cratercount Verif.Py Verif.Production Verif.Chronology Verif.Craterpdf

noncomputable section

/-- 62 craters would be seen with a probability above the threshold of the artificial peak, 61 with one below, where 200
are expected -/
theorem poisson_threshold :
    (200 : ℝ) ^ 61 * Real.exp (-200) / ((61).factorial : ℝ) < 9e-31 ∧
      1e-30 ≤ (200 : ℝ) ^ 62 * Real.exp (-200) / ((62).factorial : ℝ) := by
  have e : Real.exp (-200) = ((Real.exp 1) ^ 200)⁻¹ := by
    rw [Real.exp_neg, ← Real.exp_nat_mul]
    norm_num
  have h1 : (2.718 : ℝ) ^ 200 ≤ Real.exp 1 ^ 200 := pow_le_pow_left₀ (by norm_num) (by linarith [Real.exp_one_gt_d9]) _
  have h2 : Real.exp 1 ^ 200 ≤ (2.7183 : ℝ) ^ 200 := pow_le_pow_left₀ (by positivity) (by linarith [Real.exp_one_lt_d9]) _
  have hp : 0 < Real.exp 1 ^ 200 := by positivity
  rw [e]
  constructor
  · rw [← div_eq_mul_inv, div_div, div_lt_iff₀ (by positivity)]
    calc (200 : ℝ) ^ 61 < 9e-31 * ((2.718 : ℝ) ^ 200 * ((61).factorial : ℝ)) := by norm_num [Nat.factorial]
      _ ≤ _ := by gcongr
  · rw [← div_eq_mul_inv, div_div, le_div_iff₀ (by positivity)]
    calc (1e-30 : ℝ) * (Real.exp 1 ^ 200 * ((62).factorial : ℝ)) ≤ 1e-30 * ((2.7183 : ℝ) ^ 200 * ((62).factorial : ℝ)) := by
          gcongr
      _ ≤ (200 : ℝ) ^ 62 := by norm_num [Nat.factorial]

/-- the median of a likelihood given by two samples -/
theorem two_samples (p : Pdf) (t0 t1 u0 u1 d s : ℝ) (hts : p.ts = [t0, t1]) (hd : 0 < d) (hu0 : 0 ≤ u0) (hu1 : 0 < u1)
    (hle : u0 ≤ u1) (hs : s = (u0 + u1) * d) (hcdf : p.cdf = [u0 * d / s, (u0 * d + u1 * d) / s]) :
    p.t (1 / 2) = (t1 - t0) * ((1 - u0 / u1) / 2) + t0 := by
  have hs0 : u0 + u1 ≠ 0 := by positivity
  have e0 : u0 * d / s = u0 / (u0 + u1) := by rw [hs]; field_simp
  have e1 : (u0 * d + u1 * d) / s = 1 := by
    rw [hs, ← add_mul]
    exact div_self (mul_ne_zero hs0 hd.ne')
  have hj : searchsortedRight p.cdf (1 / 2) = 1 := by
    have h : u0 / (u0 + u1) ≤ 1 / 2 := by rw [div_le_div_iff₀ (by positivity) (by norm_num)]; linarith
    rw [hcdf, e0, e1, searchsortedRight, List.takeWhile_cons, if_pos (by simpa using h), List.takeWhile_cons,
      if_neg (by norm_num)]
    rfl
  unfold Pdf.t interp
  rw [hj, if_neg (by norm_num), if_neg (by rw [hcdf]; simp), hts, hcdf, e0, e1]
  simp only [List.getD_cons_zero, List.getD_cons_succ, Nat.sub_self]
  have h1 : 1 - u0 / (u0 + u1) = u1 / (u0 + u1) := by field_simp; ring
  rw [h1]
  field_simp
  ring

/-- **C25 is false** where the grid does not resolve the likelihood: 62 craters instead of 61, on the same area, in the
same range and with the same functions, give a smaller median age -/
theorem C25_more_craters_counterexample :
    ∃ (pf : PFn) (c : Chron) (simpson : Simpson) (cc : Source) (n : ℕ) (p p' : Pdf), GoodChron c 0 0 1 ∧
      Craterpdf.init pf c simpson cc 1 2 (some 61) none false n = .ok p ∧
      Craterpdf.init pf c simpson cc 1 2 (some 62) none false n = .ok p' ∧ p'.t (1 / 2) < p.t (1 / 2) := by
  obtain ⟨c, hc, _⟩ := (C14_construct [0, 0, 0, 1]).2 (by simp)
  have hg : GoodChron c 0 0 1 := ⟨_, hc, rfl, rfl, rfl, le_rfl, le_rfl, one_pos⟩
  have hN : c.a0 1 = .ok 0 := by
    simp only [Chron.a0, (Built.tables hg).2.1, except_ok_bind, n1Coeff]
    norm_num [log10]
  have hev : ∀ d : ℝ, 0 < d → (initPoly [0, -1] none).evaluate .cumulative d (some 0) = .ok (1 / d) := by
    intro x hx
    simp [PFn.evaluate, initPoly, PFn.C, polyC_eq hx, except_ok_bind, poly_cons, poly_nil, PFn.defaultA0, Real.rpow_neg,
      pow10_log10 hx]
  set simpson : Simpson := fun _ _ => 0
  set cc : Source := ⟨none, [], 4e-3, none⟩
  have hphi : ∀ t, phiCoeff 0 0 1 t = 1 := by intro t; simp [phiCoeff]
  -- everything about a likelihood with two samples
  have key : ∀ m : ℕ, m ≤ 200 → ∃ p s t0 t1 u0 u1, Craterpdf.init (initPoly [0, -1] none) c simpson cc 1 2 (some (m : ℝ)) none false 2 = .ok p ∧
      p.ts = [t0, t1] ∧ 0 < t1 - t0 ∧ s = (u0 + u1) * (t1 - t0) ∧
      p.cdf = [u0 * (t1 - t0) / s, (u0 * (t1 - t0) + u1 * (t1 - t0)) / s] ∧
      forcePeak [(2 / 10 ^ 13 : ℝ) ^ m * Real.exp (-(2 / 10 ^ 13)) / (m.factorial : ℝ),
        200 ^ m * Real.exp (-200) / (m.factorial : ℝ)] [2 / 10 ^ 13, 200] m = .ok [u0, u1] ∧
      t0 = interp c.n1s c.ts ((10 : ℝ) ^ (-10 : ℝ)) ∧ t1 = interp c.n1s c.ts ((10 : ℝ) ^ (5 : ℝ)) := by
    intro m hm
    obtain ⟨p, hp, _⟩ := C23_defined (initPoly [0, -1] none) c simpson cc 1 2 (some (m : ℝ)) 2 le_rfl 0 0 1 hg 0
      (1 / 1) (1 / 2) hN (hev 1 one_pos) (hev 2 two_pos) (by norm_num) (by norm_num) (by norm_num [cc]) m rfl (by
        have : (m : ℝ) ≤ 200 := by exact_mod_cast hm
        norm_num [cc]
        linarith)
    obtain ⟨a0, s, pm, ph, w, b⟩ := built hp
    obtain ⟨_, d1, dl, _, _, d2, _, d4, d5, d6, d7, _⟩ := b.props hg
    have hraw := b.raw hg m b.k_eq
    have ha0 : a0 = 0 := by
      rw [(b.a0_val hg).2]
      norm_num [n1Coeff, log10]
    subst ha0
    have hlin : linspace (-10 : ℝ) 5 2 = [-10, 5] := by norm_num [linspace, List.range_succ]
    have hlam := b.lam_eq
    simp only [lams, Bool.false_eq_true, if_false, hev 1 one_pos, hev 2 two_pos, except_ok_bind,
      log10E_pos (show (0 : ℝ) < 1 / 1 by norm_num), log10E_pos (show (0 : ℝ) < 1 / 2 by norm_num)] at hlam
    injection hlam with hlam
    have hlam' : p.lam = [2 / 10 ^ 13, 200] := by
      rw [← hlam, hlin]
      simp only [List.map_cons, List.map_nil, pow10_add, pow10_log10 (show (0 : ℝ) < 1 / 1 by norm_num),
        pow10_log10 (show (0 : ℝ) < 1 / 2 by norm_num)]
      have e1 : (10 : ℝ) ^ (-10 : ℝ) = 1 / 10 ^ 10 := by
        rw [Real.rpow_neg (by norm_num), show (10 : ℝ) = ((10 : ℕ) : ℝ) by norm_num, Real.rpow_natCast]
        norm_num
      have e2 : (10 : ℝ) ^ (5 : ℝ) = 10 ^ 5 := by
        rw [show (5 : ℝ) = ((5 : ℕ) : ℝ) by norm_num, Real.rpow_natCast]
      rw [e1, e2]
      norm_num [cc]
    have hts := b.ts_eq
    rw [hlin] at hts
    simp only [List.map_cons, List.map_nil, zero_add] at hts
    have hdt := b.dt_eq
    rw [hts] at hdt
    simp only [steps, List.tail_cons, List.zipWith_cons_cons, List.zipWith_nil_right] at hdt
    injection hdt with hdt
    obtain ⟨u0, u1, rfl⟩ : ∃ u0 u1, w = [u0, u1] := by
      match w, d2 with
      | [a, b], _ => exact ⟨a, b, rfl⟩
    have hs := b.s_eq
    rw [← hdt] at hs
    simp only [List.zipWith_cons_cons, List.zipWith_nil_right, List.sum_cons, List.sum_nil, add_zero] at hs
    rw [← hdt] at d5
    refine ⟨p, s, _, _, u0, u1, hp, hts, ?_, by rw [hs]; ring, ?_, ?_, rfl, rfl⟩
    · refine lt_of_le_of_ne (d5 _ (by simp)) fun h0 => b.s_ne ?_
      rw [hs, ← h0]; ring
    · rw [b.cdf_eq, b.pdf_eq, ← hdt]
      simp only [cumsum, List.map_cons, List.map_nil, List.zipWith_cons_cons, List.zipWith_nil_right, List.scanl_cons,
        List.scanl_nil, List.tail_cons, zero_add]
      congr 1
      · ring
      · congr 1; ring
    · have := b.w_eq
      have hk : countK (some (m : ℝ)) cc 1 2 = m := rfl
      rw [hraw, hlam', hts, b.k_eq, hk] at this
      simpa only [List.zipWith_cons_cons, List.zipWith_nil_right, hphi, mul_one] using this
  obtain ⟨p, s, t0, t1, u0, u1, hp, hts, hd, hs, hcdf, hw, rfl, rfl⟩ := key 61 (by norm_num)
  obtain ⟨p', s', t0', t1', u0', u1', hp', hts', hd', hs', hcdf', hw', rfl, rfl⟩ := key 62 (by norm_num)
  obtain ⟨hlow, hhigh⟩ := poisson_threshold
  set t0 := interp c.n1s c.ts ((10 : ℝ) ^ (-10 : ℝ))
  set t1 := interp c.n1s c.ts ((10 : ℝ) ^ (5 : ℝ))
  set E := Real.exp (-(2 / 10 ^ 13)) with hE
  have hE0 : 0 < E := Real.exp_pos _
  have hE1 : E ≤ 1 := by rw [hE]; exact Real.exp_le_one_iff.2 (by norm_num)
  set A : ℝ := (2 / 10 ^ 13 : ℝ) ^ 61 * E / ((61).factorial : ℝ) with hA
  set B : ℝ := 200 ^ 61 * Real.exp (-200) / ((61).factorial : ℝ) with hB
  have hA' : (2 / 10 ^ 13 : ℝ) ^ 62 * E / ((62).factorial : ℝ) = A * (2 / 10 ^ 13) / 62 := by
    rw [hA, Nat.factorial_succ 61, pow_succ]
    push_cast
    have : ((61).factorial : ℝ) ≠ 0 := by positivity
    field_simp
  have hB' : (200 : ℝ) ^ 62 * Real.exp (-200) / ((62).factorial : ℝ) = B * 200 / 62 := by
    rw [hB, Nat.factorial_succ 61, pow_succ]
    push_cast
    have : ((61).factorial : ℝ) ≠ 0 := by positivity
    field_simp
  have hA0 : 0 < A := by rw [hA]; positivity
  have hB0 : 0 < B := by rw [hB]; positivity
  have hA1 : A < 1e-31 := by
    rw [hA, div_lt_iff₀ (by positivity)]
    have hf : (1 : ℝ) ≤ ((61).factorial : ℝ) := by exact_mod_cast Nat.factorial_pos 61
    have h1 : (2 / 10 ^ 13 : ℝ) ^ 61 * E ≤ (2 / 10 ^ 13 : ℝ) ^ 61 * 1 := mul_le_mul_of_nonneg_left hE1 (by positivity)
    have h2 : (2 / 10 ^ 13 : ℝ) ^ 61 * 1 < 1e-31 := by norm_num
    linarith
  have hw1 : u0 = A ∧ u1 = 1 := by
    rw [forcePeak, if_pos (by simp only [List.sum_cons, List.sum_nil]; linarith)] at hw
    have : searchsorted [(2 / 10 ^ 13 : ℝ), 200] ((61 : ℕ) : ℝ) = 1 := by
      rw [searchsorted, List.takeWhile_cons, if_pos (by norm_num), List.takeWhile_cons, if_neg (by norm_num)]
      rfl
    rw [this, if_pos (by simp)] at hw
    injection hw with hw
    simp only [List.set_cons_succ, List.set_cons_zero, List.cons.injEq, and_true] at hw
    exact ⟨hw.1.symm, hw.2.symm⟩
  have hw2 : u0' = A * (2 / 10 ^ 13) / 62 ∧ u1' = B * 200 / 62 := by
    rw [hA', hB'] at hw'
    rw [hB'] at hhigh
    rw [forcePeak, if_neg (by
      simp only [List.sum_cons, List.sum_nil]
      have : 0 < A * (2 / 10 ^ 13) / 62 := by positivity
      linarith)] at hw'
    injection hw' with hw'
    simp only [List.cons.injEq, and_true] at hw'
    exact ⟨hw'.1.symm, hw'.2.symm⟩
  rw [hB'] at hhigh
  refine ⟨initPoly [0, -1] none, c, simpson, cc, 2, p, p', hg, ?_, ?_, ?_⟩
  · exact_mod_cast hp
  · exact_mod_cast hp'
  · rw [two_samples p t0 t1 u0 u1 _ s hts hd (by rw [hw1.1]; exact hA0.le) (by rw [hw1.2]; norm_num)
        (by rw [hw1.1, hw1.2]; linarith) hs hcdf,
      two_samples p' t0 t1 u0' u1' _ s' hts' hd' (by rw [hw2.1]; positivity) (by rw [hw2.2]; positivity)
        (by
          rw [hw2.1, hw2.2]
          have : A * (2 / 10 ^ 13) / 62 ≤ 1e-31 := by linarith
          linarith) hs' hcdf', hw1.1, hw1.2, hw2.1, hw2.2]
    have hr : A / 1 < A * (2 / 10 ^ 13) / 62 / (B * 200 / 62) := by
      rw [div_one, lt_div_iff₀ (by positivity)]
      have : B * 200 < 2 / 10 ^ 13 := by linarith
      have := mul_lt_mul_of_pos_left this hA0
      linarith
    have := mul_lt_mul_of_pos_left hr hd
    linarith

end

end Verif.Props
