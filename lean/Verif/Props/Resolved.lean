import Mathlib.Analysis.SpecialFunctions.Stirling
import Mathlib.Analysis.Complex.ExponentialBounds
import Verif.Props.Likelihood

/-! C25: the likelihood is resolved by the grid for counts up to a million; larger areas of buffered counts. -/

namespace Verif.Props
open Verif.Cratercount Verif.Py Verif.Production Verif.Chronology Verif.Craterpdf

noncomputable section

attribute [local irreducible] linspace

/-- the largest Poisson probability -/
theorem poisson_peak (m : ℕ) (hm : 1 ≤ m) : 1 / (Real.exp 1 * Real.sqrt m) ≤ (m : ℝ) ^ m * Real.exp (-(m : ℝ)) / (m.factorial : ℝ) := by
  obtain ⟨j, rfl⟩ : ∃ j, m = j + 1 := ⟨m - 1, by omega⟩
  have hanti := Stirling.stirlingSeq'_antitone (Nat.zero_le j)
  simp only [Function.comp] at hanti
  change Stirling.stirlingSeq (j + 1) ≤ Stirling.stirlingSeq (0 + 1) at hanti
  rw [zero_add, Stirling.stirlingSeq_one] at hanti
  set m := j + 1 with hmm
  have hm0 : (0 : ℝ) < m := by rw [hmm]; positivity
  have hf : (0 : ℝ) < m.factorial := by positivity
  have h2 : (0 : ℝ) < Real.sqrt 2 := by positivity
  have hs : (0 : ℝ) < Real.sqrt m := Real.sqrt_pos.2 hm0
  have he : (0 : ℝ) < Real.exp 1 := Real.exp_pos 1
  unfold Stirling.stirlingSeq at hanti
  rw [Real.sqrt_mul (by norm_num), div_le_div_iff₀ (by positivity) h2] at hanti
  have hpow : ((m : ℝ) / Real.exp 1) ^ m = (m : ℝ) ^ m * Real.exp (-(m : ℝ)) := by
    rw [div_pow, ← Real.exp_nat_mul, mul_one, Real.exp_neg]
    rfl
  rw [hpow] at hanti
  rw [div_le_div_iff₀ (by positivity) hf, one_mul]
  have : (m.factorial : ℝ) * Real.sqrt 2 ≤ (m : ℝ) ^ m * Real.exp (-(m : ℝ)) * (Real.exp 1 * Real.sqrt m) * Real.sqrt 2 := by
    calc (m.factorial : ℝ) * Real.sqrt 2 ≤ Real.exp 1 * (Real.sqrt 2 * Real.sqrt m * ((m : ℝ) ^ m * Real.exp (-(m : ℝ)))) := hanti
      _ = _ := by ring
  exact le_of_mul_le_mul_right this h2

/-- close to the maximum -/
theorem poisson_near (m : ℕ) (hm : 1 ≤ m) {l : ℝ} (hl : 0 < l) {u : ℝ} (hu : Real.log (l / m) = -u) (h0 : 0 ≤ u) (h1 : u ≤ 1) :
    1 / (Real.exp 1 * Real.sqrt m) * Real.exp (-(m * u ^ 2)) ≤ l ^ m * Real.exp (-l) / (m.factorial : ℝ) := by
  have hm0 : (0 : ℝ) < m := by exact_mod_cast hm
  have hlm : l = m * Real.exp (-u) := by
    rw [← hu, Real.exp_log (by positivity)]
    field_simp
  have hexp := (abs_le.1 (Real.abs_exp_sub_one_sub_id_le (x := -u) (by rw [abs_neg, abs_of_nonneg h0]; exact h1))).2
  have hpow : l ^ m * Real.exp (-l) = (m : ℝ) ^ m * Real.exp (-(m : ℝ)) * Real.exp (m * (-u + 1 - Real.exp (-u))) := by
    have e1 : l ^ m = (m : ℝ) ^ m * Real.exp (m * (-u)) := by
      rw [hlm, mul_pow, ← Real.exp_nat_mul]
    rw [e1, mul_assoc, mul_assoc, ← Real.exp_add, ← Real.exp_add]
    congr 2
    rw [hlm]
    ring
  rw [hpow]
  have hle : Real.exp (-(m * u ^ 2)) ≤ Real.exp (m * (-u + 1 - Real.exp (-u))) := by
    apply Real.exp_le_exp.2
    have : -(u ^ 2) ≤ -u + 1 - Real.exp (-u) := by nlinarith
    nlinarith
  calc 1 / (Real.exp 1 * Real.sqrt m) * Real.exp (-(m * u ^ 2))
      ≤ (m : ℝ) ^ m * Real.exp (-(m : ℝ)) / (m.factorial : ℝ) * Real.exp (m * (-u + 1 - Real.exp (-u))) :=
        mul_le_mul (poisson_peak m hm) hle (Real.exp_pos _).le (by positivity)
    _ = _ := by ring

/-- the numbers: up to a million craters, neighbouring samples differing by a factor of at most 10^0.003001 -/
theorem poisson_grid (m : ℕ) (hm : 1 ≤ m) (hmax : m ≤ 1000000) {l : ℝ} (hl : 0 < l) {e : ℝ} (he : l * (10 : ℝ) ^ e = m) (h0 : 0 ≤ e)
    (h1 : e ≤ 0.003001) : (5e-25 : ℝ) ≤ l ^ m * Real.exp (-l) / (m.factorial : ℝ) := by
  have hm0 : (0 : ℝ) < m := by exact_mod_cast hm
  have hmx : (m : ℝ) ≤ 1000000 := by exact_mod_cast hmax
  have h10 : Real.log 10 < 2.302586 := by
    rw [Real.log_ten_eq]
    have := Real.log_two_lt_d9
    have := Real.log_five_lt_d9
    norm_num at *
    linarith
  have h10' : 0 < Real.log 10 := Real.log_pos (by norm_num)
  have hu : Real.log (l / m) = -(e * Real.log 10) := by
    rw [← he, div_mul_cancel_left₀ hl.ne', Real.log_inv, Real.log_rpow (by norm_num)]
  have hb : e * Real.log 10 ≤ 0.006911 := by
    calc e * Real.log 10 ≤ 0.003001 * 2.302586 := mul_le_mul h1 h10.le h10'.le (by norm_num)
      _ ≤ _ := by norm_num
  refine le_trans ?_ (poisson_near m hm hl hu (by positivity) (by linarith))
  set u := e * Real.log 10 with hudef
  have hu0 : 0 ≤ u := by positivity
  have hsq : m * u ^ 2 ≤ 48 := by
    calc (m : ℝ) * u ^ 2 ≤ 1000000 * 0.006911 ^ 2 := mul_le_mul hmx (pow_le_pow_left₀ hu0 hb 2) (by positivity) (by norm_num)
      _ ≤ 48 := by norm_num
  have hs : Real.sqrt m ≤ 1000 := by
    rw [show (1000 : ℝ) = Real.sqrt (1000 ^ 2) by rw [Real.sqrt_sq (by norm_num)]]
    exact Real.sqrt_le_sqrt (by linarith)
  have hs0 : 0 < Real.sqrt m := Real.sqrt_pos.2 hm0
  have hexp : (1 : ℝ) / 2.7182818286 ^ 48 ≤ Real.exp (-(m * u ^ 2)) := by
    have h48 : Real.exp 48 ≤ 2.7182818286 ^ 48 := by
      have := pow_le_pow_left₀ (Real.exp_pos 1).le Real.exp_one_lt_d9.le 48
      rwa [← Real.exp_nat_mul, mul_one] at this
    calc (1 : ℝ) / 2.7182818286 ^ 48 ≤ 1 / Real.exp 48 := one_div_le_one_div_of_le (Real.exp_pos _) h48
      _ = Real.exp (-48) := by rw [Real.exp_neg, one_div]
      _ ≤ _ := Real.exp_le_exp.2 (by linarith)
  have hfirst : (1 : ℝ) / (2.7182818286 * 1000) ≤ 1 / (Real.exp 1 * Real.sqrt m) :=
    one_div_le_one_div_of_le (by positivity) (mul_le_mul Real.exp_one_lt_d9.le hs hs0.le (by norm_num))
  calc (5e-25 : ℝ) ≤ 1 / (2.7182818286 * 1000) * (1 / 2.7182818286 ^ 48) := by norm_num
    _ ≤ _ := mul_le_mul hfirst hexp (by positivity) (by positivity)

/-- **The likelihood is resolved** (no artificial peak) if there are at least 5000 samples (the default), at most a million craters, a linear
coefficient of the chronology function of at least 0.0001 (all functions of config/functions.txt), and if the number of craters is one of those
expected between the ends of the grid. -/
theorem C25_resolved (pf : PFn) (c : Chron) (simpson : Simpson) (cc : Source) (lo hi : ℝ) (k : Option ℝ) (bcc : Bool)
    (n : ℕ) (p0 p1 p3 : ℝ) (hc : GoodChron c p0 p1 p3) (p : Pdf) (h : Craterpdf.init pf c simpson cc lo hi k none bcc n = .ok p) (m : ℕ)
    (hn : 5000 ≤ n) (hp3 : 0.0001 ≤ p3) (hmax : m ≤ 1000000) (hfirst : ∀ l ∈ p.lam.head?, l ≤ max (m : ℝ) 1)
    (hlast : ∀ l ∈ p.lam.getLast?, (m : ℝ) ≤ l) : 1e-30 ≤ rawMass p0 p1 p3 m p := by
  obtain ⟨a0, s, pm, ph, w, b⟩ := built h
  obtain ⟨t1, _, _⟩ := b.ts_props hc
  obtain ⟨_, _, dl, _⟩ := b.props hc
  obtain ⟨l1, l2⟩ := b.lam_props hc
  obtain ⟨K, hK⟩ := lams_form b.lam_eq
  obtain ⟨q, hq, _, _, _, g0, g1, g3⟩ := id hc
  have hphi : ∀ t, p3 ≤ phiCoeff p0 p1 p3 t := by
    intro t
    unfold phiCoeff
    have : 0 ≤ p1 * p0 * Real.exp (p1 * t) := by positivity
    linarith
  set L := List.zipWith (fun l t => l ^ m * Real.exp (-l) / (m.factorial : ℝ) * phiCoeff p0 p1 p3 t) p.lam p.ts with hL
  have hLl : L.length = n := by rw [hL, List.length_zipWith, dl, t1, min_self]
  have hget : ∀ i (hi : i < n), L[i]'(by rw [hLl]; exact hi) = p.lam[i]'(by rw [dl]; exact hi) ^ m * Real.exp (-(p.lam[i]'(by rw [dl]; exact hi))) /
      (m.factorial : ℝ) * phiCoeff p0 p1 p3 (p.ts[i]'(by rw [t1]; exact hi)) := by
    intro i hi
    simp only [hL, List.getElem_zipWith]
  have hnn : ∀ x ∈ L, 0 ≤ x := by
    intro x hx
    obtain ⟨i, hi, rfl⟩ := List.getElem_of_mem hx
    rw [hLl] at hi
    rw [hget i hi]
    have := l1 i (by rw [dl]; exact hi)
    have := hphi (p.ts[i]'(by rw [t1]; exact hi))
    have : 0 ≤ phiCoeff p0 p1 p3 (p.ts[i]'(by rw [t1]; exact hi)) := by linarith
    positivity
  have hbound : ∀ i (hi : i < n), (5e-25 : ℝ) ≤ p.lam[i]'(by rw [dl]; exact hi) ^ m * Real.exp (-(p.lam[i]'(by rw [dl]; exact hi))) /
      (m.factorial : ℝ) → (1e-30 : ℝ) ≤ L.sum := by
    intro i hi hle
    have hmem : L[i]'(by rw [hLl]; exact hi) ∈ L := List.getElem_mem _
    have hsum := List.single_le_sum hnn _ hmem
    rw [hget i hi] at hsum
    refine le_trans ?_ hsum
    calc (1e-30 : ℝ) ≤ 5e-25 * 0.0001 := by norm_num
      _ ≤ _ := mul_le_mul hle (hp3.trans (hphi _)) (by norm_num) (by linarith)
  have hn0 : 0 < n := by omega
  have e0 : p.lam[0]'(by rw [dl]; exact hn0) ≤ max (m : ℝ) 1 := hfirst _ (by rw [List.head?_eq_getElem?, List.getElem?_eq_getElem]; rfl)
  have e1 : (m : ℝ) ≤ p.lam[n - 1]'(by rw [dl]; omega) := hlast _ (by
    rw [List.getLast?_eq_getElem?, show p.lam.length - 1 = n - 1 by rw [dl]]
    exact List.getElem?_eq_getElem _)
  show (1e-30 : ℝ) ≤ L.sum
  rcases Nat.eq_zero_or_pos m with hm | hm
  · refine hbound 0 hn0 ?_
    have e0' : p.lam[0]'(by rw [dl]; exact hn0) ≤ 1 := by
      refine e0.trans (le_of_eq ?_)
      rw [hm]
      norm_num
    rw [hm, pow_zero, Nat.factorial_zero, Nat.cast_one, div_one, one_mul]
    have h1 : Real.exp (-1) ≤ Real.exp (-(p.lam[0]'(by rw [dl]; exact hn0))) := Real.exp_le_exp.2 (by linarith)
    have h2 : (1 : ℝ) / 3 ≤ Real.exp (-1) := by
      rw [Real.exp_neg, ← one_div]
      exact one_div_le_one_div_of_le (Real.exp_pos 1) Real.exp_one_lt_three.le
    have h3 : (5e-25 : ℝ) ≤ 1 / 3 := by norm_num
    linarith
  · have hm1 : (1 : ℝ) ≤ m := by exact_mod_cast hm
    rw [max_eq_left hm1] at e0
    have hlam : ∀ i (hi : i < n), p.lam[i]'(by rw [dl]; exact hi) = (10 : ℝ) ^ (-10 + (i : ℝ) * ((5 - -10) / ((n : ℝ) - 1))) * K := by
      intro i hi
      simp only [hK, List.getElem_map]
      rw [linspace_getElem]
    have hKpos : 0 < K := by
      have h1 := e1
      rw [hlam (n - 1) (by omega)] at h1
      by_contra hneg
      have h2 : (10 : ℝ) ^ (-10 + ((n - 1 : ℕ) : ℝ) * ((5 - -10) / ((n : ℝ) - 1))) * K ≤ 0 :=
        mul_nonpos_of_nonneg_of_nonpos (pow10_pos _).le (not_lt.1 hneg)
      linarith
    classical
    let P : ℕ → Prop := fun i => p.lam.getD i 0 ≤ m
    have hP0 : P 0 := by
      show p.lam.getD 0 0 ≤ m
      rw [List.getD_eq_getElem _ _ (by rw [dl]; exact hn0)]
      exact e0
    set i := Nat.findGreatest P (n - 1) with hidef
    have hi : i ≤ n - 1 := Nat.findGreatest_le _
    have hin : i < n := by omega
    have hPi : P i := Nat.findGreatest_spec (Nat.zero_le _) hP0
    have hle : p.lam[i]'(by rw [dl]; exact hin) ≤ m := by
      have : p.lam.getD i 0 ≤ m := hPi
      rwa [List.getD_eq_getElem _ _ (by rw [dl]; exact hin)] at this
    set l := p.lam[i]'(by rw [dl]; exact hin) with hldef
    have hlpos : 0 < l := by
      rw [hldef, hlam i hin]
      exact mul_pos (pow10_pos _) hKpos
    have hn1 : (4999 : ℝ) ≤ (n : ℝ) - 1 := by
      have : (5000 : ℝ) ≤ n := by exact_mod_cast hn
      linarith
    have hupper : (m : ℝ) ≤ l * (10 : ℝ) ^ (0.003001 : ℝ) := by
      rcases hi.lt_or_eq with hlt | heq
      · have hnot : ¬P (i + 1) := fun hp' => by
          have := Nat.le_findGreatest (P := P) (n := n - 1) (by omega : i + 1 ≤ n - 1) hp'
          omega
        have hgt : (m : ℝ) < p.lam[i + 1]'(by rw [dl]; omega) := by
          have : ¬ p.lam.getD (i + 1) 0 ≤ m := hnot
          rw [List.getD_eq_getElem _ _ (by rw [dl]; omega)] at this
          exact not_le.1 this
        refine hgt.le.trans ?_
        rw [hldef, hlam i hin, hlam (i + 1) (by omega)]
        have hstep : (10 : ℝ) ^ (-10 + ((i + 1 : ℕ) : ℝ) * ((5 - -10) / ((n : ℝ) - 1))) ≤
            (10 : ℝ) ^ (-10 + (i : ℝ) * ((5 - -10) / ((n : ℝ) - 1))) * (10 : ℝ) ^ (0.003001 : ℝ) := by
          rw [← pow10_add]
          apply pow10_le.2
          have : (5 - -10 : ℝ) / ((n : ℝ) - 1) ≤ 0.003001 := by
            rw [div_le_iff₀ (by linarith)]
            norm_num
            linarith
          push_cast
          linarith
        calc _ ≤ (10 : ℝ) ^ (-10 + (i : ℝ) * ((5 - -10) / ((n : ℝ) - 1))) * (10 : ℝ) ^ (0.003001 : ℝ) * K :=
              mul_le_mul_of_nonneg_right hstep hKpos.le
          _ = _ := by ring
      · have : (m : ℝ) ≤ l := by
          rw [hldef]
          simpa [heq] using e1
        refine this.trans (le_mul_of_one_le_right hlpos.le (Real.one_le_rpow (by norm_num) (by norm_num)))
    refine hbound i hin ?_
    have hratio : 0 < (m : ℝ) / l := by positivity
    refine poisson_grid m hm hmax hlpos (e := log10 ((m : ℝ) / l)) ?_ ?_ ?_
    · rw [pow10_log10 hratio, mul_comm, div_mul_cancel₀ _ hlpos.ne']
    · rw [← log10_one]
      exact (log10_le one_pos hratio).2 ((one_le_div hlpos).2 hle)
    · have : log10 ((m : ℝ) / l) ≤ log10 ((10 : ℝ) ^ (0.003001 : ℝ)) :=
        (log10_le hratio (pow10_pos _)).2 (by rw [div_le_iff₀ hlpos, mul_comm]; exact hupper)
      rwa [log10_pow10] at this

/-- a larger expected number at the same count -/
theorem t_le_of_expected (pf : PFn) (c : Chron) (simpson : Simpson) (cc cc' : Source) (lo hi : ℝ)
    (k k' : Option ℝ) (bcc : Bool) (n : ℕ) (p0 p1 p3 : ℝ) (hc : GoodChron c p0 p1 p3) (p p' : Pdf)
    (h : Craterpdf.init pf c simpson cc lo hi k none bcc n = .ok p)
    (h' : Craterpdf.init pf c simpson cc' lo hi k' none bcc n = .ok p') (m : ℕ) (hm : p.k = m) (hm' : p'.k = m)
    (hraw : 1e-30 ≤ rawMass p0 p1 p3 m p) (hraw' : 1e-30 ≤ rawMass p0 p1 p3 m p') {K K' : ℝ} (hK0 : 0 ≤ K) (hK' : 0 < K') (hKK : K ≤ K')
    (e1 : p.lam = (linspace (-10 : ℝ) 5 n).map (fun e => (10 : ℝ) ^ e * K))
    (e2 : p'.lam = (linspace (-10 : ℝ) 5 n).map (fun e => (10 : ℝ) ^ e * K')) (q : ℝ) : p'.t q ≤ p.t q := by
  obtain ⟨_, _, _, c4, _, _, _, _, _, _, c7, _, _⟩ := C23_likelihood pf c simpson cc lo hi k bcc n p0 p1 p3 hc p h
  obtain ⟨_, _, _, c4', _, _, _, _, _, _, c7', _, _⟩ := C23_likelihood pf c simpson cc' lo hi k' bcc n p0 p1 p3 hc p' h'
  obtain ⟨a0, s, pm, ph, w, b⟩ := built h
  obtain ⟨a0', s', pm', ph', w', b'⟩ := built h'
  have W := b.weight hc m hm hraw
  have W' := b'.weight hc m hm' hraw'
  clear hraw hraw'
  have ea : a0' = a0 := by
    have := b.a0_ok.symm.trans b'.a0_ok
    injection this with this
    exact this.symm
  subst ea
  have ets : p'.ts = p.ts := by rw [b.ts_eq, b'.ts_eq]
  have edt : p'.dt = p.dt := by
    have := b'.dt_eq
    rw [ets, b.dt_eq] at this
    injection this with this
    exact this.symm
  obtain ⟨t1, t2, _⟩ := b.ts_props hc
  obtain ⟨hn, d1, dl, _, _, d2, d3, d4, d5, d6, d7, _⟩ := b.props hc
  obtain ⟨_, d1', dl', _, _, d2', _, _, d5', d6', d7', _⟩ := b'.props hc
  obtain ⟨l1, l2⟩ := b.lam_props hc
  have hl : ∀ i (hi : i < n), p.lam.getD i 0 = (10 : ℝ) ^ ((linspace (-10 : ℝ) 5 n)[i]'(by simp; exact hi)) * K ∧
      p'.lam.getD i 0 = (10 : ℝ) ^ ((linspace (-10 : ℝ) 5 n)[i]'(by simp; exact hi)) * K' := by
    intro i hi
    rw [List.getD_eq_getElem _ _ (by rw [dl]; exact hi), List.getD_eq_getElem _ _ (by rw [dl']; exact hi)]
    simp only [e1, e2, List.getElem_map, and_self]
  have hn0 : 0 < n := lt_of_lt_of_le two_pos hn
  have hsum := (b.cdf_get hc 0 (by rw [c4]; exact hn0)).2
  have hsum' := (b'.cdf_get hc 0 (by rw [c4']; exact hn0)).2
  refine t_le_of_ratio p' p n (fun i => w'.getD i 0 * p'.dt.getD i 0) (fun i => w.getD i 0 * p.dt.getD i 0)
    (fun i => (K / K') ^ m * Real.exp (p'.lam.getD i 0 - p.lam.getD i 0)) s' s d7' d7 ets.symm
    (by rw [ets]; exact t2) (by rw [ets]; exact t1) hn0
    c7' c7 c4' c4 (fun j hj => (b'.cdf_get hc j hj).1) (fun j hj => (b.cdf_get hc j hj).1)
    hsum' hsum ?_ ?_ ?_ q
  · intro i hi
    have g1 : i < w'.length := by rw [d2']; exact hi
    have g2 : i < p'.dt.length := by rw [d1']; exact hi
    rw [List.getD_eq_getElem _ _ g1, List.getD_eq_getElem _ _ g2]
    exact mul_nonneg (d6' _ (List.getElem_mem _)) (d5' _ (List.getElem_mem _))
  · intro i hi
    rw [W i hi, W' i hi, ets, edt]
    have hexp : Real.exp (-(p.lam.getD i 0)) = Real.exp (-(p'.lam.getD i 0)) * Real.exp (p'.lam.getD i 0 - p.lam.getD i 0) := by
      rw [← Real.exp_add]; congr 1; ring
    have hpow : p.lam.getD i 0 ^ m = p'.lam.getD i 0 ^ m * (K / K') ^ m := by
      rw [← mul_pow, (hl i hi).1, (hl i hi).2]
      congr 1
      rw [mul_assoc, mul_div_cancel₀ _ hK'.ne']
    rw [hexp, hpow]
    ring
  · intro i j hij hj
    apply mul_le_mul_of_nonneg_left _ (by positivity)
    apply Real.exp_le_exp.2
    have hi := lt_of_le_of_lt hij hj
    have li : i < (linspace (-10 : ℝ) 5 n).length := by rw [linspace_length]; exact hi
    have lj : j < (linspace (-10 : ℝ) 5 n).length := by rw [linspace_length]; exact hj
    rw [(hl i hi).1, (hl i hi).2, (hl j hj).1, (hl j hj).2]
    have hx : (10 : ℝ) ^ ((linspace (-10 : ℝ) 5 n)[i]'li) ≤ (10 : ℝ) ^ ((linspace (-10 : ℝ) 5 n)[j]'lj) :=
      pow10_le.2 (getElem_mono (linspace_mono n (by norm_num)) hij lj)
    have hk : 0 ≤ K' - K := sub_nonneg.2 hKK
    have := mul_le_mul_of_nonneg_right hx hk
    linarith


/-- **C25, count.** With the same functions, range, area and perimeter, a larger crater count never gives a smaller age at any percentile, for
counts up to a million which are expected for ages within the grid. -/
theorem C25_more_craters (pf : PFn) (c : Chron) (simpson : Simpson) (cc cc' : Source) (lo hi : ℝ)
    (k k' : Option ℝ) (bcc : Bool) (n : ℕ) (p0 p1 p3 : ℝ) (hc : GoodChron c p0 p1 p3) (p p' : Pdf)
    (ha : cc.area = cc'.area) (hper : cc.perimeter = cc'.perimeter)
    (h : Craterpdf.init pf c simpson cc lo hi k none bcc n = .ok p)
    (h' : Craterpdf.init pf c simpson cc' lo hi k' none bcc n = .ok p') (m m' : ℕ) (hm : p.k = m) (hm' : p'.k = m')
    (hmm : m ≤ m') (hn : 5000 ≤ n) (hp3 : 0.0001 ≤ p3) (hmax : m' ≤ 1000000) (hfirst : ∀ l ∈ p.lam.head?, l ≤ max (m : ℝ) 1)
    (hlast : ∀ l ∈ p.lam.getLast?, (m' : ℝ) ≤ l) (q : ℝ) : p.t q ≤ p'.t q := by
  have hmr : (m : ℝ) ≤ m' := by exact_mod_cast hmm
  have elam : p'.lam = p.lam := by
    obtain ⟨a0, s, pm, ph, w, b⟩ := built h
    obtain ⟨a0', s', pm', ph', w', b'⟩ := built h'
    have ea : a0' = a0 := by
      have := b.a0_ok.symm.trans b'.a0_ok
      injection this with this
      exact this.symm
    subst ea
    have := b'.lam_eq
    rw [← lams_congr ha hper, b.lam_eq] at this
    injection this with this
    exact this.symm
  exact C25_more_craters_partial pf c simpson cc cc' lo hi k k' bcc n p0 p1 p3 hc p p' ha hper h h' m m' hm hm' hmm
    (C25_resolved pf c simpson cc lo hi k bcc n p0 p1 p3 hc p h m hn hp3 (hmm.trans hmax) hfirst (fun l hl => hmr.trans (hlast l hl)))
    (C25_resolved pf c simpson cc' lo hi k' bcc n p0 p1 p3 hc p' h' m' hn hp3 hmax
      (fun l hl => (hfirst l (elam ▸ hl)).trans (max_le_max hmr le_rfl)) (fun l hl => hlast l (elam ▸ hl))) q

/-- **C25, area, standard count.** -/
theorem C25_more_area (pf : PFn) (c : Chron) (simpson : Simpson) (cc cc' : Source) (lo hi : ℝ)
    (k k' : Option ℝ) (n : ℕ) (p0 p1 p3 : ℝ) (hc : GoodChron c p0 p1 p3) (p p' : Pdf)
    (ha0 : 0 < cc.area) (ha : cc.area ≤ cc'.area)
    (h : Craterpdf.init pf c simpson cc lo hi k none false n = .ok p)
    (h' : Craterpdf.init pf c simpson cc' lo hi k' none false n = .ok p') (m : ℕ) (hm : p.k = m) (hm' : p'.k = m)
    (hn : 5000 ≤ n) (hp3 : 0.0001 ≤ p3) (hmax : m ≤ 1000000) (hfirst : ∀ l ∈ p'.lam.head?, l ≤ max (m : ℝ) 1)
    (hlast : ∀ l ∈ p.lam.getLast?, (m : ℝ) ≤ l) (hfirst' : ∀ l ∈ p.lam.head?, l ≤ max (m : ℝ) 1) (hlast' : ∀ l ∈ p'.lam.getLast?, (m : ℝ) ≤ l)
    (q : ℝ) : p'.t q ≤ p.t q :=
  C25_more_area_partial pf c simpson cc cc' lo hi k k' n p0 p1 p3 hc p p' ha0 ha h h' m hm hm'
    (C25_resolved pf c simpson cc lo hi k false n p0 p1 p3 hc p h m hn hp3 hmax hfirst' hlast)
    (C25_resolved pf c simpson cc' lo hi k' false n p0 p1 p3 hc p' h' m hn hp3 hmax hfirst hlast') q

/-- **C25, area, buffered count.** With the same count, a larger counting area or perimeter never gives a larger age at any percentile.  Assumed:
Simpson's rule gives no smaller value for values which are nowhere smaller, and the production function is not increasing within the range. -/
theorem C25_more_area_buffered (pf : PFn) (c : Chron) (simpson : Simpson) (cc cc' : Source) (lo hi per per' : ℝ)
    (k k' : Option ℝ) (n : ℕ) (p0 p1 p3 : ℝ) (hc : GoodChron c p0 p1 p3) (p p' : Pdf)
    (hper : cc.perimeter = some per) (hper' : cc'.perimeter = some per') (ha : cc.area ≤ cc'.area) (hpp : per ≤ per') (hlo : 0 < lo) (hhi : lo ≤ hi)
    (hs : ∀ y y' d : List ℝ, List.Forall₂ (· ≤ ·) y y' → simpson y d ≤ simpson y' d)
    (hF : ∀ d a0 f, lo ≤ d → d ≤ hi → pf.F d a0 = .ok f → 0 ≤ f)
    (h : Craterpdf.init pf c simpson cc lo hi k none true n = .ok p)
    (h' : Craterpdf.init pf c simpson cc' lo hi k' none true n = .ok p') (m : ℕ) (hm : p.k = m) (hm' : p'.k = m)
    (hn : 5000 ≤ n) (hp3 : 0.0001 ≤ p3) (hmax : m ≤ 1000000) (hfirst : ∀ l ∈ p'.lam.head?, l ≤ max (m : ℝ) 1)
    (hlast : ∀ l ∈ p.lam.getLast?, (m : ℝ) ≤ l) (hfirst' : ∀ l ∈ p.lam.head?, l ≤ max (m : ℝ) 1) (hlast' : ∀ l ∈ p'.lam.getLast?, (m : ℝ) ≤ l)
    (q : ℝ) : p'.t q ≤ p.t q := by
  have hraw := C25_resolved pf c simpson cc lo hi k true n p0 p1 p3 hc p h m hn hp3 hmax hfirst' hlast
  have hraw' := C25_resolved pf c simpson cc' lo hi k' true n p0 p1 p3 hc p' h' m hn hp3 hmax hfirst hlast'
  obtain ⟨a0, s, pm, ph, w, b⟩ := built h
  obtain ⟨a0', s', pm', ph', w', b'⟩ := built h'
  have ea : a0' = a0 := by
    have := b.a0_ok.symm.trans b'.a0_ok
    injection this with this
    exact this.symm
  subst ea
  have hl := b.lam_eq
  have hl' := b'.lam_eq
  unfold lams at hl hl'
  rw [if_pos rfl, hper] at hl
  rw [if_pos rfl, hper'] at hl'
  obtain ⟨f, hf, hl⟩ := except_bind_eq_ok hl
  obtain ⟨f', hf', hl'⟩ := except_bind_eq_ok hl'
  rw [hf] at hf'
  cases hf'
  dsimp only at hl hl'
  obtain ⟨v, hv, hl⟩ := except_bind_eq_ok hl
  obtain ⟨v', hv', hl'⟩ := except_bind_eq_ok hl'
  obtain ⟨q0, rfl⟩ := log10E_ok.1 hv
  obtain ⟨q0', rfl⟩ := log10E_ok.1 hv'
  injection hl with hl
  injection hl' with hl'
  have hmono : simpson (List.zipWith (fun e f => (cc.area + e * per / 2 + Real.pi * e ^ 2 / 4) * f) (linspace lo hi 500) f) (linspace lo hi 500) ≤
      simpson (List.zipWith (fun e f => (cc'.area + e * per' / 2 + Real.pi * e ^ 2 / 4) * f) (linspace lo hi 500) f) (linspace lo hi 500) := by
    apply hs
    have hd : ∀ e ∈ linspace lo hi 500, lo ≤ e ∧ e ≤ hi := by
      intro e he
      have := linspace_mem 500 (by norm_num) he
      rwa [min_eq_left hhi, max_eq_right hhi] at this
    obtain ⟨m1, m2⟩ := mapM_length hf
    rw [List.forall₂_iff_get]
    refine ⟨by rw [List.length_zipWith, List.length_zipWith], ?_⟩
    intro i h1 h2
    rw [List.length_zipWith] at h1
    simp only [List.get_eq_getElem, List.getElem_zipWith]
    have hi1 : i < (linspace lo hi 500).length := lt_of_lt_of_le h1 (min_le_left _ _)
    have hi2 : i < f.length := lt_of_lt_of_le h1 (min_le_right _ _)
    obtain ⟨z1, z2⟩ := hd _ (List.getElem_mem hi1)
    have hfn := hF _ _ _ z1 z2 (m2 i hi1 hi2)
    apply mul_le_mul_of_nonneg_right _ hfn
    have : (linspace lo hi 500)[i] * per ≤ (linspace lo hi 500)[i] * per' := mul_le_mul_of_nonneg_left hpp (by linarith)
    linarith
  refine t_le_of_expected pf c simpson cc cc' lo hi k k' true n p0 p1 p3 hc p p' h h' m hm hm' hraw hraw' q0.le q0' hmono ?_ ?_ q
  · rw [← hl]
    apply List.map_congr_left
    intro e _
    rw [pow10_add, pow10_log10 q0, mul_comm]
  · rw [← hl']
    apply List.map_congr_left
    intro e _
    rw [pow10_add, pow10_log10 q0', mul_comm]

/-- the numbers of craters expected in `likelihood_example` -/
theorem example_lam (m : ℕ) (simpson : Simpson) (c : Chron) (p : Pdf) (hg : GoodChron c 0 0 1)
    (hp : Craterpdf.init (initPoly [0, -1] none) c simpson ⟨none, [], 10, none⟩ 1 2 (some (m : ℝ)) none false 5000 = .ok p) :
    p.lam = (linspace (-10 : ℝ) 5 5000).map (fun e => (10 : ℝ) ^ e * 5) := by
  obtain ⟨a0, s, pm, ph, w, b⟩ := built hp
  have hev : ∀ d : ℝ, 0 < d → (initPoly [0, -1] none).evaluate .cumulative d (some 0) = .ok (1 / d) := by
    intro x hx
    simp [PFn.evaluate, initPoly, PFn.C, polyC_eq hx, except_ok_bind, poly_cons, poly_nil, PFn.defaultA0, Real.rpow_neg,
      pow10_log10 hx]
  have ha0 : a0 = 0 := by
    rw [(b.a0_val hg).2]
    norm_num [n1Coeff, log10]
  subst ha0
  have hlam := b.lam_eq
  simp only [lams, Bool.false_eq_true, if_false, hev 1 one_pos, hev 2 two_pos, except_ok_bind,
    log10E_pos (show (0 : ℝ) < 1 / 1 by norm_num), log10E_pos (show (0 : ℝ) < 1 / 2 by norm_num)] at hlam
  injection hlam with hlam
  rw [← hlam]
  apply List.map_congr_left
  intro e _
  rw [pow10_add, pow10_add, pow10_log10 (by norm_num), pow10_log10 (by norm_num)]
  ring

/-- one and three craters: the hypotheses of C25 hold -/
example : ∃ c p p', Craterpdf.init (initPoly [0, -1] none) c (fun _ _ => 0) ⟨none, [], 10, none⟩ 1 2 (some ((1 : ℕ) : ℝ)) none false 5000 = .ok p ∧
    Craterpdf.init (initPoly [0, -1] none) c (fun _ _ => 0) ⟨none, [], 10, none⟩ 1 2 (some ((3 : ℕ) : ℝ)) none false 5000 = .ok p' ∧
    p.t 0.5 ≤ p'.t 0.5 := by
  obtain ⟨c, p, hc, hg, hp, hk, _⟩ := likelihood_example 5000 (by norm_num) 1 (by norm_num) (fun _ _ => 0)
  obtain ⟨c', p', hc', _, hp', hk', _⟩ := likelihood_example 5000 (by norm_num) 3 (by norm_num) (fun _ _ => 0)
  rw [hc] at hc'
  cases hc'
  have hl := example_lam 1 _ c p hg hp
  refine ⟨c, p, p', hp, hp', C25_more_craters _ c _ _ _ 1 2 _ _ false 5000 0 0 1 hg p p' rfl rfl hp hp' 1 3 hk hk' (by norm_num) le_rfl (by norm_num)
    (by norm_num) ?_ ?_ 0.5⟩
  · intro l h
    rw [hl, List.head?_map, Option.mem_def, Option.map_eq_some_iff] at h
    obtain ⟨e, he, rfl⟩ := h
    rw [List.head?_eq_getElem?, List.getElem?_eq_getElem (by rw [linspace_length]; norm_num), linspace_zero] at he
    cases he
    have : (10 : ℝ) ^ (-10 : ℝ) ≤ (10 : ℝ) ^ (-1 : ℝ) := pow10_le.2 (by norm_num)
    rw [Real.rpow_neg_one] at this
    norm_num at this ⊢
  · intro l h
    rw [hl, List.getLast?_map, Option.mem_def, Option.map_eq_some_iff] at h
    obtain ⟨e, he, rfl⟩ := h
    rw [List.getLast?_eq_getElem?, linspace_length, List.getElem?_eq_getElem (by rw [linspace_length]; norm_num), linspace_getElem] at he
    cases he
    have : (10 : ℝ) ^ (0 : ℝ) ≤ (10 : ℝ) ^ (-10 + ((5000 - 1 : ℕ) : ℝ) * ((5 - -10) / (((5000 : ℕ) : ℝ) - 1))) := pow10_le.2 (by norm_num)
    rw [Real.rpow_zero] at this
    push_cast at this ⊢
    linarith

end

end Verif.Props
