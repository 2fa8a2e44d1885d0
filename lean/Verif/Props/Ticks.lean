import Verif.Model.Plotting
import Verif.Lemmas.Binning
import Verif.Props.Misc
import Mathlib.Algebra.Order.Archimedean.Basic

/-! C45, C71, C49: ticks and time axis. -/

namespace Verif.Props
open Verif.Cratercount Verif.Py Verif.Misc Verif.Plotting

noncomputable section

theorem niceFraction_spec {f : ℝ} (h1 : 1 ≤ f) (h10 : f < 10) :
    (niceFraction f = 1 ∨ niceFraction f = 2 ∨ niceFraction f = 5 ∨ niceFraction f = 10) ∧
    f ≤ (niceFraction f : ℝ) ∧ (niceFraction f : ℝ) ≤ 2.5 * f := by
  have h0 : (0 : ℝ) < f := by linarith
  rcases h1.eq_or_lt with e | e
  · subst e
    norm_num [niceFraction, searchsorted]
  · rcases le_or_gt f 2 with h2 | h2
    · have n2 : ¬ (2 < f) := not_lt.2 h2
      have : niceFraction f = 2 := by simp [niceFraction, searchsorted, h0, e, n2]
      rw [this]; refine ⟨by simp, by norm_num; linarith, by norm_num; linarith⟩
    · rcases le_or_gt f 5 with h5 | h5
      · have n5 : ¬ (5 < f) := not_lt.2 h5
        have : niceFraction f = 5 := by simp [niceFraction, searchsorted, h0, e, h2, n5]
        rw [this]; refine ⟨by simp, by norm_num; linarith, by norm_num; linarith⟩
      · have : niceFraction f = 10 := by simp [niceFraction, searchsorted, h0, e, h2, h5]
        rw [this]; refine ⟨by simp, by norm_num; linarith, by norm_num; linarith⟩

theorem floor_log10 {e : ℝ} (he : 0 < e) : (10 : ℝ) ^ ⌊log10 e⌋ ≤ e ∧ e < (10 : ℝ) ^ ⌊log10 e⌋ * 10 := by
  have h1 := Int.floor_le (log10 e)
  have h2 := Int.lt_floor_add_one (log10 e)
  have hp := pow10_log10 he
  constructor
  · calc (10 : ℝ) ^ ⌊log10 e⌋ = (10 : ℝ) ^ ((⌊log10 e⌋ : ℤ) : ℝ) := (Real.rpow_intCast _ _).symm
      _ ≤ (10 : ℝ) ^ log10 e := Real.rpow_le_rpow_of_exponent_le (by norm_num) h1
      _ = e := hp
  · calc e = (10 : ℝ) ^ log10 e := hp.symm
      _ < (10 : ℝ) ^ ((⌊log10 e⌋ : ℝ) + 1) := Real.rpow_lt_rpow_of_exponent_lt (by norm_num) h2
      _ = _ := by rw [Real.rpow_add (by norm_num), Real.rpow_intCast, Real.rpow_one]

/-- what one pass of the loop gives -/
structure PassOK (r0 r1 est : ℝ) (t : Ticks) : Prop where
  nice : t.nice = 1 ∨ t.nice = 2 ∨ t.nice = 5 ∨ t.nice = 10
  step : ∃ e : ℤ, t.step = t.nice * (10 : ℝ) ^ e
  pos : 0 < t.step
  lower : est ≤ t.step
  upper : t.step ≤ 2.5 * est
  first_le : t.first * t.step ≤ r0
  lt_first : r0 < (t.first + 1) * t.step
  le_last : r1 ≤ t.last * t.step
  last_lt : (t.last - 1) * t.step < r1
  lt : t.first < t.last

theorem pass_ok {r0 r1 : ℝ} (hr : r0 < r1) {m : ℕ} (hm : 2 ≤ m) {mu : ℝ} (hmu : 0 < mu) :
    PassOK r0 r1 ((r1 - r0) / (m * mu)) (ticksPass r0 r1 m mu) := by
  have hm0 : (0 : ℝ) < m := by exact_mod_cast (by omega : 0 < m)
  have he : 0 < (r1 - r0) / (m * mu) := div_pos (by linarith) (mul_pos hm0 hmu)
  set est := (r1 - r0) / (m * mu) with hest
  obtain ⟨f1, f2⟩ := floor_log10 he
  set P := (10 : ℝ) ^ ⌊log10 est⌋ with hP
  have hPp : 0 < P := by rw [hP]; positivity
  have g1 : 1 ≤ est / P := (one_le_div hPp).2 f1
  have g2 : est / P < 10 := (div_lt_iff₀ hPp).2 (by linarith)
  obtain ⟨n1, n2, n3⟩ := niceFraction_spec g1 g2
  have estep : (ticksPass r0 r1 m mu).step = (niceFraction (est / P) : ℝ) * P := rfl
  have enice : (ticksPass r0 r1 m mu).nice = niceFraction (est / P) := rfl
  have hsp : 0 < (ticksPass r0 r1 m mu).step := by
    rw [estep]; exact mul_pos (by linarith) hPp
  have ef : (ticksPass r0 r1 m mu).first = ⌊r0 / (ticksPass r0 r1 m mu).step⌋ := rfl
  have el : (ticksPass r0 r1 m mu).last = ⌈r1 / (ticksPass r0 r1 m mu).step⌉ := rfl
  refine ⟨by rw [enice]; exact n1, ⟨⌊log10 est⌋, rfl⟩, hsp, ?_, ?_, ?_, ?_, ?_, ?_, ?_⟩
  · rw [estep, ← div_le_iff₀ hPp]; exact n2
  · rw [estep]
    calc (niceFraction (est / P) : ℝ) * P ≤ 2.5 * (est / P) * P := mul_le_mul_of_nonneg_right n3 hPp.le
      _ = 2.5 * est := by field_simp
  · rw [ef, ← le_div_iff₀ hsp]; exact Int.floor_le _
  · rw [ef, ← div_lt_iff₀ hsp]; exact Int.lt_floor_add_one _
  · rw [el, ← div_le_iff₀ hsp]; exact Int.le_ceil _
  · rw [el, ← lt_div_iff₀ hsp]; have := Int.ceil_lt_add_one (r1 / (ticksPass r0 r1 m mu).step); linarith
  · rw [ef, el]
    have h1 := Int.floor_le (r0 / (ticksPass r0 r1 m mu).step)
    have h2 := Int.le_ceil (r1 / (ticksPass r0 r1 m mu).step)
    have h3 : r0 / (ticksPass r0 r1 m mu).step < r1 / (ticksPass r0 r1 m mu).step := by gcongr
    have : (⌊r0 / (ticksPass r0 r1 m mu).step⌋ : ℝ) < ⌈r1 / (ticksPass r0 r1 m mu).step⌉ := by linarith
    exact_mod_cast this

/-- the loop condition -/
def Fits (m : ℕ) (t : Ticks) : Prop := t.last - t.first + 1 ≤ m

theorem loop_some {r0 r1 : ℝ} {m : ℕ} (n : ℕ) : ∀ mu, Fits m (ticksPass r0 r1 m (mu * 0.9 ^ n)) →
    ∃ k, k ≤ n ∧ Fits m (ticksPass r0 r1 m (mu * 0.9 ^ k)) ∧ (∀ j < k, ¬ Fits m (ticksPass r0 r1 m (mu * 0.9 ^ j))) ∧
      ∀ fuel, n < fuel → ticksLoop r0 r1 m fuel mu = some (ticksPass r0 r1 m (mu * 0.9 ^ k)) := by
  induction n with
  | zero =>
    intro mu h
    refine ⟨0, le_rfl, h, by simp, ?_⟩
    intro fuel hf
    obtain ⟨f, rfl⟩ : ∃ f, fuel = f + 1 := ⟨fuel - 1, by omega⟩
    rw [pow_zero, mul_one] at h ⊢
    simp only [ticksLoop]
    exact if_pos h
  | succ n ih =>
    intro mu h
    by_cases h0 : Fits m (ticksPass r0 r1 m mu)
    · refine ⟨0, Nat.zero_le _, by rwa [pow_zero, mul_one], by simp, ?_⟩
      intro fuel hf
      obtain ⟨f, rfl⟩ : ∃ f, fuel = f + 1 := ⟨fuel - 1, by omega⟩
      rw [pow_zero, mul_one]
      simp only [ticksLoop]
      exact if_pos h0
    · obtain ⟨k, hk, k1, k2, k3⟩ := ih (mu * 0.9) (by rw [pow_succ'] at h; rwa [mul_assoc])
      have e : ∀ j : ℕ, mu * 0.9 * 0.9 ^ j = mu * 0.9 ^ (j + 1) := by intro j; rw [pow_succ']; ring
      refine ⟨k + 1, by omega, by rw [← e]; exact k1, ?_, ?_⟩
      · intro j hj
        cases j with
        | zero => rwa [pow_zero, mul_one]
        | succ j => rw [← e]; exact k2 j (by omega)
      · intro fuel hf
        obtain ⟨f, rfl⟩ : ∃ f, fuel = f + 1 := ⟨fuel - 1, by omega⟩
        simp only [ticksLoop]
        exact (if_neg h0).trans (by rw [k3 f (by omega), e])

theorem loop_none {r0 r1 : ℝ} {m : ℕ} (h : ∀ mu, 0 < mu → ¬ Fits m (ticksPass r0 r1 m mu)) (fuel : ℕ) :
    ∀ mu, 0 < mu → ticksLoop r0 r1 m fuel mu = none := by
  induction fuel with
  | zero => intro mu _; rfl
  | succ f ih =>
    intro mu hmu
    simp only [ticksLoop]
    exact (if_neg (h mu hmu)).trans (ih _ (by positivity))

/-- the loop ends, unless only two ticks are allowed for a range with 0 inside -/
theorem loop_ends {r0 r1 : ℝ} (hr : r0 < r1) {m : ℕ} (hm : 2 ≤ m) (h3 : 3 ≤ m ∨ ¬ (r0 < 0 ∧ 0 < r1)) :
    ∃ n : ℕ, Fits m (ticksPass r0 r1 m (1 * 0.9 ^ n)) := by
  have hm0 : (0 : ℝ) < m := by exact_mod_cast (by omega : 0 < m)
  set B := |r0| + |r1| + 1 with hB
  have hB0 : 0 < B := by positivity
  obtain ⟨n, hn⟩ := exists_pow_lt_of_lt_one (show 0 < (r1 - r0) / (m * B) from div_pos (by linarith) (by positivity))
    (show (0.9 : ℝ) < 1 by norm_num)
  refine ⟨n, ?_⟩
  have hpn : (0 : ℝ) < 0.9 ^ n := by positivity
  have p := pass_ok hr hm (mu := 1 * 0.9 ^ n) (by positivity)
  set t := ticksPass r0 r1 m (1 * 0.9 ^ n)
  have hstep : B < t.step := by
    refine lt_of_lt_of_le ?_ p.lower
    rw [lt_div_iff₀ (by positivity)]
    rw [lt_div_iff₀ (by positivity)] at hn
    nlinarith
  have a0 := abs_le.1 (show |r0| ≤ |r0| from le_rfl)
  have a1 := abs_le.1 (show |r1| ≤ |r1| from le_rfl)
  have n0 := abs_nonneg r0
  have n1 := abs_nonneg r1
  have hf1 : -1 ≤ t.first := by
    by_contra hc
    have : (t.first : ℝ) + 1 ≤ -1 := by exact_mod_cast (by omega : t.first + 1 ≤ -1)
    have h := p.lt_first
    nlinarith [p.pos]
  have hl1 : t.last ≤ 1 := by
    by_contra hc
    have : (1 : ℝ) ≤ t.last - 1 := by
      have : (2 : ℝ) ≤ t.last := by exact_mod_cast (by omega : 2 ≤ t.last)
      linarith
    have h := p.last_lt
    nlinarith [p.pos]
  unfold Fits
  rcases h3 with h3 | h3
  · have : (3 : ℤ) ≤ m := by exact_mod_cast h3
    omega
  · have hm2 : (2 : ℤ) ≤ m := by exact_mod_cast hm
    rcases le_or_gt 0 r0 with hp | hp
    · have : 0 ≤ t.first := by
        by_contra hc
        have : (t.first : ℝ) + 1 ≤ 0 := by exact_mod_cast (by omega : t.first + 1 ≤ 0)
        have h := p.lt_first
        nlinarith [p.pos]
      omega
    · have hr1 : r1 ≤ 0 := by
        by_contra hc
        exact h3 ⟨hp, not_le.1 hc⟩
      have : t.last ≤ 0 := by
        by_contra hc
        have : (0 : ℝ) ≤ t.last - 1 := by
          have : (1 : ℝ) ≤ t.last := by exact_mod_cast (by omega : 1 ≤ t.last)
          linarith
        have h := p.last_lt
        nlinarith [p.pos]
      omega

/-- the whole call -/
theorem ticks_ok (x : List ℝ) (r0 r1 : ℝ) (hx : Misc.range x false false = .pair r0 r1) (hr : r0 < r1)
    (maxTicks : Option ℕ) (h3 : 3 ≤ maxTicksOf maxTicks ∨ ¬ (r0 < 0 ∧ 0 < r1)) :
    ∃ (N k : ℕ) (t : Ticks), (∀ fuel, N < fuel → ticks fuel x maxTicks = some (.ok t)) ∧
      t = ticksPass r0 r1 (maxTicksOf maxTicks) (1 * 0.9 ^ k) ∧ Fits (maxTicksOf maxTicks) t ∧
      ∀ j < k, ¬ Fits (maxTicksOf maxTicks) (ticksPass r0 r1 (maxTicksOf maxTicks) (1 * 0.9 ^ j)) := by
  have hm : 2 ≤ maxTicksOf maxTicks := le_max_right _ _
  obtain ⟨N, hN⟩ := loop_ends hr hm h3
  obtain ⟨k, _, k1, k2, k3⟩ := loop_some N 1 hN
  refine ⟨N, k, _, ?_, rfl, k1, k2⟩
  intro fuel hf
  simp only [ticks, hx]
  rw [if_neg (by intro h; linarith), k3 fuel hf]
  rfl

/-- **C45 (partial: not for a limit of two ticks with zero strictly inside the range).** For every data vector whose
smallest and largest entries `r0 < r1` differ, the computation ends.  The ticks are consecutive whole multiples of a
step of 1, 2, 5 or 10 times a power of ten; there are at least two and at most the allowed number (5 if none is
given, never less than 2); the first is at or below `r0`, the last at or above `r1`, and no other tick could be dropped:
the second is above `r0`, the last but one below `r1`. -/
theorem C45_ticks_partial (x : List ℝ) (r0 r1 : ℝ) (hx : Misc.range x false false = .pair r0 r1) (hr : r0 < r1)
    (maxTicks : Option ℕ) (h3 : 3 ≤ maxTicksOf maxTicks ∨ ¬ (r0 < 0 ∧ 0 < r1)) :
    ∃ (N : ℕ) (t : Ticks), (∀ fuel, N < fuel → ticks fuel x maxTicks = some (.ok t)) ∧
      (∃ (c : ℕ) (e : ℤ), (c = 1 ∨ c = 2 ∨ c = 5 ∨ c = 10) ∧ t.step = c * (10 : ℝ) ^ e) ∧
      ∃ (z : ℤ) (n : ℕ), 2 ≤ n ∧ n ≤ maxTicksOf maxTicks ∧ t.values = (List.range n).map (fun i : ℕ => ((z : ℝ) + i) * t.step) ∧
        z * t.step ≤ r0 ∧ r0 < (z + 1) * t.step ∧ r1 ≤ (z + (n - 1 : ℕ)) * t.step ∧ (z + (n - 2 : ℕ)) * t.step < r1 := by
  obtain ⟨N, k, t, h1, h2, h4, _⟩ := ticks_ok x r0 r1 hx hr maxTicks h3
  have p := pass_ok (m := maxTicksOf maxTicks) hr (le_max_right _ _) (mu := 1 * 0.9 ^ k) (by positivity)
  rw [← h2] at p
  have hlt := p.lt
  have e1 : ((((t.last - t.first + 1).toNat - 1 : ℕ) : ℤ) : ℝ) = ((t.last - t.first : ℤ) : ℝ) := by
    congr 1; omega
  have e2 : ((((t.last - t.first + 1).toNat - 2 : ℕ) : ℤ) : ℝ) = ((t.last - t.first - 1 : ℤ) : ℝ) := by
    congr 1; omega
  refine ⟨N, t, h1, ?_, t.first, (t.last - t.first + 1).toNat, by omega, ?_, rfl, p.first_le, p.lt_first, ?_, ?_⟩
  · obtain ⟨e, he⟩ := p.step
    exact ⟨t.nice, e, p.nice, he⟩
  · unfold Fits at h4; omega
  · rw [← Int.cast_natCast (R := ℝ) ((t.last - t.first + 1).toNat - 1), e1]
    push_cast
    have := p.le_last
    rwa [add_sub_cancel]
  · rw [← Int.cast_natCast (R := ℝ) ((t.last - t.first + 1).toNat - 2), e2]
    push_cast
    have := p.last_lt
    convert this using 2
    ring

/-- **C45 is false of the code**: with at most two ticks allowed and zero strictly inside the range the loop never ends. -/
theorem C45_two_ticks_counterexample (x : List ℝ) (r0 r1 : ℝ) (hx : Misc.range x false false = .pair r0 r1)
    (h0 : r0 < 0) (h1 : 0 < r1) (maxTicks : ℕ) (hm : maxTicks = 1 ∨ maxTicks = 2) (fuel : ℕ) :
    ticks fuel x (some maxTicks) = none := by
  have hmt : maxTicksOf (some maxTicks) = 2 := by rcases hm with rfl | rfl <;> rfl
  simp only [ticks, hx, hmt]
  rw [if_neg (by intro h; linarith), loop_none ?_ fuel 1 one_pos]
  · rfl
  · intro mu hmu hf
    have p := pass_ok (h0.trans h1) (le_refl 2) hmu
    set t := ticksPass r0 r1 2 mu
    have hfirst : t.first ≤ -1 := by
      by_contra hc
      have : (0 : ℝ) ≤ t.first := by exact_mod_cast (by omega : 0 ≤ t.first)
      have := p.first_le
      nlinarith [p.pos]
    have hlast : 1 ≤ t.last := by
      by_contra hc
      have : (t.last : ℝ) ≤ 0 := by exact_mod_cast (by omega : t.last ≤ 0)
      have := p.le_last
      nlinarith [p.pos]
    unfold Fits at hf
    push_cast at hf
    omega

example : ∃ (N : ℕ) (t : Ticks), ∀ fuel, N < fuel → ticks fuel [3, -2, 7] (some 4) = some (.ok t) := by
  obtain ⟨N, t, h, _⟩ := C45_ticks_partial [3, -2, 7] (-2) 7 (by norm_num [Misc.range, minOf, maxOf]) (by norm_num) (some 4)
    (Or.inl (by norm_num [maxTicksOf]))
  exact ⟨N, t, h⟩

example (fuel : ℕ) : ticks fuel [3, -2, 7] (some 2) = none :=
  C45_two_ticks_counterexample _ (-2) 7 (by norm_num [Misc.range, minOf, maxOf]) (by norm_num) (by norm_num) 2 (Or.inr rfl) fuel

/-! ### minor ticks -/

theorem minor_spec (t : Ticks) (M c : ℕ) (h : minorTicks t M = .ok c) :
    (c = 1 ∨ c = 2 ∨ c = 4 ∨ c = 5 ∨ c = 10) ∧ (M : ℝ) / ((t.last - t.first : ℤ) : ℝ) ≤ c := by
  unfold minorTicks at h
  simp only at h
  generalize (M : ℝ) / ((t.last - t.first : ℤ) : ℝ) = b at h ⊢
  have main : ∀ a : ℕ, a = 4 ∨ a = 5 → (match ([1, 2, a, 10] : List ℕ)[searchsorted ([1, 2, (a : ℝ), 10] : List ℝ) b]? with
      | none => Except.error Exc.index | some c => Except.ok c) = Except.ok c →
      (c = 1 ∨ c = 2 ∨ c = 4 ∨ c = 5 ∨ c = 10) ∧ b ≤ c := by
    intro a ha h
    by_cases h1 : (1 : ℝ) < b
    · by_cases h2 : (2 : ℝ) < b
      · by_cases h4 : (a : ℝ) < b
        · by_cases h10 : (10 : ℝ) < b
          · simp [searchsorted, h1, h2, h4, h10] at h
          · simp [searchsorted, h1, h2, h4, h10] at h
            subst h
            exact ⟨by simp, by push_cast; linarith⟩
        · simp [searchsorted, h1, h2, h4] at h
          subst h
          exact ⟨by rcases ha with rfl | rfl <;> simp, by linarith⟩
      · simp [searchsorted, h1, h2] at h
        subst h
        exact ⟨by simp, by push_cast; linarith⟩
    · simp [searchsorted, h1] at h
      subst h
      exact ⟨by simp, by push_cast; linarith⟩
  by_cases hn : t.nice = 2
  · simp only [hn, if_true] at h
    exact main 4 (Or.inl rfl) (by push_cast; exact h)
  · simp only [hn, if_false] at h
    exact main 5 (Or.inr rfl) (by push_cast; exact h)

theorem minor_ok (t : Ticks) (M : ℕ) (h : (M : ℝ) / ((t.last - t.first : ℤ) : ℝ) ≤ 10) : ∃ c, minorTicks t M = .ok c := by
  unfold minorTicks
  simp only
  generalize (M : ℝ) / ((t.last - t.first : ℤ) : ℝ) = b at h ⊢
  have n10 : ¬ (10 < b) := not_lt.2 h
  have main : ∀ a : ℕ, ∃ c, (match ([1, 2, a, 10] : List ℕ)[searchsorted ([1, 2, (a : ℝ), 10] : List ℝ) b]? with
      | none => Except.error Exc.index | some c => Except.ok c) = Except.ok c := by
    intro a
    by_cases h1 : (1 : ℝ) < b
    · by_cases h2 : (2 : ℝ) < b
      · by_cases h4 : (a : ℝ) < b
        · simp [searchsorted, h1, h2, h4, n10]
        · simp [searchsorted, h1, h2, h4]
      · simp [searchsorted, h1, h2]
    · simp [searchsorted, h1]
  by_cases hn : t.nice = 2
  · simp only [hn, if_true]
    have := main 4
    push_cast at this
    exact this
  · simp only [hn, if_false]
    have := main 5
    push_cast at this
    exact this

/-- **C71 is false of the code, for every call which succeeds**: the number of minor ticks in total
(`n_ticks * minor_ticks`, as documented) always exceeds the given maximum: the limit works as a lower bound. -/
theorem C71_minor_limit_counterexample (x : List ℝ) (r0 r1 : ℝ) (hx : Misc.range x false false = .pair r0 r1)
    (hr : r0 < r1) (maxTicks : Option ℕ) (fuel : ℕ) (t : Ticks) (ht : ticks fuel x maxTicks = some (.ok t))
    (maxMinor c : ℕ) (hc : minorTicks t maxMinor = .ok c) : maxMinor < t.values.length * c := by
  have hlt : t.first < t.last := by
    simp only [ticks, hx] at ht
    rw [if_neg (by intro h; linarith)] at ht
    have hl : ∀ fuel mu, 0 < mu → ticksLoop r0 r1 (maxTicksOf maxTicks) fuel mu = some t → t.first < t.last := by
      intro fuel
      induction fuel with
      | zero => intro mu _ h; simp [ticksLoop] at h
      | succ f ih =>
        intro mu hmu h
        simp only [ticksLoop] at h
        split at h
        · injection h with h
          rw [← h]
          exact (pass_ok hr (le_max_right _ _) hmu).lt
        · exact ih _ (by positivity) h
    cases hh : ticksLoop r0 r1 (maxTicksOf maxTicks) fuel 1 with
    | none => rw [hh] at ht; cases ht
    | some t' =>
      rw [hh] at ht
      simp only [Option.map_some, Option.some.injEq, Except.ok.injEq] at ht
      subst ht
      exact hl fuel 1 one_pos hh
  obtain ⟨c1, c2⟩ := minor_spec t maxMinor c hc
  have hlen : (t.values.length : ℤ) = t.last - t.first + 1 := by
    simp only [Ticks.values, List.length_map, List.length_range]; omega
  have hd : (0 : ℝ) < ((t.last - t.first : ℤ) : ℝ) := by exact_mod_cast (by omega : 0 < t.last - t.first)
  rw [div_le_iff₀ hd] at c2
  have c3 : (maxMinor : ℤ) ≤ c * (t.last - t.first) := by exact_mod_cast c2
  have cpos : (1 : ℤ) ≤ c := by rcases c1 with rfl | rfl | rfl | rfl | rfl <;> norm_num
  have : (maxMinor : ℤ) < t.values.length * c := by rw [hlen]; nlinarith
  exact_mod_cast this

/-- the call made for the time axis (at most 6 ticks, 12 minor): with at most six ticks allowed there are at least three -/
theorem six_ticks {r0 r1 : ℝ} (hr : r0 < r1) {k : ℕ} {t : Ticks} (ht : t = ticksPass r0 r1 6 (1 * 0.9 ^ k))
    (hprev : ∀ j < k, ¬ Fits 6 (ticksPass r0 r1 6 (1 * 0.9 ^ j))) : 2 ≤ t.last - t.first := by
  have hp : ∀ j : ℕ, (0 : ℝ) < 1 * 0.9 ^ j := fun j => by positivity
  have p := pass_ok hr (by norm_num : 2 ≤ 6) (hp k)
  rw [← ht] at p
  by_contra hc
  have h1 : (t.last : ℝ) ≤ t.first + 1 := by exact_mod_cast (by omega : t.last ≤ t.first + 1)
  have hmag : r1 - r0 ≤ t.step := by
    have a := p.first_le
    have b := p.le_last
    nlinarith [p.pos]
  have hup := p.upper
  push_cast at hup
  cases k with
  | zero =>
    rw [pow_zero, mul_one, mul_one] at hup
    linarith
  | succ k =>
    have hf := hprev k (by omega)
    have q := pass_ok hr (by norm_num : 2 ≤ 6) (hp k)
    set s := ticksPass r0 r1 6 (1 * 0.9 ^ k)
    unfold Fits at hf
    push_cast at hf
    have h6 : (s.first : ℝ) + 6 ≤ s.last := by exact_mod_cast (by omega : s.first + 6 ≤ s.last)
    have h4 : 4 * s.step < r1 - r0 := by
      have a := q.lt_first
      have b := q.last_lt
      nlinarith [q.pos]
    have hlow := q.lower
    push_cast at hlow
    have e : (r1 - r0) / (6 * (1 * 0.9 ^ (k + 1))) = (r1 - r0) / (6 * (1 * 0.9 ^ k)) / 0.9 := by
      rw [pow_succ, div_div]; congr 1; ring
    rw [e] at hup
    have : (r1 - r0) / (6 * (1 * 0.9 ^ k)) / 0.9 ≤ s.step / 0.9 := by gcongr
    have : s.step / 0.9 = s.step * (10 / 9) := by norm_num; ring
    nlinarith [q.pos]

/-! ### C49 -/

/-- **C49.** For every requested time range the axis parameters are computed (the tick loop ends, there is a tick to
label); `t_max` is the larger limit brought into [3, 4.5]; `0 ≤ t_min < t_max`; the linear part of the axis takes a
fraction in [0, 1] of its width, 1 exactly if there is no logarithmic part; with a logarithmic part, the linear one
is empty exactly if the axis does not reach beyond 3 Ga; all ticks lie on the linear part of the axis; and if the
requested minimum lies in (0, 1) then `t_min` is the power of ten at or next below it, otherwise `t_min` is the requested
minimum brought into [0, t_max - 0.1]. -/
theorem C49_time_axis (xa xb : ℝ) : ∃ (N : ℕ) (a : TimeAxis), (∀ fuel, N < fuel → timeAxis fuel xa xb = some (.ok a)) ∧
    a.tMax = min 4.5 (max (max xa xb) 3) ∧ 3 ≤ a.tMax ∧ a.tMax ≤ 4.5 ∧ 0 ≤ a.tMin ∧ a.tMin < a.tMax ∧
    0 ≤ a.xfracLinear ∧ a.xfracLinear ≤ 1 ∧ (a.xfracLinear = 1 ↔ a.crossover = false) ∧
    (a.crossover = true → (a.xfracLinear = 0 ↔ a.tMax = 3)) ∧
    a.tickv ≠ [] ∧ (∀ v ∈ a.tickv, a.tCrossover ≤ v ∧ v ≤ a.tMax) ∧ a.tMin ≤ a.tCrossover ∧ a.tCrossover ≤ a.tMax ∧
    (0 < min xa xb ∧ min xa xb < 1 → a.crossover = true ∧ ∃ z : ℤ, a.tMin = (10 : ℝ) ^ z ∧ a.tMin ≤ min xa xb ∧ min xa xb < 10 * a.tMin) ∧
    (¬ (0 < min xa xb ∧ min xa xb < 1) → a.crossover = false ∧ a.tMin = max 0 (min (min xa xb) (a.tMax - 0.1))) := by
  have hM : clip (max xa xb) 3 4.5 = min 4.5 (max (max xa xb) 3) := rfl
  set tMax := min (4.5 : ℝ) (max (max xa xb) 3) with htMax
  have hM3 : 3 ≤ tMax := le_min (by norm_num) (le_max_right _ _)
  have hM45 : tMax ≤ 4.5 := min_le_left _ _
  have hm : clip (min xa xb) 0 (tMax - 0.1) = min (tMax - 0.1) (max (min xa xb) 0) := rfl
  set m0 := min (tMax - 0.1) (max (min xa xb) 0) with hm0
  have hm00 : 0 ≤ m0 := le_min (by norm_num; linarith) (le_max_right _ _)
  have hmM : m0 ≤ tMax - 0.1 := min_le_left _ _
  have hiff : (m0 < 1 ∧ m0 ≠ 0) ↔ (0 < min xa xb ∧ min xa xb < 1) := by
    constructor
    · rintro ⟨h1, h2⟩
      have hpos : 0 < m0 := lt_of_le_of_ne hm00 (Ne.symm h2)
      have hx : 0 < min xa xb := by
        by_contra hc
        have : m0 ≤ 0 := (min_le_right _ _).trans (by rw [max_eq_right (not_lt.1 hc)])
        linarith
      refine ⟨hx, ?_⟩
      rw [hm0, max_eq_left hx.le] at h1
      rcases min_lt_iff.1 h1 with h | h
      · norm_num at h; linarith
      · exact h
    · rintro ⟨h1, h2⟩
      have e : m0 = min xa xb := by
        rw [hm0, max_eq_left h1.le]
        apply min_eq_right
        linarith
      rw [e]; exact ⟨h2, h1.ne'⟩
  by_cases hc : m0 < 1 ∧ m0 ≠ 0
  · have hpos : 0 < m0 := lt_of_le_of_ne hm00 (Ne.symm hc.2)
    obtain ⟨hx1, hx2⟩ := hiff.1 hc
    have em : m0 = min xa xb := by
      rw [hm0, max_eq_left hx1.le]
      apply min_eq_right
      linarith
    obtain ⟨f1, f2⟩ := floor_log10 hpos
    set P := (10 : ℝ) ^ ⌊log10 m0⌋ with hP
    have hPp : 0 < P := by rw [hP]; positivity
    set tickv := ([3, 3.5, 4] : List ℝ).filter (fun e => decide (e ≤ tMax)) with htv
    have h3mem : (3 : ℝ) ∈ tickv := by
      rw [htv, List.mem_filter]; exact ⟨by simp, by simpa using hM3⟩
    have hne : tickv ≠ [] := List.ne_nil_of_mem h3mem
    have hlog : 0 < log10 3 - log10 P := by
      have : log10 P < log10 3 := (log10_lt hPp (by norm_num)).2 (by linarith [hc.1])
      linarith
    have hlin : 0 ≤ max (tMax - 3) 0 / 0.7 := div_nonneg (le_max_right _ _) (by norm_num)
    refine ⟨0, ⟨P, tMax, true, 3, max (tMax - 3) 0 / 0.7 / (max (tMax - 3) 0 / 0.7 + (log10 3 - log10 P)), 5, tickv⟩, ?_,
      rfl, hM3, hM45, hPp.le, by simp only; linarith [hc.1], by simp only; positivity, ?_, ?_, ?_, hne, ?_, by simp only; linarith [hc.1], hM3, ?_, ?_⟩
    · intro fuel _
      simp only [timeAxis, hM, hm]
      rw [if_pos hc, if_neg hne, if_neg (by intro h; linarith)]
    · simp only
      rw [div_le_one (by linarith)]; linarith
    · simp only [Bool.true_eq_false, iff_false]
      intro h
      rw [div_eq_one_iff_eq (by linarith)] at h
      linarith
    · intro _
      simp only
      rw [div_eq_zero_iff, div_eq_zero_iff]
      constructor
      · rintro ((h | h) | h)
        · have := le_max_left (tMax - 3) 0
          linarith
        · norm_num at h
        · linarith
      · intro h; left; left; rw [h]; norm_num
    · intro v hv
      rw [htv, List.mem_filter] at hv
      obtain ⟨hv1, hv2⟩ := hv
      refine ⟨?_, by simpa using hv2⟩
      simp only [List.mem_cons, List.not_mem_nil, or_false] at hv1
      rcases hv1 with rfl | rfl | rfl <;> norm_num
    · intro _
      exact ⟨rfl, ⌊log10 m0⌋, rfl, by simp only; rw [← em]; exact f1, by simp only; rw [← em]; linarith⟩
    · intro h
      exact absurd (hiff.1 hc) h
  · have hlt : m0 < tMax := by norm_num at hmM; linarith
    have hrange : Misc.range [m0, tMax] false false = .pair m0 tMax := by
      simp [Misc.range, minOf, maxOf, hlt.le]
    obtain ⟨N, k, t, h1, h2, h4, h5⟩ := ticks_ok [m0, tMax] m0 tMax hrange hlt (some 6) (Or.inl (by norm_num [maxTicksOf]))
    have h6 : maxTicksOf (some 6) = 6 := rfl
    rw [h6] at h2 h5
    have hge := six_ticks hlt h2 h5
    have p := pass_ok hlt (by norm_num : 2 ≤ 6) (mu := 1 * 0.9 ^ k) (by positivity)
    rw [← h2] at p
    obtain ⟨c, hcm⟩ := minor_ok t 12 (by
      have : (2 : ℝ) ≤ ((t.last - t.first : ℤ) : ℝ) := by exact_mod_cast hge
      rw [div_le_iff₀ (by linarith)]
      push_cast
      push_cast at this
      linarith)
    set tickv := t.values.filter (fun e => decide (m0 ≤ e ∧ e ≤ tMax)) with htv
    have hne : tickv ≠ [] := by
      apply List.ne_nil_of_mem (a := ((t.first : ℝ) + (1 : ℕ)) * t.step)
      rw [htv, List.mem_filter]
      refine ⟨List.mem_map.2 ⟨1, List.mem_range.2 (by omega), rfl⟩, ?_⟩
      have a := p.lt_first
      have b := p.last_lt
      have : (t.first : ℝ) + 2 ≤ t.last := by exact_mod_cast (by omega : t.first + 2 ≤ t.last)
      simp only [decide_eq_true_eq]
      push_cast
      constructor
      · linarith
      · nlinarith [p.pos]
    refine ⟨N, ⟨m0, tMax, false, m0, 1 / (1 + 0), c, tickv⟩, ?_, rfl, hM3, hM45, hm00, hlt, by norm_num, by norm_num, by norm_num,
      by simp, hne, ?_, le_rfl, hlt.le, ?_, ?_⟩
    · intro fuel hf
      simp only [timeAxis, hM, hm]
      rw [if_neg hc, h1 fuel hf]
      simp only [hcm]
      rw [if_neg hne]
    · intro v hv
      rw [htv, List.mem_filter] at hv
      simpa using hv.2
    · intro h
      exact absurd (hiff.2 h) hc
    · intro _
      refine ⟨rfl, ?_⟩
      simp only
      rw [max_min_distrib_left 0 (min xa xb), max_eq_right (show (0 : ℝ) ≤ tMax - 0.1 by linarith), hm0, min_comm, max_comm 0]

end

end Verif.Props
