import Verif.Model.Format
import Verif.Py.Str
import Mathlib.Algebra.Order.Field.Power

/-! C36-C38: numbers, ages and diameter ranges as text. -/

namespace Verif.Props

open Verif.Py Verif.Text

/-! ### rounding -/

theorem roundEven_spec (q : ℚ) (hq : 0 ≤ q) : (∀ z : ℤ, |q - roundEven q| ≤ |q - z|) ∧
    (∀ z : ℤ, |q - roundEven q| = |q - z| → z ≠ roundEven q → roundEven q % 2 = 0) := by
  have h1 : ((⌊q⌋₊ : ℕ) : ℚ) ≤ q := Nat.floor_le hq
  have h2 : q < (⌊q⌋₊ : ℕ) + 1 := Nat.lt_floor_add_one q
  set f := ⌊q⌋₊ with hf
  have hz : ∀ z : ℤ, (z : ℚ) ≤ f ∨ (f : ℚ) + 1 ≤ z := by
    intro z
    rcases le_or_gt z f with h | h
    · left; exact_mod_cast h
    · right; exact_mod_cast h
  have habs : ∀ z : ℤ, ((z : ℚ) ≤ f → |q - z| = q - z) ∧ ((f : ℚ) + 1 ≤ z → |q - z| = z - q) := by
    intro z
    constructor
    · intro h; exact abs_of_nonneg (by linarith)
    · intro h; rw [abs_sub_comm]; exact abs_of_nonneg (by linarith)
  unfold roundEven
  simp only [← hf]
  by_cases c1 : q - f < 1 / 2
  · rw [if_pos c1]
    have e : |q - (f : ℕ)| = q - f := abs_of_nonneg (by linarith)
    constructor
    · intro z
      rw [e]
      rcases hz z with h | h
      · rw [(habs z).1 h]; linarith
      · rw [(habs z).2 h]; linarith
    · intro z hz1 hne
      exfalso
      rw [e] at hz1
      rcases hz z with h | h
      · rw [(habs z).1 h] at hz1
        apply hne
        have : (z : ℚ) = f := by linarith
        exact_mod_cast this
      · rw [(habs z).2 h] at hz1; linarith
  · rw [if_neg c1]
    by_cases c2 : 1 / 2 < q - f
    · rw [if_pos c2]
      have e : |q - ((f + 1 : ℕ) : ℚ)| = f + 1 - q := by
        push_cast
        rw [abs_sub_comm]; exact abs_of_nonneg (by linarith)
      constructor
      · intro z
        rw [e]
        rcases hz z with h | h
        · rw [(habs z).1 h]; linarith
        · rw [(habs z).2 h]; linarith
      · intro z hz1 hne
        exfalso
        rw [e] at hz1
        rcases hz z with h | h
        · rw [(habs z).1 h] at hz1; linarith
        · rw [(habs z).2 h] at hz1
          apply hne
          have : (z : ℚ) = f + 1 := by linarith
          exact_mod_cast this
    · rw [if_neg c2]
      have c3 : q - f = 1 / 2 := by linarith
      have key : ∀ z : ℤ, (1 : ℚ) / 2 ≤ |q - z| := by
        intro z
        rcases hz z with h | h
        · rw [(habs z).1 h]; linarith
        · rw [(habs z).2 h]; linarith
      by_cases c4 : f % 2 = 0
      · rw [if_pos c4]
        have e : |q - (f : ℕ)| = 1 / 2 := by rw [c3]; norm_num
        exact ⟨fun z => by rw [e]; exact key z, fun _ _ _ => c4⟩
      · rw [if_neg c4]
        have e : |q - ((f + 1 : ℕ) : ℚ)| = 1 / 2 := by
          push_cast
          rw [show q - ((f : ℚ) + 1) = -(1 / 2) by linarith]; norm_num
        exact ⟨fun z => by rw [e]; exact key z, fun _ _ _ => by omega⟩

/-- the rounded absolute value -/
def sciVal (p : ℕ) (n : ℚ) : ℚ := ((sciRound p n).1 : ℚ) * (10 : ℚ) ^ ((sciRound p n).2 - p)

theorem ten_log (a : ℚ) (ha : 0 < a) : (10 : ℚ) ^ (Int.log 10 a) ≤ a ∧ a < (10 : ℚ) ^ (Int.log 10 a + 1) := by
  have h1 := Int.zpow_log_le_self (b := 10) (by norm_num) ha
  have h2 := Int.lt_zpow_succ_log_self (b := 10) (by norm_num) a
  exact ⟨by exact_mod_cast h1, by exact_mod_cast h2⟩

theorem sciRound_range (p : ℕ) (n : ℚ) : (sciRound p n).1 < 10 ^ (p + 1) ∧ (n ≠ 0 → 10 ^ p ≤ (sciRound p n).1) ∧
    (n ≠ 0 → sciVal p n = (roundEven (|n| * (10 : ℚ) ^ ((p : ℤ) - Int.log 10 |n|)) : ℚ) * (10 : ℚ) ^ (Int.log 10 |n| - p)) := by
  unfold sciVal sciRound
  by_cases hn : n = 0
  · rw [if_pos hn]
    exact ⟨by positivity, fun h => absurd hn h, fun h => absurd hn h⟩
  · simp only [if_neg hn]
    have ha : 0 < |n| := abs_pos.2 hn
    obtain ⟨h1, h2⟩ := ten_log |n| ha
    set e := Int.log 10 |n| with he
    set q := |n| * (10 : ℚ) ^ ((p : ℤ) - e) with hq
    have ht : (0 : ℚ) < (10 : ℚ) ^ ((p : ℤ) - e) := by positivity
    have hq1 : (10 : ℚ) ^ p ≤ q := by
      have := mul_le_mul_of_nonneg_right h1 ht.le
      rw [← zpow_add₀ (by norm_num), show e + ((p : ℤ) - e) = p by ring, zpow_natCast] at this
      exact this
    have hq2 : q < (10 : ℚ) ^ (p + 1) := by
      have := mul_lt_mul_of_pos_right h2 ht
      rw [← zpow_add₀ (by norm_num), show e + 1 + ((p : ℤ) - e) = ((p + 1 : ℕ) : ℤ) by push_cast; ring, zpow_natCast] at this
      exact this
    have hspec := (roundEven_spec q (le_trans (by positivity) hq1)).1
    have hm1 : 10 ^ p ≤ roundEven q := by
      by_contra hc
      push Not at hc
      have a1 := hspec ((10 : ℤ) ^ p)
      have a2 : (roundEven q : ℚ) + 1 ≤ (10 : ℚ) ^ p := by exact_mod_cast hc
      push_cast at a1
      rw [abs_of_nonneg (by linarith), abs_of_nonneg (by linarith)] at a1
      linarith
    have hm2 : roundEven q ≤ 10 ^ (p + 1) := by
      by_contra hc
      push Not at hc
      have a1 := hspec ((10 : ℤ) ^ (p + 1))
      have a2 : (10 : ℚ) ^ (p + 1) + 1 ≤ (roundEven q : ℚ) := by exact_mod_cast hc
      push_cast at a1
      rw [abs_sub_comm, abs_of_nonneg (by linarith), abs_sub_comm, abs_of_nonneg (by linarith)] at a1
      linarith
    by_cases hm : roundEven q = 10 ^ (p + 1)
    · rw [if_pos hm]
      refine ⟨Nat.pow_lt_pow_right (by norm_num) (by omega), fun _ => le_rfl, fun _ => ?_⟩
      simp only [hm]
      push_cast
      rw [show e + 1 - (p : ℤ) = (e - p) + 1 by ring, zpow_add_one₀ (by norm_num), pow_succ]
      ring
    · rw [if_neg hm]
      exact ⟨lt_of_le_of_ne hm2 hm, fun _ => hm1, fun _ => rfl⟩

/-- Specification: `r` is nearest to `n` among the numbers with at most `d` significant digits, and if there is another
nearest one, the last of the `d` digits of `r` is even -/
def IsRounded (d : ℕ) (n r : ℚ) : Prop :=
  (∃ (m : ℤ) (k : ℤ), |m| < 10 ^ d ∧ r = m * (10 : ℚ) ^ k) ∧
  (∀ m k : ℤ, |m| < 10 ^ d → |n - r| ≤ |n - m * (10 : ℚ) ^ k|) ∧
  (∀ m k : ℤ, |m| < 10 ^ d → |n - r| = |n - m * (10 : ℚ) ^ k| → m * (10 : ℚ) ^ k ≠ r →
    ∃ m' k' : ℤ, r = 2 * m' * (10 : ℚ) ^ k' ∧ |2 * m'| ≤ 10 ^ d ∧ |r| ≤ 10 ^ (k' + d) ∧ 10 ^ (k' + d - 1) ≤ |r|)

/-- rounding to the multiples of a power of ten below -/
theorem isRounded_abs (p : ℕ) (n : ℚ) (hn : n ≠ 0) : IsRounded (p + 1) |n| (sciVal p n) := by
  obtain ⟨g1, g2, g3⟩ := sciRound_range p n
  have g2 := g2 hn
  have g3 := g3 hn
  have ha : 0 < |n| := abs_pos.2 hn
  obtain ⟨h1, h2⟩ := ten_log |n| ha
  set e := Int.log 10 |n| with he
  set a := |n| with haa
  set q := a * (10 : ℚ) ^ ((p : ℤ) - e) with hq
  set u := (10 : ℚ) ^ (e - p) with hu
  have hu0 : 0 < u := by positivity
  have hqa : a = q * u := by
    rw [hq, hu, mul_assoc, ← zpow_add₀ (by norm_num), show (p : ℤ) - e + (e - p) = 0 by ring, zpow_zero, mul_one]
  have hq0 : 0 ≤ q := by rw [hq]; positivity
  obtain ⟨s1, s2⟩ := roundEven_spec q hq0
  have hdist : ∀ x : ℚ, |a - x * u| = |q - x| * u := by
    intro x; rw [hqa, ← sub_mul, abs_mul, abs_of_pos hu0]
  have hp1 : (10 : ℚ) ^ e = (10 : ℚ) ^ p * u := by
    rw [hu, ← zpow_natCast, ← zpow_add₀ (by norm_num)]; congr 1; ring
  have hp2 : (10 : ℚ) ^ (e + 1) = (10 : ℚ) ^ (p + 1) * u := by
    rw [hu, ← zpow_natCast, ← zpow_add₀ (by norm_num)]; congr 1; push_cast; ring
  -- the two ends of the decade are multiples of the unit
  have hend1 : |q - roundEven q| * u ≤ a - (10 : ℚ) ^ e := by
    have := s1 ((10 : ℤ) ^ p)
    push_cast at this
    calc |q - roundEven q| * u ≤ |q - 10 ^ p| * u := mul_le_mul_of_nonneg_right this hu0.le
      _ = |a - 10 ^ p * u| := (hdist _).symm
      _ = a - (10 : ℚ) ^ e := by rw [← hp1]; exact abs_of_nonneg (by linarith)
  have hend2 : |q - roundEven q| * u ≤ (10 : ℚ) ^ (e + 1) - a := by
    have := s1 ((10 : ℤ) ^ (p + 1))
    push_cast at this
    calc |q - roundEven q| * u ≤ |q - 10 ^ (p + 1)| * u := mul_le_mul_of_nonneg_right this hu0.le
      _ = |a - 10 ^ (p + 1) * u| := (hdist _).symm
      _ = (10 : ℚ) ^ (e + 1) - a := by rw [← hp2, abs_sub_comm]; exact abs_of_nonneg (by linarith)
  -- numbers inside the decade are multiples of the unit
  have hmult : ∀ m k : ℤ, |m| < 10 ^ (p + 1) → (10 : ℚ) ^ e < m * (10 : ℚ) ^ k → ∃ z : ℤ, (m : ℚ) * (10 : ℚ) ^ k = z * u := by
    intro m k hm hgt
    have hk : e - p ≤ k := by
      by_contra hc
      push Not at hc
      have hm' : (m : ℚ) < (10 : ℚ) ^ (p + 1) := by
        have := lt_of_le_of_lt (le_abs_self m) hm
        exact_mod_cast this
      have hk' : (10 : ℚ) ^ k ≤ (10 : ℚ) ^ (e - p - 1) := zpow_le_zpow_right₀ (by norm_num) (by omega)
      have hkp : (0 : ℚ) < (10 : ℚ) ^ k := by positivity
      have : (m : ℚ) * 10 ^ k < (10 : ℚ) ^ (p + 1) * (10 : ℚ) ^ (e - p - 1) := by
        calc (m : ℚ) * 10 ^ k < (10 : ℚ) ^ (p + 1) * (10 : ℚ) ^ k := mul_lt_mul_of_pos_right hm' hkp
          _ ≤ _ := mul_le_mul_of_nonneg_left hk' (by positivity)
      rw [← zpow_natCast, ← zpow_add₀ (by norm_num), show (((p + 1 : ℕ) : ℤ)) + (e - p - 1) = e by push_cast; ring] at this
      linarith
    refine ⟨m * 10 ^ (k - (e - p)).toNat, ?_⟩
    rw [hu]
    push_cast
    rw [mul_assoc, ← zpow_natCast, ← zpow_add₀ (by norm_num), Int.toNat_of_nonneg (by omega)]
    congr 2
    ring
  have hr : sciVal p n = (roundEven q : ℚ) * u := g3
  refine ⟨⟨(sciRound p n).1, (sciRound p n).2 - p, ?_, rfl⟩, ?_, ?_⟩
  · rw [abs_of_nonneg (by positivity)]; exact_mod_cast g1
  · intro m k hm
    rw [hr, hdist]
    rcases le_or_gt ((m : ℚ) * 10 ^ k) ((10 : ℚ) ^ e) with h | h
    · exact hend1.trans (le_trans (by linarith) (le_abs_self _))
    · obtain ⟨z, hz⟩ := hmult m k hm h
      rw [hz, hdist]
      exact mul_le_mul_of_nonneg_right (s1 z) hu0.le
  · intro m k hm heq hne
    rw [hr, hdist] at heq
    -- the other number is a multiple of the unit as well
    have hz : ∃ z : ℤ, (m : ℚ) * (10 : ℚ) ^ k = z * u := by
      rcases le_or_gt ((m : ℚ) * 10 ^ k) ((10 : ℚ) ^ e) with h | h
      · refine ⟨10 ^ p, ?_⟩
        have h3 : a - m * 10 ^ k ≤ a - (10 : ℚ) ^ e := by
          rw [← abs_of_nonneg (show (0 : ℚ) ≤ a - m * 10 ^ k by linarith), ← heq]; exact hend1
        push_cast
        rw [← hp1]; linarith
      · exact hmult m k hm h
    obtain ⟨z, hz⟩ := hz
    rw [hz, hdist] at heq
    have heq' := mul_right_cancel₀ hu0.ne' heq
    have hzne : z ≠ roundEven q := by
      rintro rfl
      apply hne
      rw [hz, hr]; push_cast; ring
    have heven := s2 z heq' hzne
    have hrange : (10 : ℚ) ^ p ≤ (roundEven q : ℚ) ∧ (roundEven q : ℚ) ≤ (10 : ℚ) ^ (p + 1) := by
      have b1 : (10 : ℚ) ^ e ≤ sciVal p n := by
        by_contra hc
        push Not at hc
        rw [hr] at hc
        have : |a - roundEven q * u| = a - roundEven q * u := abs_of_nonneg (by linarith)
        rw [hdist] at this
        linarith
      have b2 : sciVal p n ≤ (10 : ℚ) ^ (e + 1) := by
        by_contra hc
        push Not at hc
        rw [hr] at hc
        have : |a - roundEven q * u| = roundEven q * u - a := by rw [abs_sub_comm]; exact abs_of_nonneg (by linarith)
        rw [hdist] at this
        linarith
      rw [hr, hp1] at b1
      rw [hr, hp2] at b2
      exact ⟨le_of_mul_le_mul_right b1 hu0, le_of_mul_le_mul_right b2 hu0⟩
    have hr2 : ((2 * (roundEven q / 2 : ℕ) : ℤ) : ℚ) = roundEven q := by
      have : 2 * (roundEven q / 2) = roundEven q := by omega
      exact_mod_cast this
    have hrpos : 0 ≤ sciVal p n := by rw [hr]; positivity
    refine ⟨(roundEven q / 2 : ℕ), e - p, ?_, ?_, ?_, ?_⟩
    · rw [hr]
      congr 1
      rw [← hr2]; push_cast; ring
    · have : (2 * (roundEven q / 2 : ℕ) : ℤ) = roundEven q := by omega
      rw [this, abs_of_nonneg (by positivity)]
      exact_mod_cast hrange.2
    · rw [abs_of_nonneg hrpos, hr, show e - (p : ℤ) + ((p + 1 : ℕ) : ℤ) = e + 1 by push_cast; ring, hp2]
      exact mul_le_mul_of_nonneg_right hrange.2 hu0.le
    · rw [abs_of_nonneg hrpos, hr, show e - (p : ℤ) + ((p + 1 : ℕ) : ℤ) - 1 = e by push_cast; ring, hp1]
      exact mul_le_mul_of_nonneg_right hrange.1 hu0.le

/-- the rounded number with its sign -/
def sciSigned (p : ℕ) (n : ℚ) : ℚ := if n < 0 then -sciVal p n else sciVal p n

theorem isRounded_neg {d : ℕ} {n r : ℚ} (h : IsRounded d n r) : IsRounded d (-n) (-r) := by
  obtain ⟨⟨m0, k0, h1, h2⟩, h3, h4⟩ := h
  have hflip : ∀ x : ℚ, |-n - x| = |n - -x| := by
    intro x; rw [← abs_neg]; congr 1; ring
  refine ⟨⟨-m0, k0, by rwa [abs_neg], by rw [h2]; push_cast; ring⟩, ?_, ?_⟩
  · intro m k hm
    have := h3 (-m) k (by rwa [abs_neg])
    rw [hflip, hflip, neg_neg]
    push_cast at this
    rwa [neg_mul] at this
  · intro m k hm heq hne
    rw [hflip, hflip, neg_neg] at heq
    obtain ⟨m', k', e1, e2, e3, e4⟩ := h4 (-m) k (by rwa [abs_neg]) (by push_cast; rwa [neg_mul])
      (by push_cast; rw [neg_mul]; intro hc; exact hne (by rw [← hc]; ring))
    exact ⟨-m', k', by rw [e1]; push_cast; ring, by rwa [mul_neg, abs_neg], by rwa [abs_neg], by rwa [abs_neg]⟩

theorem isRounded_sci (p : ℕ) (n : ℚ) : IsRounded (p + 1) n (sciSigned p n) := by
  by_cases hn : n = 0
  · subst hn
    have : sciSigned p 0 = 0 := by simp [sciSigned, sciVal, sciRound]
    rw [this]
    refine ⟨⟨0, 0, by positivity, by simp⟩, fun m k _ => by rw [sub_zero, abs_zero]; exact abs_nonneg _, ?_⟩
    intro m k hm heq hne
    exfalso
    rw [sub_zero, abs_zero, zero_sub, abs_neg, eq_comm, abs_eq_zero] at heq
    exact hne heq
  · have := isRounded_abs p n hn
    rw [sciSigned]
    rcases lt_or_ge n 0 with h | h
    · rw [if_pos h]
      have h2 := isRounded_neg this
      rwa [abs_of_neg h, neg_neg] at h2
    · rw [if_neg (not_lt.2 h)]
      rwa [abs_of_nonneg h] at this

/-! ### reading the exponential notation apart -/

theorem dig_class (C : Classes) {c : Char} (h : isDig c = true) : C.digit c = true := by
  have hc : c.toNat < 128 := by
    simp only [isDig, Bool.and_eq_true, decide_eq_true_eq] at h
    have : c.toNat ≤ ('9' : Char).toNat := h.2
    exact lt_of_le_of_lt this (by decide)
  rw [C.digit_ascii c hc]
  simp only [isDig, Bool.and_eq_true, decide_eq_true_eq] at h
  simp only [Char.isDigit, Bool.and_eq_true, decide_eq_true_eq]
  exact h

theorem search_sci (C : Classes) (sg num ex : List Char) (hs : sg = [] ∨ sg = ['-'])
    (hnum : ∀ c ∈ num, isDig c = true ∨ c = '.') (hex : ∀ c ∈ ex, c ≠ '\n') :
    ∃ t, (reSci C).search (sg ++ num ++ 'e' :: ex) = some (⟨[], sg ++ num ++ 'e' :: ex, []⟩, t) ∧
      t.group 1 = some sg ∧ t.group 2 = some num ∧ t.group 3 = some ex := by
  set S := sg ++ num ++ 'e' :: ex with hS
  let u1 : St := ⟨sg.reverse, num ++ 'e' :: ex, [(1, 0, sg)]⟩
  have hg1 : ((Re.grp 1 (.opt (.lit '-'))).run ⟨[], S, []⟩).head? = some u1 := by
    rw [run_grp, List.head?_map, opt_head]
    rcases hs with rfl | rfl
    · have : (Re.lit '-').run ⟨[], S, []⟩ = [] := by
        rw [Re.lit, run_chr_adv, hS]
        cases num with
        | nil => rfl
        | cons c num =>
          have : c ≠ '-' := by
            rcases hnum c (by simp) with h | rfl
            · exact (dig_ne_sign h).1
            · decide
          simp [this]
      rw [this]
      simp [matched, u1, hS]
    · have : (Re.lit '-').run ⟨[], S, []⟩ = [⟨['-'], num ++ 'e' :: ex, []⟩] := rfl
      rw [this]
      rfl
  let u4 : St := ⟨ex.reverse ++ 'e' :: (num.reverse ++ sg.reverse), [],
    [(3, (num.reverse ++ sg.reverse).length + 1, ex), (2, sg.length, num), (1, 0, sg)]⟩
  have htail : ((Re.seq (.lit 'e') (.grp 3 (.many .dot))).run (u1.cap 2 num.length)).head? = some u4 := by
    have e1 : u1.cap 2 num.length = ⟨num.reverse ++ sg.reverse, 'e' :: ex, [(2, sg.length, num), (1, 0, sg)]⟩ := by
      simp [St.cap, u1]
    rw [e1]
    refine seq_head (u := ⟨'e' :: (num.reverse ++ sg.reverse), ex, [(2, sg.length, num), (1, 0, sg)]⟩) rfl ?_
    rw [run_grp, List.head?_map, Re.dot, many_head]
    have hl : runLen (fun d => d != '\n') ex = ex.length := by
      refine le_antisymm (runLen_le _ _) ((runLen_eq_length_iff _ _).2 ?_)
      intro c hc
      simpa using hex c hc
    simp only [hl, Option.map_some]
    simp [St.adv, u4, matched]
  have hrun : ((reSci C).run ⟨[], S, []⟩).head? = some u4 := by
    refine seq_head hg1 ?_
    have hrl : runLen (fun c => C.digit c || c == '.') u1.rest = num.length := by
      show runLen _ (num ++ 'e' :: ex) = _
      rw [runLen_append, runLen_cons_neg]
      · rfl
      · have : C.digit 'e' = false := by rw [C.digit_ascii _ (by decide)]; decide
        simp [this]
      · intro c hc
        rcases hnum c hc with h | rfl
        · simp [dig_class C h]
        · simp
    refine many_grp_seq_head _ 2 _ u1 u4 num.length (by rw [hrl]) htail ?_
    intro j h1 h2
    rw [hrl] at h2
    omega
  exact ⟨u4, search_zero hrun, rfl, rfl, rfl⟩

theorem natAbs_lt_hundred {n : ℕ} (h : n < 100) : digitsNum (fixDigits 2 n) = n := by
  rw [digitsNum_fixDigits]
  exact Nat.mod_eq_of_lt (by omega)

theorem intVal_expStr (e : ℤ) : intVal (expStr e) = some e := by
  have hd : ∃ ds : List Char, ds ≠ [] ∧ (∀ c ∈ ds, isDig c = true) ∧ digitsNum ds = e.natAbs ∧
      expStr e = (if e < 0 then '-' else '+') :: ds := by
    rw [expStr]
    by_cases h : e.natAbs < 100
    · rw [if_pos h]
      refine ⟨_, ?_, fixDigits_isDig _ _, natAbs_lt_hundred h, rfl⟩
      intro hc
      have := fixDigits_length 2 e.natAbs
      rw [hc] at this
      cases this
    · rw [if_neg h]
      exact ⟨_, natStr_ne_nil _, fixDigits_isDig _ _, digitsNum_natStr _, rfl⟩
  obtain ⟨ds, h1, h2, h3, h4⟩ := hd
  rw [h4, intVal]
  by_cases he : e < 0
  · rw [if_pos he]
    have : takeSign ('-' :: ds) = (-1, ds) := rfl
    simp only [this]
    rw [if_pos ⟨h1, List.all_eq_true.2 h2⟩, h3]
    congr 1; omega
  · rw [if_neg he]
    have : takeSign ('+' :: ds) = (1, ds) := rfl
    simp only [this]
    rw [if_pos ⟨h1, List.all_eq_true.2 h2⟩, h3]
    congr 1; omega

theorem expStr_no_newline (e : ℤ) : ∀ c ∈ expStr e, c ≠ '\n' := by
  intro c hc
  rw [expStr, List.mem_cons] at hc
  have hdig : isDig c = true → c ≠ '\n' := by rintro h rfl; revert h; decide
  rcases hc with rfl | hc
  · split <;> decide
  · apply hdig
    split at hc
    · exact fixDigits_isDig _ _ c hc
    · exact fixDigits_isDig _ _ c hc

theorem mantStr_chars {ds : List Char} (h : ∀ c ∈ ds, isDig c = true) : ∀ c ∈ mantStr ds, isDig c = true ∨ c = '.' := by
  intro c hc
  match ds, h, hc with
  | [a], h, hc => exact Or.inl (h c hc)
  | a :: b :: l, h, hc =>
    simp only [mantStr, List.mem_cons] at hc
    rcases hc with rfl | rfl | rfl | hc
    · exact Or.inl (h _ (by simp))
    · exact Or.inr rfl
    · exact Or.inl (h _ (by simp))
    · exact Or.inl (h _ (by simp [hc]))

theorem mantStr_filter {ds : List Char} (h : ∀ c ∈ ds, isDig c = true) : (mantStr ds).filter (· != '.') = ds := by
  have hf : ds.filter (· != '.') = ds := by
    rw [List.filter_eq_self]
    intro c hc
    simpa using (dig_ne_sign (h c hc)).2.2.1
  match ds, hf with
  | [], _ => rfl
  | [a], hf => exact hf
  | a :: b :: l, hf =>
    show (a :: '.' :: b :: l).filter (· != '.') = _
    rw [List.filter_cons] at hf ⊢
    split at hf
    · rename_i h2
      rw [if_pos h2, List.filter_cons_of_neg (by simp)]
      exact hf
    · exfalso
      rename_i h2
      exact h2 (by simpa using (dig_ne_sign (h a (by simp))).2.2.1)

/-- where the decimal point goes -/
def placePoint (digits : ℕ) (e : ℤ) (sf : List Char) : List Char :=
  if e < 0 then "0.".toList ++ List.replicate (e.natAbs - 1) '0' ++ sf
  else if e < (digits : ℤ) - 1 then sf.take (e + 1).toNat ++ '.' :: sf.drop (e + 1).toNat
  else sf ++ List.replicate (e - digits + 1).toNat '0'

theorem sigfigs_eq (C : Classes) (n : ℚ) (p : ℕ) : sigfigs C n (p + 1) = .ok ((if n < 0 then ['-'] else []) ++
    placePoint (p + 1) (sciRound p n).2 (fixDigits (p + 1) (sciRound p n).1)) := by
  have hdig := fixDigits_isDig (p + 1) (sciRound p n).1
  obtain ⟨t, h1, h2, h3, h4⟩ := search_sci C (if n < 0 then ['-'] else []) (mantStr (fixDigits (p + 1) (sciRound p n).1))
    (expStr (sciRound p n).2) (by split <;> simp) (mantStr_chars hdig) (expStr_no_newline _)
  rw [sigfigs, if_neg (by omega), show p + 1 - 1 = p by omega, sciStr, h1]
  simp only [h2, h3, h4, Option.getD_some, intVal_expStr, mantStr_filter hdig]
  congr 2
  rw [placePoint]
  split
  · rfl
  · split <;> rfl

/-- the value of the digits with the point placed -/
theorem decVal_placePoint (p : ℕ) (e : ℤ) (m : ℕ) (hm : m < 10 ^ (p + 1)) :
    decVal (placePoint (p + 1) e (fixDigits (p + 1) m)) = some ((m : ℚ) * (10 : ℚ) ^ (e - p)) ∧
    (∀ c ∈ placePoint (p + 1) e (fixDigits (p + 1) m), isDig c = true ∨ c = '.') := by
  have hdig := fixDigits_isDig (p + 1) m
  have hlen := fixDigits_length (p + 1) m
  have hnum : digitsNum (fixDigits (p + 1) m) = m := by rw [digitsNum_fixDigits, Nat.mod_eq_of_lt hm]
  set ds := fixDigits (p + 1) m with hds
  have hz : ∀ k, ∀ c ∈ List.replicate k '0', isDig c = true := by
    intro k c hc; rw [List.eq_of_mem_replicate hc]; rfl
  rw [placePoint]
  by_cases h1 : e < 0
  · rw [if_pos h1]
    have hall : ∀ c ∈ List.replicate (e.natAbs - 1) '0' ++ ds, isDig c = true := by
      intro c hc
      rcases List.mem_append.1 hc with hc | hc
      · exact hz _ c hc
      · exact hdig c hc
    have hs : "0.".toList ++ List.replicate (e.natAbs - 1) '0' ++ ds = ['0'] ++ '.' :: (List.replicate (e.natAbs - 1) '0' ++ ds) := by
      simp
    rw [hs]
    constructor
    · rw [decVal_plain ['0'] _ (by simp; rfl) hall (Or.inl (by simp))]
      rw [digitsNum_append, digitsNum_append, digitsNum_replicate_zero, hnum]
      have h0 : digitsNum ['0'] = 0 := rfl
      rw [h0]
      simp only [List.length_append, List.length_replicate, hlen, Nat.zero_mul, Nat.zero_add]
      congr 1
      rw [div_eq_mul_inv]
      congr 1
      rw [← zpow_natCast, ← zpow_neg]
      congr 1
      omega
    · intro c hc
      rcases List.mem_append.1 hc with hc | hc
      · simp at hc; subst hc; exact Or.inl rfl
      · rcases List.mem_cons.1 hc with rfl | hc
        · exact Or.inr rfl
        · exact Or.inl (hall c hc)
  · rw [if_neg h1]
    by_cases h2 : e < ((p + 1 : ℕ) : ℤ) - 1
    · rw [if_pos h2]
      have ht : ∀ c ∈ ds.take (e + 1).toNat, isDig c = true := fun c hc => hdig c (List.mem_of_mem_take hc)
      have hd : ∀ c ∈ ds.drop (e + 1).toNat, isDig c = true := fun c hc => hdig c (List.mem_of_mem_drop hc)
      constructor
      · rw [decVal_plain _ _ ht hd (Or.inl (by
          intro hc
          have := congrArg List.length hc
          rw [List.length_take, hlen] at this
          simp at this
          omega))]
        rw [List.take_append_drop, hnum, List.length_drop, hlen]
        congr 1
        rw [div_eq_mul_inv]
        congr 1
        rw [← zpow_natCast, ← zpow_neg]
        congr 1
        omega
      · intro c hc
        rcases List.mem_append.1 hc with hc | hc
        · exact Or.inl (ht c hc)
        · rcases List.mem_cons.1 hc with rfl | hc
          · exact Or.inr rfl
          · exact Or.inl (hd c hc)
    · rw [if_neg h2]
      have hall : ∀ c ∈ ds ++ List.replicate (e - ((p + 1 : ℕ) : ℤ) + 1).toNat '0', isDig c = true := by
        intro c hc
        rcases List.mem_append.1 hc with hc | hc
        · exact hdig c hc
        · exact hz _ c hc
      refine ⟨?_, fun c hc => Or.inl (hall c hc)⟩
      rw [decVal_digits _ hall (by
        intro hc
        have := congrArg List.length hc
        rw [List.length_append, hlen] at this
        simp at this)]
      rw [digitsNum_append, hnum, digitsNum_replicate_zero, List.length_replicate, Nat.add_zero]
      congr 1
      push_cast
      congr 1
      rw [← zpow_natCast]
      congr 1
      omega

theorem placePoint_ne_nil (p : ℕ) (e : ℤ) (m : ℕ) : ∃ c l, placePoint (p + 1) e (fixDigits (p + 1) m) = c :: l := by
  have hlen := fixDigits_length (p + 1) m
  cases h : placePoint (p + 1) e (fixDigits (p + 1) m) with
  | cons c l => exact ⟨c, l, rfl⟩
  | nil =>
    exfalso
    rw [placePoint] at h
    split at h
    · simp at h
    · split at h
      · simp at h
      · have := congrArg List.length h
        rw [List.length_append, hlen] at this
        simp at this

/-- **C36.** For every number and digit count there is a text, in plain decimal notation (digits, at most a point, a minus
sign in front exactly for negative numbers), which denotes exactly the number rounded to that many significant digits. -/
theorem C36_sigfigs (C : Classes) (n : ℚ) (d : ℕ) (hd : 1 ≤ d) : ∃ body r,
    sigfigs C n d = .ok ((if n < 0 then ['-'] else []) ++ body) ∧ (∀ c ∈ body, isDig c = true ∨ c = '.') ∧
    decVal ((if n < 0 then ['-'] else []) ++ body) = some r ∧ IsRounded d n r := by
  obtain ⟨p, rfl⟩ : ∃ p, d = p + 1 := ⟨d - 1, by omega⟩
  obtain ⟨h1, h2⟩ := decVal_placePoint p (sciRound p n).2 (sciRound p n).1 (sciRound_range p n).1
  refine ⟨_, sciSigned p n, sigfigs_eq C n p, h2, ?_, isRounded_sci p n⟩
  rw [sciSigned]
  split
  · rw [List.singleton_append, decVal_neg, h1]
    · rfl
    · intro c hc
      exact h2 c (List.mem_of_mem_head? hc)
  · rw [List.nil_append, h1]; rfl

/-- three digits, rounding up into the next decade, a tie; and no digits -/
example : sigfigs .ascii (-0.0314159) 3 = .ok "-0.0314".toList ∧ sigfigs .ascii 9.996 3 = .ok "10.0".toList ∧
    sigfigs .ascii 2.5 1 = .ok "2".toList ∧ sigfigs .ascii 314759 3 = .ok "315000".toList ∧
    sigfigs .ascii 0 3 = .ok "0.00".toList ∧ sigfigs .ascii 1 0 = .error .value := by decide +kernel

/-! ### general format -/

theorem takeWhile_stop {p : Char → Bool} {a : List Char} {c : Char} {l : List Char} (h : ∀ x ∈ a, p x = true) (hc : ¬ p c = true) :
    (a ++ c :: l).takeWhile p = a ∧ (a ++ c :: l).dropWhile p = c :: l := by
  rw [List.takeWhile_append_of_pos h, List.dropWhile_append_of_pos h, List.takeWhile_cons_of_neg hc, List.dropWhile_cons_of_neg hc]
  simp

/-- reading `ddd.ddde+xx` -/
theorem decVal_exp_plain (ip fp ex : List Char) (e : ℤ) (hi : ∀ c ∈ ip, isDig c = true) (hf : ∀ c ∈ fp, isDig c = true)
    (hne : ip ≠ []) (he : intVal ex = some e) : decVal (ip ++ '.' :: (fp ++ 'e' :: ex)) =
      some (((digitsNum (ip ++ fp) : ℕ) : ℚ) / 10 ^ fp.length * (10 : ℚ) ^ e) := by
  have hs : takeSign (ip ++ '.' :: (fp ++ 'e' :: ex)) = (1, ip ++ '.' :: (fp ++ 'e' :: ex)) := by
    apply takeSign_of_dig
    intro c hc
    cases ip with
    | nil => exact absurd rfl hne
    | cons d ip => left; simp at hc; subst hc; exact hi _ (by simp)
  obtain ⟨h1, h2⟩ := takeWhile_stop (l := fp ++ 'e' :: ex) hi (c := '.') (by decide)
  obtain ⟨h3, h4⟩ := takeWhile_stop (l := ex) hf (c := 'e') (by decide)
  have h5 : fracPart ('.' :: (fp ++ 'e' :: ex)) = (fp, 'e' :: ex) := by rw [fracPart, h3, h4]
  rw [decVal]
  simp only [hs, h1, h2, h5]
  rw [if_neg (by tauto), expPart, if_pos (Or.inl rfl), he]
  simp

/-- reading `ddde+xx` -/
theorem decVal_exp_digits (ip ex : List Char) (e : ℤ) (hi : ∀ c ∈ ip, isDig c = true)
    (hne : ip ≠ []) (he : intVal ex = some e) : decVal (ip ++ 'e' :: ex) = some ((digitsNum ip : ℕ) * (10 : ℚ) ^ e) := by
  have hs : takeSign (ip ++ 'e' :: ex) = (1, ip ++ 'e' :: ex) := by
    apply takeSign_of_dig
    intro c hc
    cases ip with
    | nil => exact absurd rfl hne
    | cons d ip => left; simp at hc; subst hc; exact hi _ (by simp)
  obtain ⟨h1, h2⟩ := takeWhile_stop (l := ex) hi (c := 'e') (by decide)
  have h5 : fracPart ('e' :: ex) = ([], 'e' :: ex) := rfl
  rw [decVal]
  simp only [hs, h1, h2, h5]
  rw [if_neg (by tauto), expPart, if_pos (Or.inl rfl), he]
  simp

/-- removing trailing zeros -/
theorem strip_zeros (ip fp : List Char) : ((digitsNum (ip ++ fp.rdropWhile (· == '0')) : ℕ) : ℚ) /
    10 ^ (fp.rdropWhile (· == '0')).length = ((digitsNum (ip ++ fp) : ℕ) : ℚ) / 10 ^ fp.length := by
  have h := rdropWhile_append_rtakeWhile (· == '0') fp
  have hz : fp.rtakeWhile (· == '0') = List.replicate (fp.rtakeWhile (· == '0')).length '0' := by
    rw [List.eq_replicate_iff]
    exact ⟨rfl, fun c hc => by simpa using List.mem_rtakeWhile_imp hc⟩
  set z := fp.rdropWhile (· == '0') with hzz
  set k := (fp.rtakeWhile (· == '0')).length
  rw [hz] at h
  rw [← h, ← List.append_assoc, digitsNum_append (ip ++ z), digitsNum_replicate_zero]
  simp only [List.length_append, List.length_replicate, Nat.add_zero]
  rw [pow_add]
  push_cast
  rw [mul_div_mul_right _ _ (by positivity)]

theorem zeros_isDig {fp : List Char} (hf : ∀ c ∈ fp, isDig c = true) : ∀ c ∈ fp.rdropWhile (· == '0'), isDig c = true :=
  fun c hc => hf c ((List.rdropWhile_prefix _ _).subset hc)

/-- the body of the general format without sign -/
def gBody (P : ℕ) (m : ℕ) (e : ℤ) : List Char :=
  let ds := fixDigits (P + 1) m
  let zeros (l : List Char) : List Char := l.rdropWhile (· == '0')
  if -4 ≤ e ∧ e < (P : ℤ) + 1 then
    let x : List Char × List Char :=
      if e < 0 then (['0'], List.replicate (e.natAbs - 1) '0' ++ ds) else (ds.take (e + 1).toNat, ds.drop (e + 1).toNat)
    if zeros x.2 = [] then x.1 else x.1 ++ '.' :: zeros x.2
  else
    let x := (ds.take 1, zeros (ds.drop 1))
    (if x.2 = [] then x.1 else x.1 ++ '.' :: x.2) ++ 'e' :: expStr e

theorem decVal_pointed (ip fp : List Char) (hi : ∀ c ∈ ip, isDig c = true) (hf : ∀ c ∈ fp, isDig c = true) (hne : ip ≠ []) :
    decVal (if fp.rdropWhile (· == '0') = [] then ip else ip ++ '.' :: fp.rdropWhile (· == '0')) =
      some (((digitsNum (ip ++ fp) : ℕ) : ℚ) / 10 ^ fp.length) := by
  rw [← strip_zeros]
  split
  · rename_i h
    rw [h, decVal_digits ip hi hne]
    simp
  · exact decVal_plain ip _ hi (zeros_isDig hf) (Or.inl hne)

theorem decVal_gBody (P m : ℕ) (e : ℤ) (hm : m < 10 ^ (P + 1)) :
    decVal (gBody P m e) = some ((m : ℚ) * (10 : ℚ) ^ (e - P)) ∧ ∀ c ∈ (gBody P m e).head?, isDig c = true ∨ c = '.' := by
  have hdig := fixDigits_isDig (P + 1) m
  have hlen := fixDigits_length (P + 1) m
  have hnum : digitsNum (fixDigits (P + 1) m) = m := by rw [digitsNum_fixDigits, Nat.mod_eq_of_lt hm]
  rw [gBody]
  set ds := fixDigits (P + 1) m with hds
  have hz : ∀ k, ∀ c ∈ List.replicate k '0', isDig c = true := by
    intro k c hc; rw [List.eq_of_mem_replicate hc]; rfl
  have hhead : ∀ (ip x : List Char), ip ≠ [] → (∀ c ∈ ip, isDig c = true) → ∀ c ∈ (ip ++ x).head?, isDig c = true ∨ c = '.' := by
    intro ip x hne hi c hc
    cases ip with
    | nil => exact absurd rfl hne
    | cons d ip => left; simp at hc; subst hc; exact hi _ (by simp)
  have hhead2 : ∀ (ip fp : List Char), ip ≠ [] → (∀ c ∈ ip, isDig c = true) →
      ∀ c ∈ (if fp.rdropWhile (· == '0') = [] then ip else ip ++ '.' :: fp.rdropWhile (· == '0')).head?, isDig c = true ∨ c = '.' := by
    intro ip fp hne hi
    split
    · have := hhead ip [] hne hi; rwa [List.append_nil] at this
    · exact hhead ip _ hne hi
  by_cases h1 : -4 ≤ e ∧ e < (P : ℤ) + 1
  · simp only [if_pos h1]
    by_cases h2 : e < 0
    · simp only [if_pos h2]
      have hall : ∀ c ∈ List.replicate (e.natAbs - 1) '0' ++ ds, isDig c = true := by
        intro c hc
        rcases List.mem_append.1 hc with hc | hc
        · exact hz _ c hc
        · exact hdig c hc
      have h0 : ∀ c ∈ ['0'], isDig c = true := by simp; rfl
      refine ⟨?_, hhead2 ['0'] _ (by simp) h0⟩
      rw [decVal_pointed ['0'] _ h0 hall (by simp), digitsNum_append, digitsNum_append, digitsNum_replicate_zero, hnum]
      have h0 : digitsNum ['0'] = 0 := rfl
      rw [h0]
      simp only [List.length_append, List.length_replicate, hlen, Nat.zero_mul, Nat.zero_add]
      congr 1
      rw [div_eq_mul_inv]
      congr 1
      rw [← zpow_natCast, ← zpow_neg]
      congr 1
      omega
    · simp only [if_neg h2]
      have ht : ∀ c ∈ ds.take (e + 1).toNat, isDig c = true := fun c hc => hdig c (List.mem_of_mem_take hc)
      have hd : ∀ c ∈ ds.drop (e + 1).toNat, isDig c = true := fun c hc => hdig c (List.mem_of_mem_drop hc)
      have hne : ds.take (e + 1).toNat ≠ [] := by
        intro hc
        have := congrArg List.length hc
        rw [List.length_take, hlen] at this
        simp at this
        omega
      refine ⟨?_, hhead2 _ _ hne ht⟩
      rw [decVal_pointed _ _ ht hd hne, List.take_append_drop, hnum, List.length_drop, hlen]
      congr 1
      rw [div_eq_mul_inv]
      congr 1
      rw [← zpow_natCast, ← zpow_neg]
      congr 1
      omega
  · simp only [if_neg h1]
    have ht : ∀ c ∈ ds.take 1, isDig c = true := fun c hc => hdig c (List.mem_of_mem_take hc)
    have hd : ∀ c ∈ ds.drop 1, isDig c = true := fun c hc => hdig c (List.mem_of_mem_drop hc)
    have hne : ds.take 1 ≠ [] := by
      intro hc
      have := congrArg List.length hc
      rw [List.length_take, hlen] at this
      simp at this
    have hval : ((digitsNum (ds.take 1 ++ (ds.drop 1).rdropWhile (· == '0')) : ℕ) : ℚ) /
        10 ^ ((ds.drop 1).rdropWhile (· == '0')).length * (10 : ℚ) ^ e = m * (10 : ℚ) ^ (e - P) := by
      rw [strip_zeros, List.take_append_drop, hnum, List.length_drop, hlen, Nat.add_sub_cancel, div_mul_eq_mul_div,
        mul_div_assoc, ← zpow_natCast, ← zpow_sub₀ (by norm_num)]
    by_cases h3 : (ds.drop 1).rdropWhile (· == '0') = []
    · rw [if_pos h3]
      refine ⟨?_, hhead _ _ hne ht⟩
      rw [decVal_exp_digits _ _ e ht hne (intVal_expStr e)]
      rw [h3] at hval
      simp at hval
      rw [hval]
    · rw [if_neg h3, List.append_assoc, List.cons_append]
      refine ⟨?_, hhead _ _ hne ht⟩
      rw [decVal_exp_plain _ _ _ e ht (zeros_isDig hd) hne (intVal_expStr e), hval]

/-- the general format denotes the rounded number -/
theorem decVal_gStr (P : ℕ) (v : ℚ) : decVal (gStr P v) = some (sciSigned P v) := by
  have e : gStr P v = (if v < 0 then ['-'] else []) ++ gBody P (sciRound P v).1 (sciRound P v).2 := rfl
  obtain ⟨h1, h2⟩ := decVal_gBody P (sciRound P v).1 (sciRound P v).2 (sciRound_range P v).1
  rw [e, sciSigned]
  split
  · rw [List.singleton_append, decVal_neg _ h2, h1]; rfl
  · rw [List.nil_append, h1]; rfl

/-! ### diameter ranges -/

/-- the text `s` denotes `n` to `d` significant digits -/
def Denotes (d : ℕ) (n : ℚ) (s : List Char) : Prop := ∃ r, decVal s = some r ∧ IsRounded d n r

theorem sigfigs_denotes (C : Classes) (n : ℚ) (d : ℕ) (hd : 1 ≤ d) : ∃ s, sigfigs C n d = .ok s ∧ Denotes d n s := by
  obtain ⟨b, r, h1, _, h3, h4⟩ := C36_sigfigs C n d hd
  exact ⟨_, h1, r, h3, h4⟩

/-- **C38.** A range without upper limit is `unconstrained`; otherwise both limits are written in km if the upper one is
at least 1 km, and in m (1/1000 km) if not, each denoting the limit to the given number of significant digits. -/
theorem C38_diameter_range (C : Classes) (d0 : ℚ) (sf : ℕ) (hsf : 1 ≤ sf) :
    diameterRange C d0 none sf = .ok "unconstrained".toList ∧
    ∀ d1 : ℚ, ∃ s0 s1, diameterRange C d0 (some d1) sf =
        .ok (s0 ++ '–' :: s1 ++ (if 1 ≤ d1 then " km".toList else " m".toList)) ∧
      Denotes sf (d0 / (if 1 ≤ d1 then 1 else 1 / 1000)) s0 ∧ Denotes sf (d1 / (if 1 ≤ d1 then 1 else 1 / 1000)) s1 := by
  refine ⟨rfl, ?_⟩
  intro d1
  by_cases h : 1 ≤ d1
  · obtain ⟨s0, h0, k0⟩ := sigfigs_denotes C d0 sf hsf
    obtain ⟨s1, h1, k1⟩ := sigfigs_denotes C d1 sf hsf
    refine ⟨s0, s1, ?_, by simpa [h] using k0, by simpa [h] using k1⟩
    rw [diameterRange]
    simp only [if_pos h, h0, h1]
    show Except.ok _ = _
    simp
  · obtain ⟨s0, h0, k0⟩ := sigfigs_denotes C (d0 * 1000) sf hsf
    obtain ⟨s1, h1, k1⟩ := sigfigs_denotes C (d1 * 1000) sf hsf
    refine ⟨s0, s1, ?_, by simpa [h] using k0, by simpa [h] using k1⟩
    rw [diameterRange]
    simp only [if_neg h, h0, h1]
    show Except.ok _ = _
    simp

example : diameterRange .ascii (65/100) (some (12/10)) 2 = .ok "0.65–1.2 km".toList ∧
    diameterRange .ascii (65/100) (some (95/100)) 2 = .ok "650–950 m".toList := by decide +kernel

/-! ### ages -/

/-- the unit (size in Ga, name) for an age: the largest one not exceeding it, years if there is none -/
def UnitFor (age size : ℚ) (name : List Char) : Prop :=
  age ≥ 1 ∧ size = 1 ∧ name = "Ga".toList ∨
  1 / 1000 ≤ age ∧ age < 1 ∧ size = 1 / 1000 ∧ name = "Ma".toList ∨
  1 / 1000000 ≤ age ∧ age < 1 / 1000 ∧ size = 1 / 1000000 ∧ name = "ka".toList ∨
  age < 1 / 1000000 ∧ size = 1 / 1000000000 ∧ name = "a".toList

/-- a forced unit -/
def UnitNamed (size : ℚ) (name : List Char) : Prop :=
  size = 1 ∧ name = "Ga".toList ∨ size = 1 / 1000 ∧ name = "Ma".toList ∨
  size = 1 / 1000000 ∧ name = "ka".toList ∨ size = 1 / 1000000000 ∧ name = "a".toList

theorem ageUnit_none (age : ℚ) : ∃ size name, ageUnit age none = .ok (size, name) ∧ UnitFor age size name := by
  rw [ageUnit]
  simp only [ageUnits, List.find?_cons]
  have hn : ("Ga".toList == "a".toList) = false ∧ ("Ma".toList == "a".toList) = false ∧ ("ka".toList == "a".toList) = false ∧
      ("a".toList == "a".toList) = true := by decide
  simp only [hn.1, hn.2.1, hn.2.2.1, hn.2.2.2, Bool.or_false, Bool.or_true]
  by_cases h1 : 1 ≤ age
  · simp only [h1, decide_true]
    exact ⟨_, _, rfl, Or.inl ⟨h1, rfl, rfl⟩⟩
  · simp only [h1, decide_false]
    by_cases h2 : 1 / 1000 ≤ age
    · simp only [h2, decide_true]
      exact ⟨_, _, rfl, Or.inr (Or.inl ⟨h2, not_le.1 h1, rfl, rfl⟩)⟩
    · simp only [h2, decide_false]
      by_cases h3 : 1 / 1000000 ≤ age
      · simp only [h3, decide_true]
        exact ⟨_, _, rfl, Or.inr (Or.inr (Or.inl ⟨h3, not_le.1 h2, rfl, rfl⟩))⟩
      · simp only [h3, decide_false]
        exact ⟨_, _, rfl, Or.inr (Or.inr (Or.inr ⟨not_le.1 h3, rfl, rfl⟩))⟩

theorem ageUnit_some (age size : ℚ) (name : List Char) (h : UnitNamed size name) : ageUnit age (some name) = .ok (size, name) := by
  rcases h with ⟨rfl, rfl⟩ | ⟨rfl, rfl⟩ | ⟨rfl, rfl⟩ | ⟨rfl, rfl⟩ <;> rfl

/-- the unit used: the forced one, or the one for the age -/
def UnitUsed (age : ℚ) (unit : Option (List Char)) (size : ℚ) (name : List Char) : Prop :=
  match unit with
  | none => UnitFor age size name
  | some u => name = u ∧ UnitNamed size name

theorem ageUnit_used (age : ℚ) (unit : Option (List Char)) (hu : ∀ u ∈ unit, ∃ size, UnitNamed size u) :
    ∃ size name, ageUnit age unit = .ok (size, name) ∧ UnitUsed age unit size name := by
  cases unit with
  | none => exact ageUnit_none age
  | some u =>
    obtain ⟨size, hs⟩ := hu u rfl
    exact ⟨size, u, ageUnit_some age size u hs, rfl, hs⟩

/-- **C37, age.** An age is written in the largest of the units Ga, Ma, ka, a not exceeding it (a for smaller ages), or in
the unit asked for; the number shown is the age in that unit to the requested significant digits (6 in the simple form
used for isochrons). -/
theorem C37_age (C : Classes) (age : ℚ) (sf : ℕ) (hsf : 1 ≤ sf) (unit : Option (List Char))
    (hu : ∀ u ∈ unit, ∃ size, UnitNamed size u) (e1 e2 : ℚ) (noError : Bool) (he : e1 ≤ 0 ∨ noError = true) :
    ∃ size name, UnitUsed age unit size name ∧
      (∃ s, Denotes sf (age / size) s ∧ ∀ mu,
        strAge C age e1 e2 sf unit false noError mu false =
          .ok ('$' :: (if mu then "𝜇".toList else []) ++ s ++ "$ ".toList ++ name) ∧
        strAge C age e1 e2 sf unit false noError mu true =
          .ok ("<math xmlns=\"http://www.w3.org/1998/Math/MathML\">".toList ++
            (if mu then "<mi>&#956;</mi>".toList else []) ++ s ++ "<mtext>&#8239;".toList ++ name ++ "</mtext></math>".toList)) ∧
      (∃ s, Denotes 6 (age / size) s ∧ ∀ mu m, strAge C age e1 e2 sf unit true noError mu m = .ok (s ++ ' ' :: name)) := by
  obtain ⟨size, name, h1, h2⟩ := ageUnit_used age unit hu
  obtain ⟨s, h3, h4⟩ := sigfigs_denotes C (age / size) sf hsf
  have hc : (0 < e1 && !noError) = false := by
    rcases he with he | he
    · simp [not_lt.2 he]
    · simp [he]
  refine ⟨size, name, h2, ⟨s, h4, ?_⟩, ⟨gStr 5 (age / size), ⟨_, decVal_gStr 5 _, isRounded_sci 5 _⟩, ?_⟩⟩
  · intro mu
    constructor
    · simp only [strAge, h1, hc]
      show (sigfigs C (age / size) sf >>= _) = _
      rw [h3]; rfl
    · simp only [strAge, h1, hc]
      show (sigfigs C (age / size) sf >>= _) = _
      rw [h3]; rfl
  · intro mu m
    simp only [strAge, h1, hc]
    rfl

/-- **C37, errors.** With a positive upper error both errors are written behind the age, in the same unit, to one
significant digit less. -/
theorem C37_errors (C : Classes) (age : ℚ) (sf : ℕ) (hsf : 2 ≤ sf) (unit : Option (List Char))
    (hu : ∀ u ∈ unit, ∃ size, UnitNamed size u) (e1 e2 : ℚ) (he : 0 < e1) :
    ∃ size name s s1 s2, UnitUsed age unit size name ∧ Denotes sf (age / size) s ∧ Denotes (sf - 1) (e1 / size) s1 ∧
      Denotes (sf - 1) (e2 / size) s2 ∧ ∀ mu,
        strAge C age e1 e2 sf unit false false mu false = .ok ('$' :: (if mu then "𝜇".toList else []) ++
          (s ++ "^{+".toList ++ s1 ++ "}_{-".toList ++ s2 ++ "}".toList) ++ "$ ".toList ++ name) ∧
        strAge C age e1 e2 sf unit false false mu true = .ok ("<math xmlns=\"http://www.w3.org/1998/Math/MathML\">".toList ++
          (if mu then "<mi>&#956;</mi>".toList else []) ++ ("<msubsup><mtext>".toList ++ s ++ "</mtext><mtext>&#x2212;".toList ++ s2 ++
        "</mtext><mtext>+".toList ++ s1 ++ "</mtext></msubsup>".toList) ++ "<mtext>&#8239;".toList ++ name ++ "</mtext></math>".toList) := by
  obtain ⟨size, name, h1, h2⟩ := ageUnit_used age unit hu
  obtain ⟨s, h3, h4⟩ := sigfigs_denotes C (age / size) sf (by omega)
  obtain ⟨s1, h5, h6⟩ := sigfigs_denotes C (e1 / size) (sf - 1) (by omega)
  obtain ⟨s2, h7, h8⟩ := sigfigs_denotes C (e2 / size) (sf - 1) (by omega)
  have hc : (0 < e1 && !false) = true := by simp [he]
  refine ⟨size, name, s, s1, s2, h2, h4, h6, h8, fun mu => ⟨?_, ?_⟩⟩
  · simp only [strAge, h1, hc]
    show (sigfigs C (age / size) sf >>= _) = _
    simp only [h3, bind, Except.bind, if_true, h5, h7]
    rfl
  · simp only [strAge, h1, hc]
    show (sigfigs C (age / size) sf >>= _) = _
    simp only [h3, bind, Except.bind, if_true, h5, h7]
    rfl

/-- an age with errors in Ma; an isochron; a forced unit; an unknown unit -/
example : strAge .ascii (345/1000) (12/1000) (13/1000) 3 none false false true false = .ok "$𝜇345^{+12}_{-13}$ Ma".toList ∧
    strAge .ascii (1/10000) 0 0 3 none true false false false = .ok "100 ka".toList ∧
    strAge .ascii (345/1000) 0 0 3 (some "Ga".toList) false false false false = .ok "$0.345$ Ga".toList ∧
    strAge .ascii 1 0 0 3 (some "Gyr".toList) false false false false = .error .value := by decide +kernel

end Verif.Props
