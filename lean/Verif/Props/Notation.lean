import Verif.Model.Notation
import Verif.Props.Scc

/-! C89, C90: numbers with powers of ten, and percentiles. -/

namespace Verif.Props

open Verif.Py Verif.Text Verif.Scc

/-! ### scientific notation -/

theorem isRounded_scale {d : ℕ} {n r : ℚ} (j : ℤ) (h : IsRounded d n r) : IsRounded d (n * (10 : ℚ) ^ j) (r * (10 : ℚ) ^ j) := by
  obtain ⟨⟨m0, k0, h1, h2⟩, h3, h4⟩ := h
  have hp : (0 : ℚ) < (10 : ℚ) ^ j := by positivity
  have hne : (10 : ℚ) ^ j ≠ 0 := hp.ne'
  have hs : ∀ m k : ℤ, n * (10 : ℚ) ^ j - m * (10 : ℚ) ^ k = (n - m * (10 : ℚ) ^ (k - j)) * (10 : ℚ) ^ j := by
    intro m k
    rw [zpow_sub₀ (by norm_num)]
    field_simp
  have hr : n * (10 : ℚ) ^ j - r * (10 : ℚ) ^ j = (n - r) * (10 : ℚ) ^ j := by ring
  refine ⟨⟨m0, k0 + j, h1, by rw [h2, zpow_add₀ (by norm_num)]; ring⟩, ?_, ?_⟩
  · intro m k hm
    rw [hs, hr, abs_mul, abs_mul, abs_of_pos hp]
    exact mul_le_mul_of_nonneg_right (h3 m (k - j) hm) hp.le
  · intro m k hm heq hn
    rw [hs, hr, abs_mul, abs_mul, abs_of_pos hp] at heq
    obtain ⟨m', k', e1, e2, e3, e4⟩ := h4 m (k - j) hm (mul_right_cancel₀ hne heq) (by
      intro hc
      apply hn
      rw [← hc, zpow_sub₀ (by norm_num)]
      field_simp)
    refine ⟨m', k' + j, by rw [e1, zpow_add₀ (by norm_num)]; ring, e2, ?_, ?_⟩
    · rw [abs_mul, abs_of_pos hp, show k' + j + (d : ℤ) = k' + d + j by ring, zpow_add₀ (by norm_num) (k' + (d : ℤ))]
      exact mul_le_mul_of_nonneg_right e3 hp.le
    · rw [abs_mul, abs_of_pos hp, show k' + j + (d : ℤ) - 1 = k' + d - 1 + j by ring, zpow_add₀ (by norm_num) (k' + (d : ℤ) - 1)]
      exact mul_le_mul_of_nonneg_right e4 hp.le

theorem decVal_mantStr (p m : ℕ) (hm : m < 10 ^ (p + 1)) : decVal (mantStr (fixDigits (p + 1) m)) = some ((m : ℚ) / 10 ^ p) ∧
    ∀ c ∈ mantStr (fixDigits (p + 1) m), isDig c = true ∨ c = '.' := by
  have hdig := fixDigits_isDig (p + 1) m
  refine ⟨?_, mantStr_chars hdig⟩
  have hnum : digitsNum (fixDigits (p + 1) m) = m := by rw [digitsNum_fixDigits, Nat.mod_eq_of_lt hm]
  have hlen := fixDigits_length (p + 1) m
  generalize fixDigits (p + 1) m = ds at *
  match ds, hlen with
  | [c], hlen =>
    have : p = 0 := by simpa using hlen.symm
    subst this
    rw [mantStr, decVal_digits _ hdig (by simp), hnum]
    simp
  | c :: d :: l, hlen =>
    have h := decVal_plain [c] (d :: l) (fun x hx => hdig x (by simp at hx; simp [hx])) (fun x hx => hdig x (List.mem_cons_of_mem _ hx))
      (Or.inl (by simp))
    rw [List.singleton_append] at h
    show decVal (c :: '.' :: d :: l) = _
    rw [h, List.singleton_append, hnum]
    congr 3
    simpa using hlen

/-- the exponential notation taken apart -/
theorem split_sci (p : ℕ) (v : ℚ) : ∃ s0, split 'e' (sciStr p v) = [s0, expStr (sciRound p v).2] ∧
    decVal s0 = some (sciSigned p v / (10 : ℚ) ^ (sciRound p v).2) := by
  obtain ⟨h1, h2⟩ := decVal_mantStr p (sciRound p v).1 (sciRound_range p v).1
  have hne : ∀ c, isDig c = true ∨ c = '.' → c ≠ 'e' := by
    rintro c (hc | rfl)
    · exact (dig_ne_sign hc).2.2.2.1
    · decide
  refine ⟨(if v < 0 then ['-'] else []) ++ mantStr (fixDigits (p + 1) (sciRound p v).1), ?_, ?_⟩
  · rw [sciStr, split_append, split_of_not_mem]
    · rw [expStr]
      intro hc
      rcases List.mem_cons.1 hc with hc | hc
      · split at hc <;> exact absurd hc (by decide)
      · refine hne 'e' (Or.inl ?_) rfl
        split at hc
        · exact fixDigits_isDig _ _ _ hc
        · exact fixDigits_isDig _ _ _ hc
    · intro hc
      rcases List.mem_append.1 hc with hc | hc
      · split at hc <;> simp at hc
      · exact hne 'e' (h2 _ hc) rfl
  · have e : sciVal p v / (10 : ℚ) ^ (sciRound p v).2 = ((sciRound p v).1 : ℚ) / 10 ^ p := by
      rw [sciVal, zpow_sub₀ (by norm_num), zpow_natCast]
      field_simp
    rw [sciSigned]
    split
    · rw [List.singleton_append, decVal_neg _ (fun c hc => h2 c (List.mem_of_mem_head? hc)), h1]
      rw [neg_div, e]; rfl
    · rw [List.nil_append, h1, e]

/-- Specification: the number `v` is shown without power of ten. -/
def Ordinary (v : ℚ) (force : Bool) : Prop := v = 0 ∨ 1 / 100 < |v| ∧ |v| < 10000 ∧ force = false

/-- Specification: `s` times ten to `k` shows `v` with `sf` significant figures: ordinary numbers without power of ten, others with
one figure before the point. -/
def ShownAs (v : ℚ) (sf : ℕ) (force : Bool) (s : List Char) (k : ℤ) : Prop :=
  ∃ r, decVal s = some r ∧ IsRounded sf v (r * (10 : ℚ) ^ k) ∧ (Ordinary v force → k = 0) ∧ (¬ Ordinary v force → 1 ≤ |r| ∧ |r| < 10)

theorem notationNumber_shown (C : Classes) (v : ℚ) (sf : ℕ) (hsf : 1 ≤ sf) (force : Bool) :
    ∃ s k, notationNumber C v sf force = .ok (s, k) ∧ ShownAs v sf force s k := by
  have ho : (v = 0 ∨ ((1 / 100 < |v| ∧ |v| < 10000) ∧ force = false)) ↔ Ordinary v force := by
    rw [Ordinary, and_assoc]
  unfold notationNumber
  by_cases h : v = 0 ∨ ((1 / 100 < |v| ∧ |v| < 10000) ∧ force = false)
  · obtain ⟨s, h1, r, h2, h3⟩ := sigfigs_denotes C v sf hsf
    refine ⟨s, 0, ?_, r, h2, by simpa using h3, fun _ => rfl, fun hn => absurd (ho.1 h) hn⟩
    rw [if_pos h, h1]; rfl
  · rw [if_neg h, if_neg (by omega)]
    obtain ⟨p, rfl⟩ : ∃ p, sf = p + 1 := ⟨sf - 1, by omega⟩
    rw [show p + 1 - 1 = p by omega]
    obtain ⟨s0, h1, h2⟩ := split_sci p v
    rw [h1]
    simp only [intVal_expStr]
    refine ⟨s0, (sciRound p v).2, rfl, _, h2, ?_, fun hc => absurd (ho.2 hc) h, fun _ => ?_⟩
    · rw [div_mul_cancel₀ _ (by positivity)]
      exact isRounded_sci p v
    · have hv : v ≠ 0 := fun hc => h (Or.inl hc)
      obtain ⟨r1, r2, _⟩ := sciRound_range p v
      have e : |sciSigned p v / (10 : ℚ) ^ (sciRound p v).2| = ((sciRound p v).1 : ℚ) / 10 ^ p := by
        have e0 : |sciSigned p v| = sciVal p v := by
          have : 0 ≤ sciVal p v := by rw [sciVal]; positivity
          rw [sciSigned]; split
          · rw [abs_neg, abs_of_nonneg this]
          · rw [abs_of_nonneg this]
        rw [abs_div, e0, abs_of_pos (by positivity : (0 : ℚ) < (10 : ℚ) ^ (sciRound p v).2), sciVal, zpow_sub₀ (by norm_num), zpow_natCast]
        field_simp
      rw [e]
      have r2' : (10 : ℚ) ^ p ≤ ((sciRound p v).1 : ℚ) := by exact_mod_cast r2 hv
      have r1' : ((sciRound p v).1 : ℚ) < 10 ^ (p + 1) := by exact_mod_cast r1
      constructor
      · rw [le_div_iff₀ (by positivity), one_mul]; exact r2'
      · rw [div_lt_iff₀ (by positivity)]
        calc _ < (10 : ℚ) ^ (p + 1) := r1'
          _ = 10 * 10 ^ p := by ring

/-- Specification: the power of ten as text; a zero exponent is not shown. -/
def powerText (mathML : Bool) (k : ℤ) (t : List Char) : Prop :=
  if k = 0 then t = [] else ∃ kt, intVal kt = some k ∧ t = if mathML then
    "<mo>&#183;</mo><msup><mtext>10</mtext><mtext>".toList ++ kt ++ "</mtext></msup>".toList else "\\cdot10^{".toList ++ kt ++ "}".toList

/-- Specification: the unit as text. -/
def unitText (mathML : Bool) (unit : Option (List Char)) (t : List Char) : Prop :=
  (unit = none ∧ t = []) ∨
  (unit = some "km2".toList ∧ t = if mathML then "<msup><mtext>&#8239;km</mtext><mtext>2</mtext></msup>".toList else "$ km$^{2}".toList) ∨
  (unit = some "km-2".toList ∧ t = if mathML then "<msup><mtext>&#8239;km</mtext><mtext>-2</mtext></msup>".toList else "$ km$^{-2}".toList)

/-- Specification: the text around the number. -/
def around (mathML : Bool) (body power unit : List Char) : List Char :=
  if mathML then "<math xmlns=\"http://www.w3.org/1998/Math/MathML\">".toList ++ body ++ power ++ unit ++ "</math>".toList
  else "$".toList ++ body ++ power ++ unit ++ "$".toList

theorem unit_known {unit : Option (List Char)} (hu : unit = none ∨ unit = some "km2".toList ∨ unit = some "km-2".toList) :
    ∃ a b, notationUnit unit = .ok (a, b) ∧ unitText false unit a ∧ unitText true unit b := by
  rcases hu with rfl | rfl | rfl
  · exact ⟨[], [], rfl, Or.inl ⟨rfl, rfl⟩, Or.inl ⟨rfl, rfl⟩⟩
  · exact ⟨_, _, rfl, Or.inr (Or.inl ⟨rfl, rfl⟩), Or.inr (Or.inl ⟨rfl, rfl⟩)⟩
  · exact ⟨_, _, rfl, Or.inr (Or.inr ⟨rfl, rfl⟩), Or.inr (Or.inr ⟨rfl, rfl⟩)⟩

theorem powerText_of (m : Bool) (k : ℤ) : powerText m k (if k = 0 then [] else if m then
    "<mo>&#183;</mo><msup><mtext>10</mtext><mtext>".toList ++ intStr k ++ "</mtext></msup>".toList else
    "\\cdot10^{".toList ++ intStr k ++ "}".toList) := by
  rw [powerText]
  by_cases hk : k = 0
  · simp only [hk, if_true]
  · rw [if_neg hk, if_neg hk]
    exact ⟨intStr k, intVal_intStr k, rfl⟩

/-- **C89, value.** A number is shown, in either notation, as digits and (unless the exponent is 0) a power of ten, followed by the unit.
Digits times the power are the number rounded to the requested significant figures; 0 and, unless forced, the numbers between 0.01 and
10000 have no power, all others have one figure before the point. -/
theorem C89_value (C : Classes) (v e2 : ℚ) (sf : ℕ) (hsf : 1 ≤ sf) (force mathML : Bool) (unit : Option (List Char))
    (hu : unit = none ∨ unit = some "km2".toList ∨ unit = some "km-2".toList) :
    ∃ s k p u, scientificNotation C v none e2 sf force mathML unit = .ok (around mathML s p u) ∧
      ShownAs v sf force s k ∧ powerText mathML k p ∧ unitText mathML unit u := by
  obtain ⟨a, b, h1, h2, h3⟩ := unit_known hu
  obtain ⟨s, k, h4, h5⟩ := notationNumber_shown C v sf hsf force
  cases mathML
  · refine ⟨s, k, _, a, ?_, h5, powerText_of false k, h2⟩
    rw [scientificNotation, h1, ok_bind, h4]; rfl
  · refine ⟨s, k, _, b, ?_, h5, powerText_of true k, h3⟩
    rw [scientificNotation, h1, ok_bind, h4]; rfl

/-- **C89, limits.** With limits the differences to the value are shown with the same power of ten and one figure less, the upper
one with `+`, the lower one with `-`. -/
theorem C89_limits (C : Classes) (v e1 e2 : ℚ) (sf : ℕ) (hsf : 2 ≤ sf) (force mathML : Bool) (unit : Option (List Char))
    (hu : unit = none ∨ unit = some "km2".toList ∨ unit = some "km-2".toList) :
    ∃ s s1 s2 k p u, scientificNotation C v (some e1) e2 sf force mathML unit = .ok (around mathML (if mathML then
        "<msubsup><mtext>".toList ++ s ++ "</mtext><mtext>&#x2212;".toList ++ s2 ++ "</mtext><mtext>+".toList ++ s1 ++
          "</mtext></msubsup>".toList else s ++ ("^{+".toList ++ s1 ++ "}_{-".toList ++ s2 ++ "}".toList)) p u) ∧
      ShownAs v sf force s k ∧ powerText mathML k p ∧ unitText mathML unit u ∧
      (∃ r1, decVal s1 = some r1 ∧ IsRounded (sf - 1) (e1 - v) (r1 * (10 : ℚ) ^ k)) ∧
      (∃ r2, decVal s2 = some r2 ∧ IsRounded (sf - 1) (v - e2) (r2 * (10 : ℚ) ^ k)) := by
  obtain ⟨a, b, h1, h2, h3⟩ := unit_known hu
  obtain ⟨s, k, h4, h5⟩ := notationNumber_shown C v sf (by omega) force
  obtain ⟨s1, h6, r1, h7, h8⟩ := sigfigs_denotes C ((e1 - v) / (10 : ℚ) ^ k) (sf - 1) (by omega)
  obtain ⟨s2, h9, r2, h10, h11⟩ := sigfigs_denotes C ((v - e2) / (10 : ℚ) ^ k) (sf - 1) (by omega)
  have g1 := isRounded_scale k h8
  have g2 := isRounded_scale k h11
  rw [div_mul_cancel₀ _ (by positivity)] at g1 g2
  cases mathML
  · refine ⟨s, s1, s2, k, _, a, ?_, h5, powerText_of false k, h2, ⟨r1, h7, g1⟩, ⟨r2, h10, g2⟩⟩
    rw [scientificNotation, h1, ok_bind, h4, ok_bind]
    simp only [h6, h9, ok_bind]; rfl
  · refine ⟨s, s1, s2, k, _, b, ?_, h5, powerText_of true k, h3, ⟨r1, h7, g1⟩, ⟨r2, h10, g2⟩⟩
    rw [scientificNotation, h1, ok_bind, h4, ok_bind]
    simp only [h6, h9, ok_bind]; rfl

/-- **C89, refused.** Another unit is a KeyError, whatever the number. -/
theorem C89_refused (C : Classes) (v e2 : ℚ) (e1 : Option ℚ) (sf : ℕ) (force mathML : Bool) (u : List Char)
    (h1 : u ≠ "km2".toList) (h2 : u ≠ "km-2".toList) :
    scientificNotation C v e1 e2 sf force mathML (some u) = .error .key := by
  have : notationUnit (some u) = .error .key := by
    rw [notationUnit, if_neg h2, if_neg h1]
  rw [scientificNotation, this]; rfl

/-- an area, a density with limits, and the bounds of the ordinary numbers -/
example : scientificNotation .ascii 31415.9 none 0 3 false false (some "km2".toList) = .ok "$3.14\\cdot10^{4}$ km$^{2}$".toList ∧
    scientificNotation .ascii 0.000234 (some 0.000301) 0.000199 3 false false (some "km-2".toList) =
      .ok "$2.34^{+0.67}_{-0.35}\\cdot10^{-4}$ km$^{-2}$".toList ∧
    scientificNotation .ascii 0.01 none 0 3 false false none = .ok "$1.00\\cdot10^{-2}$".toList ∧
    scientificNotation .ascii 9999.9 none 0 3 false false none = .ok "$10000$".toList ∧
    scientificNotation .ascii (-3.14) none 0 2 true false none = .ok "$-3.1$".toList ∧
    scientificNotation .ascii 0.0123 none 0 2 false true none =
      .ok "<math xmlns=\"http://www.w3.org/1998/Math/MathML\">0.012</math>".toList := by decide +kernel

/-! ### percentiles -/

theorem roundEven_near {x : ℚ} (hx : 0 ≤ x) {z : ℕ} (h : |x - z| ≤ 1 / 2) (he : |x - z| = 1 / 2 → z % 2 = 0) : roundEven x = z := by
  obtain ⟨h1, h2⟩ := roundEven_spec x hx
  by_contra hne
  have a1 := h1 (z : ℤ)
  push_cast at a1
  have a2 : (1 : ℚ) ≤ |(roundEven x : ℚ) - z| := by
    rcases lt_or_gt_of_ne hne with hl | hl
    · have : (roundEven x : ℚ) + 1 ≤ z := by exact_mod_cast hl
      rw [abs_of_nonpos (by linarith)]; linarith
    · have : (z : ℚ) + 1 ≤ roundEven x := by exact_mod_cast hl
      rw [abs_of_nonneg (by linarith)]; linarith
  have a3 : |(roundEven x : ℚ) - z| ≤ |x - roundEven x| + |x - z| := by
    have := abs_sub_le (roundEven x : ℚ) x z
    rwa [abs_sub_comm (roundEven x : ℚ) x] at this
  have e1 : |x - z| = 1 / 2 := by linarith
  have e2 : |x - roundEven x| = 1 / 2 := by linarith
  have b1 := he e1
  have b2 := h2 (z : ℤ) (by push_cast; rw [e1, e2]) (fun hc => hne (by exact_mod_cast hc.symm))
  -- both even and at distance one
  have b3 : |(roundEven x : ℚ) - z| = 1 := le_antisymm (by linarith) a2
  rcases abs_eq (by norm_num : (0:ℚ) ≤ 1) |>.1 b3 with c | c
  · have : roundEven x = z + 1 := by
      have : (roundEven x : ℚ) = z + 1 := by linarith
      exact_mod_cast this
    omega
  · have : roundEven x + 1 = z := by
      have : (roundEven x : ℚ) + 1 = z := by linarith
      exact_mod_cast this
    omega

theorem decVal_fixedStr (k : ℕ) (q : ℚ) (hq : 0 ≤ q) : decVal (fixedStr k q) = some ((roundEven (q * 10 ^ k) : ℚ) / 10 ^ k) := by
  rw [fixedStr]
  split
  · rename_i h
    subst h
    rw [if_neg (not_lt.2 hq), List.nil_append, decVal_digits (natStr _) (fun c hc => fixDigits_isDig _ _ c hc) (natStr_ne_nil _), digitsNum_natStr,
      abs_of_nonneg hq]
    simp
  · rw [decVal_fixStr, roundTo, if_neg (not_lt.2 hq), abs_of_nonneg hq, one_mul]

/-- the number of decimals of two significant figures -/
theorem two_figures : ∀ j : ℕ, j < 6 → ∀ m : ℕ, m < 100 → 10 ≤ m →
    (gBody 1 m (1 - (j : ℤ))).length - 2 ≤ j ∧ 10 ^ (j - ((gBody 1 m (1 - (j : ℤ))).length - 2)) ∣ m := by decide +kernel

/-- the number of decimals of the complement -/
theorem complement_decimals (q : ℚ) (h0 : 1 / 10000 ≤ q) (h1 : q ≤ 50) : ∃ N : ℕ,
    sciVal 1 q * 10 ^ ((gStr 1 q).length - 2) = N ∧ N ≤ 100 * 10 ^ ((gStr 1 q).length - 2) ∧
    (((gStr 1 q).length - 2 : ℕ) : ℤ) ≤ 1 - Int.log 10 q := by
  have hq : 0 < q := lt_of_lt_of_le (by norm_num) h0
  obtain ⟨l1, l2⟩ := ten_log q hq
  obtain ⟨r1, r2, _⟩ := sciRound_range 1 q
  have hg : gStr 1 q = gBody 1 (sciRound 1 q).1 (sciRound 1 q).2 := by
    have : gStr 1 q = (if q < 0 then ['-'] else []) ++ gBody 1 (sciRound 1 q).1 (sciRound 1 q).2 := rfl
    rw [this, if_neg (not_lt.2 hq.le)]; rfl
  have hlow : -4 ≤ Int.log 10 q := by
    by_contra hc
    push Not at hc
    have : (10 : ℚ) ^ (Int.log 10 q + 1) ≤ (10 : ℚ) ^ (-4 : ℤ) := zpow_le_zpow_right₀ (by norm_num) (by omega)
    norm_num at this
    linarith
  have hup : Int.log 10 q ≤ 1 := by
    by_contra hc
    push Not at hc
    have : (10 : ℚ) ^ (2 : ℤ) ≤ (10 : ℚ) ^ (Int.log 10 q) := zpow_le_zpow_right₀ (by norm_num) (by omega)
    norm_num at this
    linarith
  have he : Int.log 10 q ≤ (sciRound 1 q).2 ∧ (sciRound 1 q).2 ≤ 1 := by
    unfold sciRound
    rw [if_neg hq.ne']
    simp only [abs_of_pos hq]
    split
    · rename_i hm
      refine ⟨by simp, ?_⟩
      show Int.log 10 q + 1 ≤ 1
      by_contra hc
      have h2 : Int.log 10 q = 1 := by omega
      rw [h2] at hm
      have := (roundEven_spec (q * (10 : ℚ) ^ (((1 : ℕ) : ℤ) - 1)) (by positivity)).1 50
      rw [hm] at this
      norm_num at this
      rw [abs_of_nonpos (by linarith), abs_of_nonpos (by linarith)] at this
      linarith
    · exact ⟨le_rfl, hup⟩
  obtain ⟨j, hj⟩ : ∃ j : ℕ, (sciRound 1 q).2 = 1 - (j : ℤ) := ⟨(1 - (sciRound 1 q).2).toNat, by omega⟩
  obtain ⟨d1, N, d2⟩ := two_figures j (by omega) (sciRound 1 q).1 (by simpa using r1) (by simpa using r2 hq.ne')
  have hk : gStr 1 q = gBody 1 (sciRound 1 q).1 (1 - (j : ℤ)) := by rw [hg, hj]
  rw [← hk] at d1 d2
  generalize hkk : (gStr 1 q).length - 2 = k at *
  have hv : sciVal 1 q * 10 ^ k = N := by
    rw [sciVal, hj, d2]
    obtain ⟨i, rfl⟩ : ∃ i, j = k + i := ⟨j - k, by omega⟩
    rw [show k + i - k = i by omega]
    push_cast
    rw [show (1 : ℤ) - ((k : ℤ) + i) - 1 = -((k + i : ℕ) : ℤ) by push_cast; ring, zpow_neg, zpow_natCast, pow_add]
    field_simp
  refine ⟨N, hv, ?_, by omega⟩
  have : sciVal 1 q ≤ 100 := by
    rw [sciVal]
    have a1 : ((sciRound 1 q).1 : ℚ) ≤ 100 := by
      have : (sciRound 1 q).1 ≤ 100 := by simpa using r1.le
      exact_mod_cast this
    have a2 : (10 : ℚ) ^ ((sciRound 1 q).2 - ((1 : ℕ) : ℤ)) ≤ 1 := by
      have := zpow_le_zpow_right₀ (a := (10 : ℚ)) (by norm_num) (show (sciRound 1 q).2 - ((1 : ℕ) : ℤ) ≤ 0 by push_cast; omega)
      simpa using this
    calc _ ≤ (100 : ℚ) * 1 := mul_le_mul a1 a2 (by positivity) (by norm_num)
      _ = 100 := by norm_num
  have h2 : (N : ℚ) ≤ 100 * 10 ^ k := by
    rw [← hv]; exact mul_le_mul_of_nonneg_right this (by positivity)
  exact_mod_cast h2

/-- **C90.** A percentile is shown with two significant figures if it is below 50; from 50 on, what is missing to 100 has two
significant figures, for percentiles up to 99.9999 and for 100.  Missing: percentiles between 99.9999 and 100, for which it is false
(see the counterexample). -/
theorem C90_percentile_partial (p : ℚ) (h0 : 0 ≤ p) (h1 : p ≤ 100) :
    (p < 50 → ∃ r, decVal (percentileSigfigs p 2) = some r ∧ IsRounded 2 p r) ∧
    (50 ≤ p → p ≤ 99.9999 ∨ p = 100 → ∃ r, decVal (percentileSigfigs p 2) = some (100 - r) ∧ IsRounded 2 (100 - p) r) := by
  constructor
  · intro h
    rw [percentileSigfigs, if_pos h]
    exact ⟨_, decVal_gStr 1 p, isRounded_sci 1 p⟩
  · intro h h2
    rw [percentileSigfigs, if_neg (not_lt.2 h)]
    rcases h2 with h2 | rfl
    · obtain ⟨q, rfl⟩ : ∃ q, p = 100 - q := ⟨100 - p, by ring⟩
      have hq0 : 1 / 10000 ≤ q := by norm_num at h2 ⊢; linarith
      have hqp : 0 < q := lt_of_lt_of_le (by norm_num) hq0
      obtain ⟨N, c1, c2, c3⟩ := complement_decimals q hq0 (by linarith)
      refine ⟨sciVal 1 q, ?_, ?_⟩
      · show decVal (fixedStr ((gStr 1 (100 - (100 - q))).length - 2) (100 - q)) = _
        rw [sub_sub_cancel, decVal_fixedStr _ _ h0]
        generalize (gStr 1 q).length - 2 = k at *
        have hk : (0 : ℚ) < 10 ^ k := by positivity
        have hz : roundEven ((100 - q) * 10 ^ k) = 100 * 10 ^ k - N := by
          obtain ⟨_, _, hv⟩ := sciRound_range 1 q
          have hv := hv hqp.ne'
          rw [abs_of_pos hqp] at hv
          set E := Int.log 10 q with hE
          set x := q * (10 : ℚ) ^ (((1 : ℕ) : ℤ) - E) with hx
          have hx0 : 0 ≤ x := by positivity
          obtain ⟨s1, s2⟩ := roundEven_spec x hx0
          have hhalf : |x - roundEven x| ≤ 1 / 2 := by
            have a1 := s1 ⌊x⌋
            have a2 := s1 (⌊x⌋ + 1)
            have f1 := Int.floor_le x
            have f2 := Int.lt_floor_add_one x
            rw [abs_of_nonneg (by linarith : (0:ℚ) ≤ x - ⌊x⌋)] at a1
            rw [abs_of_nonpos (by push_cast; linarith : x - ((⌊x⌋ + 1 : ℤ) : ℚ) ≤ 0)] at a2
            push_cast at a2
            linarith
          have hN : (N : ℚ) = roundEven x * (10 : ℚ) ^ (E - ((1 : ℕ) : ℤ)) * 10 ^ k := by rw [← c1, hv]
          have hqx : q * 10 ^ k = x * (10 : ℚ) ^ (E - ((1 : ℕ) : ℤ)) * 10 ^ k := by
            rw [hx, mul_assoc q, ← zpow_add₀ (by norm_num)]
            simp
          have hd : (100 - q) * 10 ^ k - ((100 * 10 ^ k - N : ℕ) : ℚ) = -((x - roundEven x) * (10 : ℚ) ^ (E - 1 + k)) := by
            rw [Nat.cast_sub c2, zpow_add₀ (by norm_num), zpow_natCast]
            push_cast
            push_cast at hN hqx
            rw [sub_mul, hqx, hN]
            ring
          have hpow : (10 : ℚ) ^ (E - 1 + k) ≤ 1 := by
            have := zpow_le_zpow_right₀ (a := (10 : ℚ)) (by norm_num) (show E - 1 + (k : ℤ) ≤ 0 by omega)
            simpa using this
          have hpos : (0 : ℚ) < (10 : ℚ) ^ (E - 1 + k) := by positivity
          apply roundEven_near (by have := h0; positivity)
          · rw [hd, abs_neg, abs_mul, abs_of_pos hpos]
            calc _ ≤ (1 / 2 : ℚ) * 1 := mul_le_mul hhalf hpow hpos.le (by norm_num)
              _ = 1 / 2 := by norm_num
          · intro heq
            rw [hd, abs_neg, abs_mul, abs_of_pos hpos] at heq
            have hp1 : (10 : ℚ) ^ (E - 1 + k) = 1 := by
              by_contra hne
              have : (10 : ℚ) ^ (E - 1 + k) < 1 := lt_of_le_of_ne hpow hne
              have h3 : |x - roundEven x| * (10 : ℚ) ^ (E - 1 + k) ≤ 1 / 2 * (10 : ℚ) ^ (E - 1 + k) :=
                mul_le_mul_of_nonneg_right hhalf hpos.le
              linarith
            rw [hp1, mul_one] at heq
            have hEk : E - 1 + (k : ℤ) = 0 := by
              by_contra hne
              have h3 : E - 1 + (k : ℤ) ≤ -1 := by omega
              have := zpow_le_zpow_right₀ (a := (10 : ℚ)) (by norm_num) h3
              rw [hp1] at this
              norm_num at this
            have hNM : N = roundEven x := by
              have : (N : ℚ) = roundEven x := by
                rw [hN, mul_assoc, ← zpow_natCast, ← zpow_add₀ (by norm_num)]
                push_cast
                rw [hEk]; simp
              exact_mod_cast this
            have heven : roundEven x % 2 = 0 := by
              rcases abs_eq (by norm_num : (0 : ℚ) ≤ 1 / 2) |>.1 heq with c | c
              · refine s2 (roundEven x + 1) ?_ (by omega)
                rw [heq]
                push_cast
                rw [abs_of_nonpos (by linarith)]; linarith
              · refine s2 (roundEven x - 1) ?_ (by omega)
                rw [heq]
                push_cast
                rw [abs_of_nonneg (by linarith)]; linarith
            have h100 : (100 * 10 ^ k) % 2 = 0 := by omega
            omega
        rw [hz, Nat.cast_sub c2]
        push_cast
        rw [← c1]
        congr 1
        field_simp
      · rw [sub_sub_cancel]
        have := isRounded_sci 1 q
        rwa [sciSigned, if_neg (not_lt.2 hqp.le)] at this
    · refine ⟨0, ?_, ?_⟩
      · decide +kernel
      · have := isRounded_sci 1 0
        have e : sciSigned 1 0 = 0 := by simp [sciSigned, sciVal, sciRound]
        rw [e] at this
        simpa using this

/-- a small and a large percentile, ties, and the ends -/
example : percentileSigfigs 0.015 2 = "0.015".toList ∧ percentileSigfigs 99.985 2 = "99.985".toList ∧
    percentileSigfigs 95.35 2 = "95.4".toList ∧ percentileSigfigs 53.4 2 = "53".toList ∧ percentileSigfigs 0 2 = "0".toList ∧
    percentileSigfigs 100 2 = "100".toList := by decide +kernel

/-- **C90, counterexample.** The percentile 99.99999 is shown as 100.000. -/
theorem C90_percentile_counterexample : percentileSigfigs 99.99999 2 = "100.000".toList := by decide +kernel

end Verif.Props
