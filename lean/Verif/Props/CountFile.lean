import Verif.Model.CountFile
import Verif.Props.Scc
import Verif.Props.Reading

/-!
Crater counts opened from files: a spatial crater count file written by the conversion (C78), the file of merged counts (C79), and the
table of bins (C11).
-/

namespace Verif.Props

open Verif.Py Verif.Text Verif.Rand Verif.Scc Verif.CountFile

/-! ### the number at the start of a value -/

def DotDig (l : List Char) : Prop := ∀ c ∈ l, isDig c = true ∨ c = '.'

theorem dotDig_class (C : Classes) {c : Char} (h : isDig c = true ∨ c = '.') : (C.digit c || c == '.') = true := by
  rcases h with h | rfl
  · rw [dig_class C h]; rfl
  · simp

theorem pointed_dotDig {ip fp : List Char} (hi : ∀ c ∈ ip, isDig c = true) (hf : ∀ c ∈ fp, isDig c = true) :
    DotDig (if fp.rdropWhile (· == '0') = [] then ip else ip ++ '.' :: fp.rdropWhile (· == '0')) := by
  split
  · exact fun c hc => Or.inl (hi c hc)
  · intro c hc
    rw [List.mem_append, List.mem_cons] at hc
    rcases hc with hc | rfl | hc
    · exact Or.inl (hi c hc)
    · exact Or.inr rfl
    · exact Or.inl (zeros_isDig hf c hc)

theorem gBody_plain (P m : ℕ) (e : ℤ) (h : -4 ≤ e ∧ e < (P : ℤ) + 1) : DotDig (gBody P m e) := by
  have hdig := fixDigits_isDig (P + 1) m
  rw [gBody]
  simp only [if_pos h]
  apply pointed_dotDig
  · split
    · intro c hc; rw [List.mem_singleton] at hc; subst hc; rfl
    · exact fun c hc => hdig c (List.mem_of_mem_take hc)
  · split
    · intro c hc
      rcases List.mem_append.1 hc with hc | hc
      · rw [List.eq_of_mem_replicate hc]; rfl
      · exact hdig c hc
    · exact fun c hc => hdig c (List.mem_of_mem_drop hc)

theorem gBody_exp (P m : ℕ) (e : ℤ) (hm : m < 10 ^ (P + 1)) (h : ¬ (-4 ≤ e ∧ e < (P : ℤ) + 1)) :
    ∃ mant, gBody P m e = mant ++ 'e' :: expStr e ∧ DotDig mant ∧ decVal mant = some ((m : ℚ) / 10 ^ P) := by
  have hdig := fixDigits_isDig (P + 1) m
  have hlen := fixDigits_length (P + 1) m
  have hnum : digitsNum (fixDigits (P + 1) m) = m := by rw [digitsNum_fixDigits, Nat.mod_eq_of_lt hm]
  have ht : ∀ c ∈ (fixDigits (P + 1) m).take 1, isDig c = true := fun c hc => hdig c (List.mem_of_mem_take hc)
  have hd : ∀ c ∈ (fixDigits (P + 1) m).drop 1, isDig c = true := fun c hc => hdig c (List.mem_of_mem_drop hc)
  have hne : (fixDigits (P + 1) m).take 1 ≠ [] := by
    intro hc
    have := congrArg List.length hc
    rw [List.length_take, hlen] at this
    simp at this
  refine ⟨_, by rw [gBody]; simp only [if_neg h], pointed_dotDig ht hd, ?_⟩
  rw [decVal_pointed _ _ ht hd hne, List.take_append_drop, hnum, List.length_drop, hlen, Nat.add_sub_cancel]

theorem lead_of (C : Classes) {g u : List Char} {c : Char} {q : ℚ} (hg : DotDig g) (hv : decVal g = some q)
    (hc : C.digit c = false ∧ c ≠ '.') : leadNumber C (.str (g ++ c :: u)) = .ok q := by
  have hs : (g ++ c :: u).dropWhile C.space = g ++ c :: u := by
    obtain ⟨d, t, rfl⟩ := List.exists_cons_of_ne_nil (decVal_chars hv).1
    rw [List.cons_append, List.dropWhile_cons_of_neg]
    have : C.space d = false := plain_space C ((plain_num hv).2 d (by simp))
    rw [this]; decide
  have ht : (g ++ c :: u).takeWhile (fun c => C.digit c || c == '.') = g :=
    (takeWhile_stop (fun x hx => dotDig_class C (hg x hx)) (by simp [hc.1, hc.2])).1
  show tfloat (.str (((g ++ c :: u).dropWhile C.space).takeWhile (fun c => C.digit c || c == '.'))) = _
  rw [hs, ht, tfloat, hv]

theorem not_digit (C : Classes) {c : Char} (h : c.toNat < 128) (hd : c.isDigit = false) : C.digit c = false := by
  rw [C.digit_ascii c h, hd]

theorem gStr_nonneg (P : ℕ) {q : ℚ} (h : 0 ≤ q) : gStr P q = gBody P (sciRound P q).1 (sciRound P q).2 := by
  have e : gStr P q = (if q < 0 then ['-'] else []) ++ gBody P (sciRound P q).1 (sciRound P q).2 := rfl
  rw [e, if_neg (not_lt.2 h), List.nil_append]

/-- Specification: the numbers which the general format with six digits prints without exponent: zero and those from a ten-thousandth
up to a million (less a half, for the rounding). -/
def PlainPrinted (q : ℚ) : Prop := q = 0 ∨ 1 / 10000 ≤ q ∧ q < 1999999 / 2

theorem sciVal_bounds (p : ℕ) {n : ℚ} (hn : n ≠ 0) : (10 : ℚ) ^ (sciRound p n).2 ≤ sciVal p n ∧ sciVal p n < (10 : ℚ) ^ ((sciRound p n).2 + 1) ∧
    sciVal p n ≤ ((10 : ℚ) ^ (p + 1) - 1) * (10 : ℚ) ^ ((sciRound p n).2 - p) := by
  obtain ⟨g1, g2, _⟩ := sciRound_range p n
  have g2 := g2 hn
  set e := (sciRound p n).2 with he
  have hp : (0 : ℚ) < (10 : ℚ) ^ (e - p) := by positivity
  have h1 : ((10 : ℚ) ^ p) ≤ ((sciRound p n).1 : ℚ) := by exact_mod_cast g2
  have h2 : ((sciRound p n).1 : ℚ) ≤ (10 : ℚ) ^ (p + 1) - 1 := by
    have : (sciRound p n).1 + 1 ≤ 10 ^ (p + 1) := g1
    have h3 : (((sciRound p n).1 + 1 : ℕ) : ℚ) ≤ ((10 ^ (p + 1) : ℕ) : ℚ) := by exact_mod_cast this
    push_cast at h3
    linarith
  have e1 : (10 : ℚ) ^ e = (10 : ℚ) ^ p * (10 : ℚ) ^ (e - p) := by
    rw [← zpow_natCast, ← zpow_add₀ (by norm_num)]; congr 1; ring
  have e2 : (10 : ℚ) ^ (e + 1) = (10 : ℚ) ^ (p + 1) * (10 : ℚ) ^ (e - p) := by
    rw [← zpow_natCast, ← zpow_add₀ (by norm_num)]; congr 1; push_cast; ring
  have hs : sciVal p n = ((sciRound p n).1 : ℚ) * (10 : ℚ) ^ (e - p) := rfl
  rw [hs]
  refine ⟨?_, ?_, ?_⟩
  · rw [e1]; exact mul_le_mul_of_nonneg_right h1 hp.le
  · rw [e2]; exact mul_lt_mul_of_pos_right (by linarith) hp
  · exact mul_le_mul_of_nonneg_right h2 hp.le

theorem sciVal_abs_pos (p : ℕ) {n : ℚ} (hn : 0 < n) (m k : ℤ) (hm : |m| < 10 ^ (p + 1)) :
    |n - sciVal p n| ≤ |n - m * (10 : ℚ) ^ k| := by
  have := (isRounded_abs p n hn.ne').2.1 m k hm
  rwa [abs_of_pos hn] at this

theorem plain_exponent {q : ℚ} (h : PlainPrinted q) : -4 ≤ (sciRound 5 q).2 ∧ (sciRound 5 q).2 < ((5 : ℕ) : ℤ) + 1 := by
  rcases h with rfl | ⟨h1, h2⟩
  · rw [sciRound, if_pos rfl]; norm_num
  · have h0 : 0 < q := lt_of_lt_of_le (by norm_num) h1
    obtain ⟨b1, b2, _⟩ := sciVal_bounds 5 h0.ne'
    constructor
    · by_contra hlt
      push Not at hlt
      have hle : (sciRound 5 q).2 + 1 ≤ -4 := by omega
      have h3 : sciVal 5 q < 1 / 10000 := lt_of_lt_of_le b2 (by
        calc (10 : ℚ) ^ ((sciRound 5 q).2 + 1) ≤ (10 : ℚ) ^ (-4 : ℤ) := zpow_le_zpow_right₀ (by norm_num) hle
          _ = 1 / 10000 := by norm_num)
      have h4 := sciVal_abs_pos 5 h0 1 (-4) (by norm_num)
      have e : ((1 : ℤ) : ℚ) * (10 : ℚ) ^ (-4 : ℤ) = 1 / 10000 := by norm_num
      rw [e, abs_of_nonneg (by linarith), abs_of_nonneg (by linarith)] at h4
      linarith
    · by_contra hge
      push Not at hge
      have h3 : (1000000 : ℚ) ≤ sciVal 5 q := le_trans (by
        calc (1000000 : ℚ) = (10 : ℚ) ^ (6 : ℤ) := by norm_num
          _ ≤ (10 : ℚ) ^ (sciRound 5 q).2 := zpow_le_zpow_right₀ (by norm_num) (by exact_mod_cast hge)) b1
      have h4 := sciVal_abs_pos 5 h0 999999 0 (by norm_num)
      have e : ((999999 : ℤ) : ℚ) * (10 : ℚ) ^ (0 : ℤ) = 999999 := by norm_num
      rw [e, abs_of_nonpos (by linarith)] at h4
      rcases le_total q 999999 with h5 | h5
      · rw [abs_of_nonpos (by linarith)] at h4; linarith
      · rw [abs_of_nonneg (by linarith)] at h4; linarith

theorem large_exponent {q : ℚ} (h : 1000000 ≤ q) : 6 ≤ (sciRound 5 q).2 := by
  have h0 : 0 < q := lt_of_lt_of_le (by norm_num) h
  obtain ⟨_, _, b3⟩ := sciVal_bounds 5 h0.ne'
  by_contra hlt
  push Not at hlt
  have h3 : sciVal 5 q ≤ 999999 := le_trans b3 (by
    have : (10 : ℚ) ^ ((sciRound 5 q).2 - (5 : ℕ)) ≤ (10 : ℚ) ^ (0 : ℤ) := zpow_le_zpow_right₀ (by norm_num) (by push_cast; omega)
    rw [zpow_zero] at this
    have e : ((10 : ℚ) ^ (5 + 1) - 1) = 999999 := by norm_num
    rw [e]
    linarith)
  have h4 := sciVal_abs_pos 5 h0 1 6 (by norm_num)
  have e : ((1 : ℤ) : ℚ) * (10 : ℚ) ^ (6 : ℤ) = 1000000 := by norm_num
  rw [e, abs_of_nonneg (by linarith), abs_of_nonneg (by linarith)] at h4
  linarith

/-- a number printed without exponent is read -/
theorem lead_plain (C : Classes) {q : ℚ} (h : PlainPrinted q) (u : List Char) : leadNumber C (.str (gStr 5 q ++ ' ' :: u)) = .ok (sciSigned 5 q) := by
  have h0 : 0 ≤ q := by
    rcases h with rfl | h
    · exact le_refl _
    · linarith [h.1]
  refine lead_of C ?_ (decVal_gStr 5 q) ⟨not_digit C (by decide) (by decide), by decide⟩
  rw [gStr_nonneg 5 h0]
  exact gBody_plain 5 _ _ (plain_exponent h)

/-- of a number printed with exponent only the part before it is read -/
theorem lead_large (C : Classes) {q : ℚ} (h : 1000000 ≤ q) (u : List Char) :
    leadNumber C (.str (gStr 5 q ++ ' ' :: u)) = .ok (sciSigned 5 q / 10 ^ (sciRound 5 q).2) ∧
      0 < sciSigned 5 q / 10 ^ (sciRound 5 q).2 ∧ sciSigned 5 q / 10 ^ (sciRound 5 q).2 < 10 := by
  have h0 : 0 < q := lt_of_lt_of_le (by norm_num) h
  obtain ⟨mant, e1, e2, e3⟩ := gBody_exp 5 (sciRound 5 q).1 (sciRound 5 q).2 (sciRound_range 5 q).1 (fun hc => by
    have := large_exponent h
    have := hc.2
    push_cast at this
    omega)
  have hs : sciSigned 5 q = sciVal 5 q := by rw [sciSigned, if_neg (not_lt.2 h0.le)]
  have hp : (0 : ℚ) < (10 : ℚ) ^ (sciRound 5 q).2 := by positivity
  have hv : sciVal 5 q / 10 ^ (sciRound 5 q).2 = ((sciRound 5 q).1 : ℚ) / 10 ^ 5 := by
    rw [sciVal, div_eq_div_iff hp.ne' (by norm_num), mul_assoc]
    congr 1
    rw [← zpow_natCast, ← zpow_add₀ (by norm_num)]
    congr 1
    ring
  obtain ⟨b1, b2, _⟩ := sciVal_bounds 5 h0.ne'
  refine ⟨?_, ?_, ?_⟩
  · rw [gStr_nonneg 5 h0.le, e1, List.append_assoc, List.cons_append, hs, hv]
    exact lead_of C e2 e3 ⟨not_digit C (by decide) (by decide), by decide⟩
  · rw [hs]; exact div_pos (lt_of_lt_of_le hp b1) hp
  · rw [hs, div_lt_iff₀ hp]
    refine lt_of_lt_of_eq b2 ?_
    rw [zpow_add_one₀ (by norm_num), mul_comm]

/-! ### the definitions of a spatial count file, as the count reads them -/

theorem block_simpleValue (C : Classes) {v : List Char} (hf : ∃ d ∈ v.head?, d ∈ plainChars) (hl : ∀ c ∈ v.getLast?, C.space c = false) :
    simpleValue C.space (v ++ ['\n']) = .ok (.str v) := by
  obtain ⟨d, hd, hp⟩ := hf
  obtain ⟨t', rfl⟩ : ∃ t', v = d :: t' := by
    cases v with
    | nil => simp at hd
    | cons e v => simp at hd; subst hd; exact ⟨v, rfl⟩
  clear hd
  have hd := (plainChars_spec d hp).2.2.2
  simp only [List.mem_cons, List.not_mem_nil, not_or, or_false] at hd
  have hs : strip (fun c => c == ' ' || c == '\n') ([] ++ (d :: t') ++ ['\n']) = d :: t' := by
    apply strip_eq
    · simp
    · intro c hm; simp at hm; subst hm; rfl
    · intro c hm; simp at hm; subst hm; simp [hd]
    · intro c hm
      have h1 := hl c hm
      have h2 : c ≠ '\n' := by
        rintro rfl
        rw [space_newline] at h1
        cases h1
      have h3 : c ≠ ' ' := by
        rintro rfl
        rw [space_space] at h1
        cases h1
      simp [h2, h3]
  have hq : stripQuotes (d :: t') = d :: t' := by
    cases t' with
    | nil => rfl
    | cons e t' =>
      rw [stripQuotes, if_neg]
      rintro ⟨_, h | h⟩
      · exact hd.1 h
      · exact hd.2.1 h
  rw [List.cons_append, Verif.Text.simpleValue]
  · rw [plainValue]
    · rw [← List.cons_append]
      rw [List.nil_append] at hs
      rw [hs, hq]
    · intro x hx; injection hx with h1; exact hd.2.2.2.2.2.2.2.2.2.2.2.2.1 h1
    · intro x hx; injection hx with h1; exact hd.2.2.2.2.2.2.2.2.2.2.2.2.2.1 h1
    · intro x hx; injection hx with h1; exact hd.2.2.2.2.2.1 h1
  · intro x hx; injection hx with h1; exact hd.2.2.2.2.2.2.2.2.2.2.2.2.2.2 h1

/-- the text read as perimeter: the line after it is no definition for the reader of counts -/
def perimeterText (S : Source) : List Char := kmText S.perimeter ++ '\n' :: ("a-axis radius".toList ++ (" = ".toList ++ kmText S.radius))

theorem km_no_newline (q : ℚ) : '\n' ∉ kmText q := by
  rw [kmText, List.mem_append, not_or]
  exact ⟨fun hm => absurd ((plain_g 5 q).2 _ hm) (by decide +kernel), by decide⟩

theorem notKey_minus (C : Classes) : NotKey C '-' :=
  ⟨by decide, not_space (by decide) (by decide), by rw [C.word_ascii _ (by decide)]; decide, by decide, by decide⟩

theorem two_lines {a b x y : List Char} (hx : '\n' ∉ x) (hy : '\n' ∉ y) (h : x ++ '\n' :: y = a ++ '\n' :: b) : b = y := by
  rcases List.append_eq_append_iff.1 h with ⟨z, e1, e2⟩ | ⟨z, e1, e2⟩
  · cases z with
    | nil => simp at e2; exact e2.symm
    | cons d z => simp at e2; exact absurd (by rw [e2.2]; simp) hy
  · cases z with
    | nil => simp at e2; exact e2
    | cons d z => simp at e2; exact absurd (by rw [e1, ← e2.1]; simp) hx

theorem km_last (C : Classes) (p : List Char) (q : ℚ) : ∀ c ∈ (p ++ kmText q).getLast?, C.space c = false := by
  intro c hc
  have : p ++ kmText q = (p ++ (gStr 5 q ++ " <km".toList)) ++ ['>'] := by
    show p ++ (gStr 5 q ++ (" <km".toList ++ ['>'])) = _
    simp only [List.append_assoc]
  rw [this, List.getLast?_concat] at hc
  injection hc with hc
  subst hc
  exact not_space (by decide) (by decide)

theorem axis_no_newline (q : ℚ) : '\n' ∉ "a-axis radius".toList ++ (" = ".toList ++ kmText q) := by
  rw [List.mem_append, List.mem_append]
  rintro (h | h | h)
  · exact absurd h (by decide)
  · exact absurd h (by decide)
  · exact km_no_newline q h

theorem perimeterText_head (S : Source) : ∃ d ∈ (perimeterText S).head?, d ∈ plainChars := by
  have hg := plain_g 5 S.perimeter
  have e : perimeterText S = gStr 5 S.perimeter ++ (" <km>".toList ++ '\n' :: ("a-axis radius".toList ++ (" = ".toList ++ kmText S.radius))) := by
    rw [perimeterText, kmText, List.append_assoc]
  rw [e]
  obtain ⟨d, t, hd⟩ := List.exists_cons_of_ne_nil hg.1
  rw [hd]
  exact ⟨d, rfl, hg.2 d (by rw [hd]; simp)⟩

theorem perimeterText_last (C : Classes) (S : Source) : ∀ c ∈ (perimeterText S).getLast?, C.space c = false := by
  have e : perimeterText S = (kmText S.perimeter ++ '\n' :: ("a-axis radius".toList ++ " = ".toList)) ++ kmText S.radius := by
    rw [perimeterText]
    simp only [List.append_assoc, List.cons_append]
  rw [e]
  exact km_last C _ _

theorem perimeterText_value (C : Classes) (S : Source) : ValueText C (perimeterText S) := by
  obtain ⟨d, hd, hp⟩ := perimeterText_head S
  have hs := (plainChars_spec d hp).2.2.2
  simp only [List.mem_cons, List.not_mem_nil, not_or, or_false] at hs
  have hone : ∀ c ∈ (perimeterText S).head?, c = d := by
    intro c hc
    rw [Option.mem_def] at hd hc
    rw [hd] at hc
    injection hc with hc
    exact hc.symm
  refine ⟨(by intro e; rw [e] at hd; simp at hd), ?_, perimeterText_last C S, ?_, ?_⟩
  · intro c hc
    rw [hone c hc]
    exact plain_space C hp
  · intro c hc e
    rw [hone c hc] at e
    rcases e with e | e
    · exact absurd e hs.2.2.2.2.2.1
    · exact absurd e hs.1
  · intro a b e
    right
    have hb := two_lines (km_no_newline _) (axis_no_newline _) e
    exact ⟨['a'], '-', "axis radius".toList ++ (" = ".toList ++ kmText S.radius), hb, by decide, notKey_minus C⟩

/-- what the file defines for the reader of counts -/
def countDefs (version : List Char) (S : Source) (N : List ((ℕ × List Char) × Pt)) : List (List Char × TVal) :=
  [("craterstats_version".toList, .str version), ("a_axis_radius".toList, .str (kmText S.radius)),
    ("Total_area".toList, .str (km2Text S.area)), ("Total_perimeter".toList, .str (perimeterText S)),
    ("unit_boundary".toList, boundaryVal N), ("crater".toList, craterVal S.craters)]

theorem count_join (p1 v1 p2 v2 p3 v3 p4 v4 p5 v5 p6 h6 : List Char) (rows : List (List Char)) (p7 h7 : List Char) (cr : List (List Char)) :
    join ['\n'] ([(p1 ++ [' ', '=', ' ']) ++ v1, (p2 ++ [' ', '=', ' ']) ++ v2, (p3 ++ [' ', '=', ' ']) ++ v3, (p4 ++ [' ', '=', ' ']) ++ v4,
      p5 ++ [' ', '=', ' '] ++ v5, (p6 ++ [' ', '=', ' ']) ++ h6] ++ rows ++ [['}'], (p7 ++ [' ', '=', ' ']) ++ h7] ++ cr ++ [['}']]) =
    [] ++ (p1 ++ ([' '] ++ '=' :: ([' '] ++ (v1 ++ '\n' :: (
    [] ++ (p2 ++ ([' '] ++ '=' :: ([' '] ++ (v2 ++ '\n' :: (
    [] ++ (p3 ++ ([' '] ++ '=' :: ([' '] ++ (v3 ++ '\n' :: (
    [] ++ (p4 ++ ([' '] ++ '=' :: ([' '] ++ ((v4 ++ '\n' :: (p5 ++ ([' ', '=', ' '] ++ v5))) ++ '\n' :: (
    [] ++ (p6 ++ ([' '] ++ '=' :: ([' '] ++ (join ['\n'] (h6 :: rows ++ [['}']]) ++ '\n' :: (
    [] ++ (p7 ++ ([' '] ++ '=' :: ([' '] ++ join ['\n'] (h7 :: cr ++ [['}']]))))))))))))))))))))))))))))) := by
  rw [scc_join]
  simp

theorem count_definitions (C : Classes) {version : List Char} {S : Source} (h : SourceOk version S) (N : List ((ℕ × List Char) × Pt))
    (hN : ∀ x ∈ N, Plain x.1.2) :
    Definitions C (join ['\n'] (sccKept "a-axis radius".toList version S (boundaryRows N))) (countDefs version S N) := by
  have u1 : ∀ q, LineValue C (kmText q) := fun q => unit_lineValue C (plain_g 5 q) _ (by decide) (by decide) (by decide)
  have u2 : ∀ q, LineValue C (km2Text q) := fun q => unit_lineValue C (plain_g 5 q) _ (by decide) (by decide) (by decide)
  have key := Definitions.simple (asciiHead C "craterstats_version".toList " ".toList " ".toList ⟨by decide, by decide⟩ (by decide) (by decide))
    version _ _ _ (plain_valueText C h.version_ok) (plain_simpleValue C h.version_ok)
    (Definitions.simple (asciiHead C "a_axis_radius".toList " ".toList " ".toList ⟨by decide, by decide⟩ (by decide) (by decide))
      (kmText S.radius) _ _ _ (u1 _).valueText (u1 _).simpleValue
    (Definitions.simple (asciiHead C "Total_area".toList " ".toList " ".toList ⟨by decide, by decide⟩ (by decide) (by decide))
      (km2Text S.area) _ _ _ (u2 _).valueText (u2 _).simpleValue
    (Definitions.simple (asciiHead C "Total_perimeter".toList " ".toList " ".toList ⟨by decide, by decide⟩ (by decide) (by decide))
      (perimeterText S) _ _ _ (perimeterText_value C S) (block_simpleValue C (perimeterText_head S) (perimeterText_last C S))
    (Definitions.simple (asciiHead C "unit_boundary".toList " ".toList " ".toList ⟨by decide, by decide⟩ (by decide) (by decide))
      (tableText "vertex".toList boundaryTags (boundaryRows N)) _ _ _
      (table_valueText C plain_vertex boundaryTags_plain (boundaryRows_chars N hN)) (boundary_value C N hN)
    (Definitions.last (asciiHead C "crater".toList " ".toList " ".toList ⟨by decide, by decide⟩ (by decide) (by decide))
      (tableText "diam".toList craterTags (S.craters.map craterRow)) _
      (table_valueText C plain_diam craterTags_plain (by
        intro r hr
        rw [List.mem_map] at hr
        obtain ⟨c, _, rfl⟩ := hr
        exact (craterRow_ok C c).1)) (crater_value C S.craters))))))
  have e := count_join "craterstats_version".toList version "a_axis_radius".toList (kmText S.radius) "Total_area".toList (km2Text S.area)
    "Total_perimeter".toList (kmText S.perimeter) "a-axis radius".toList (kmText S.radius) "unit_boundary".toList
    (headerText "vertex".toList boundaryTags) (boundaryRows N) "crater".toList (headerText "diam".toList craterTags) (S.craters.map craterRow)
  have e' : join ['\n'] (sccKept "a-axis radius".toList version S (boundaryRows N)) = _ := e
  rw [e']
  exact key

theorem count_dict (version : List Char) (S : Source) (N : List ((ℕ × List Char) × Pt)) :
    ∃ d, mergeAll (countDefs version S N) = .dict d ∧ dictGet d "crater".toList = some (craterVal S.craters) ∧
      dictGet d "Total_area".toList = some (.str (km2Text S.area)) ∧ dictGet d "Total_perimeter".toList = some (.str (perimeterText S)) ∧
      dictGet d "Perimeter".toList = none := by
  have hne : countDefs version S N ≠ [] := by simp [countDefs]
  obtain ⟨d, h0, h1⟩ := mergeAll_get (countDefs version S N) hne "crater".toList
  obtain ⟨d2, h02, h2⟩ := mergeAll_get (countDefs version S N) hne "Total_area".toList
  obtain ⟨d3, h03, h3⟩ := mergeAll_get (countDefs version S N) hne "Total_perimeter".toList
  obtain ⟨d4, h04, h4⟩ := mergeAll_get (countDefs version S N) hne "Perimeter".toList
  rw [h0] at h02 h03 h04
  injection h02 with e2
  injection h03 with e3
  injection h04 with e4
  subst e2 e3 e4
  refine ⟨_, h0, ?_, ?_, ?_, ?_⟩
  · rw [h1]; rfl
  · rw [h2]; rfl
  · rw [h3]; rfl
  · rw [h4]; rfl

theorem floats_g (v : TVal) (k : List Char) (P : ℕ) (qs : List ℚ) (h : tget v k = .ok (.list (qs.map (fun q => .str (gStr P q))))) :
    floats v k = .ok (qs.map (sciSigned P)) := by
  rw [floats, h, ok_bind, telems, ok_bind, mapM_map', mapM_eq (g := sciSigned P)]
  intro q _
  exact tfloat_g P q

theorem fraction_column (cs : List Crater) :
    tget (craterVal cs) "fraction".toList = .ok (.list (cs.map (fun c => .str (gStr 2 c.fraction)))) := by
  have h : ∀ n, ((cs.map craterFields).map (fun r => r.getD n [])).map TVal.str = cs.map (fun c => .str ((craterFields c).getD n [])) := by
    intro n; rw [List.map_map, List.map_map]; rfl
  have e1 : tget (craterVal cs) "fraction".toList = .ok (.list (((cs.map craterFields).map (fun r => r.getD 1 [])).map TVal.str)) := rfl
  rw [e1, h]
  rfl

/-- the fields read from a file written, when the numbers at the start of area and perimeter are `a` and `p` -/
theorem written_fields (C : Classes) {version : List Char} {S : Source} (h : SourceOk version S) (shapes : List (List (List Pt)))
    (hS : S.sa = shapes.map shapeOf) (hr : ∀ s ∈ shapes, ∀ r ∈ s, r ≠ []) (hne : taggedRings shapes ≠ []) (sep : List Char)
    (hsep : sep = ['\n'] ∨ sep = ['\r', '\n']) {a p : ℚ} (ha : leadNumber C (.str (km2Text S.area)) = .ok a)
    (hp : leadNumber C (.str (perimeterText S)) = .ok p) :
    ∃ file, writeScc sep version S = .ok file ∧ (readStructureFile C file >>= sccFields C) =
      .ok ⟨S.craters.map (fun c => sciSigned 6 c.diam), some (S.craters.map (fun c => sciSigned 2 c.fraction)), a, some p⟩ := by
  obtain ⟨file, h1, h2⟩ := scc_read C h shapes hS (numbered_nonempty (tagged_nonempty hr) hne) sep hsep
  refine ⟨file, h1, ?_⟩
  obtain ⟨N, hN⟩ : ∃ N, N = numbered 1 (taggedRings shapes) := ⟨_, rfl⟩
  have p1 : ∀ x ∈ N, Plain x.1.2 := hN ▸ numbered_plain _ _
  have h4 := C33_value_partial (count_definitions C h N p1)
  obtain ⟨d, d0, d1, d2, d3, d4⟩ := count_dict version S N
  rw [← hN] at h2
  have c1 := floats_g (craterVal S.craters) "diam".toList 6 (S.craters.map Crater.diam) (by
    rw [(crater_columns S.craters).1, List.map_map]; rfl)
  have c2 := floats_g (craterVal S.craters) "fraction".toList 2 (S.craters.map Crater.fraction) (by
    rw [fraction_column, List.map_map]; rfl)
  have hf : has (craterVal S.craters) "fraction".toList = true := rfl
  have hP : has (.dict d) "Perimeter".toList = false := by
    show (dictGet d _).isSome = false
    rw [d4]; rfl
  have hT : has (.dict d) "Total_perimeter".toList = true := by
    show (dictGet d _).isSome = true
    rw [d3]; rfl
  have hper : sccPerimeter C (.dict d) = .ok (some p) := by
    rw [sccPerimeter, hP, if_neg (by decide), ok_bind, hT]
    beta_reduce
    rw [if_pos rfl, tget_dict d3, ok_bind, hp, ok_bind]
  rw [readStructureFile, h2, h4, ok_bind, d0, sccFields, tget_dict d1, ok_bind, c1, ok_bind, hf, if_pos rfl, c2, ok_bind, ok_bind]
  beta_reduce
  rw [tget_dict d2, ok_bind, ha, ok_bind, hper, ok_bind, List.map_map, List.map_map]
  rfl

/-! ### C78 -/

noncomputable section

/-- the count of the fields read -/
theorem open_fields (C : Classes) (shp : Except Exc Reading.Count) {file : List Char} {cs : List Crater} {a p : ℚ}
    (h : (readStructureFile C file >>= sccFields C) =
      .ok ⟨cs.map (fun c => sciSigned 6 c.diam), some (cs.map (fun c => sciSigned 2 c.fraction)), a, some p⟩) :
    ∃ c, openCount C shp ".scc".toList file = .ok (.craters c) ∧
      c.craters.Perm (cs.map (fun c => (((sciSigned 6 c.diam : ℚ) : ℝ), ((sciSigned 2 c.fraction : ℚ) : ℝ)))) ∧
      c.craters.Pairwise (fun x y => x.1 ≤ y.1) ∧ c.area = (a : ℝ) ∧ c.perimeter = some (p : ℝ) := by
  obtain ⟨F, hF⟩ : ∃ F : SccFields, F = ⟨cs.map (fun c => sciSigned 6 c.diam), some (cs.map (fun c => sciSigned 2 c.fraction)), a, some p⟩ := ⟨_, rfl⟩
  have e1 : F.toFile.diam = cs.map (fun c => ((sciSigned 6 c.diam : ℚ) : ℝ)) := by
    rw [hF]; show reals _ = _; rw [reals, List.map_map]; rfl
  have e2 : F.toFile.fraction = some (cs.map (fun c => ((sciSigned 2 c.fraction : ℚ) : ℝ))) := by
    rw [hF]; show some (reals _) = _; rw [reals, List.map_map]; rfl
  have hl : (F.toFile.fraction.getD (F.toFile.diam.map fun _ => 1)).length = F.toFile.diam.length := by
    rw [e1, e2]; simp
  obtain ⟨c, hc⟩ := C12_scc_accepted F.toFile hl
  obtain ⟨h1, h2, h3, h4⟩ := C12_scc F.toFile c hc _ rfl hl
  refine ⟨c, ?_, ?_, h2, ?_, ?_⟩
  · unfold openCount
    rw [if_neg (by decide), if_neg (by decide), if_pos rfl, h, ← hF]
    show (match Reading.readScc F.toFile with | .ok c => _ | .error _ => _) = _
    rw [hc]
  · rw [e1, e2] at h1
    show c.craters.Perm _
    have e : List.zip (cs.map (fun c => ((sciSigned 6 c.diam : ℚ) : ℝ))) (cs.map (fun c => ((sciSigned 2 c.fraction : ℚ) : ℝ))) =
        cs.map (fun c => (((sciSigned 6 c.diam : ℚ) : ℝ), ((sciSigned 2 c.fraction : ℚ) : ℝ))) := zip_map_map _ _ _
    rw [← e]
    exact h1
  · rw [h3, hF]; rfl
  · rw [h4, hF]; rfl

theorem perimeter_split (S : Source) : perimeterText S = gStr 5 S.perimeter ++ ' ' :: ("<km>".toList ++ '\n' ::
    ("a-axis radius".toList ++ (" = ".toList ++ kmText S.radius))) := by
  have e : kmText S.perimeter = gStr 5 S.perimeter ++ ' ' :: "<km>".toList := rfl
  rw [perimeterText, e, List.append_assoc, List.cons_append]

/-- C78: a spatial count written to a .scc file and opened as a crater count has the same craters: every diameter rounded to seven and
every fraction to three significant digits, in order of diameter, and area and perimeter rounded to six digits; provided that area and
perimeter are printed without exponent, that is, are below a million.  Missing: the others, see the counterexample. -/
theorem C78_converted_partial (C : Classes) (shp : Except Exc Reading.Count) {version : List Char} {S : Source} (h : SourceOk version S)
    (shapes : List (List (List Pt))) (hS : S.sa = shapes.map shapeOf) (hr : ∀ s ∈ shapes, ∀ r ∈ s, r ≠ [])
    (hne : taggedRings shapes ≠ []) (sep : List Char) (hsep : sep = ['\n'] ∨ sep = ['\r', '\n'])
    (ha : PlainPrinted S.area) (hp : PlainPrinted S.perimeter) :
    ∃ file c, writeScc sep version S = .ok file ∧ openCount C shp ".scc".toList file = .ok (.craters c) ∧
      c.craters.Perm (S.craters.map (fun c => (((sciSigned 6 c.diam : ℚ) : ℝ), ((sciSigned 2 c.fraction : ℚ) : ℝ)))) ∧
      c.craters.Pairwise (fun x y => x.1 ≤ y.1) ∧ c.area = ((sciSigned 5 S.area : ℚ) : ℝ) ∧
      c.perimeter = some ((sciSigned 5 S.perimeter : ℚ) : ℝ) := by
  obtain ⟨file, h1, h2⟩ := written_fields C h shapes hS hr hne sep hsep (lead_plain C ha "<km2>".toList)
    (by rw [perimeter_split]; exact lead_plain C hp _)
  obtain ⟨c, h3, h4⟩ := open_fields C shp h2
  exact ⟨file, c, h1, h3, h4⟩

/-- of an area of a million square kilometres or more, written with an exponent, the count has less than ten -/
theorem C78_large_area_counterexample (C : Classes) (shp : Except Exc Reading.Count) {version : List Char} {S : Source} (h : SourceOk version S)
    (shapes : List (List (List Pt))) (hS : S.sa = shapes.map shapeOf) (hr : ∀ s ∈ shapes, ∀ r ∈ s, r ≠ [])
    (hne : taggedRings shapes ≠ []) (sep : List Char) (hsep : sep = ['\n'] ∨ sep = ['\r', '\n'])
    (ha : 1000000 ≤ S.area) (hp : PlainPrinted S.perimeter) :
    ∃ file c, writeScc sep version S = .ok file ∧ openCount C shp ".scc".toList file = .ok (.craters c) ∧ 0 < c.area ∧ c.area < 10 := by
  obtain ⟨g1, g2, g3⟩ := lead_large C ha "<km2>".toList
  obtain ⟨file, h1, h2⟩ := written_fields C h shapes hS hr hne sep hsep g1 (by rw [perimeter_split]; exact lead_plain C hp _)
  obtain ⟨c, h3, _, _, h4, _⟩ := open_fields C shp h2
  refine ⟨file, c, h1, h3, ?_, ?_⟩
  · rw [h4]; exact_mod_cast g2
  · rw [h4]; exact_mod_cast g3

example (C : Classes) (shp : Except Exc Reading.Count) : ∃ file c, writeScc ['\n'] "3.7".toList exampleSource = .ok file ∧
    openCount C shp ".scc".toList file = .ok (.craters c) ∧ c.area = ((sciSigned 5 100 : ℚ) : ℝ) := by
  obtain ⟨file, c, h1, h2, _, _, h3, _⟩ := C78_converted_partial C shp (version := "3.7".toList) (S := exampleSource)
    ⟨by unfold Plain; decide +kernel, by decide, by unfold PlainLine; decide +kernel, by unfold PlainLine; decide +kernel⟩
    [[[(0, 0), (0, 4), (4, 4), (0, 0)], [(1, 2), (1, 3), (2, 3), (1, 2)]], [[(10, 0), (10, 1), (11, 1), (10, 0)]]] rfl (by decide)
    (by decide +kernel) ['\n'] (.inl rfl) (Or.inr ⟨by norm_num [exampleSource], by norm_num [exampleSource]⟩)
    (Or.inr ⟨by norm_num [exampleSource], by norm_num [exampleSource]⟩)
  exact ⟨file, c, h1, h2, h3⟩

end

end Verif.Props
