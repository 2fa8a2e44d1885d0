import Verif.Props.CountFile
import Verif.Props.Stat

/-!
The .stat file as a text: what is written is read as the rounded table (C11).
-/

namespace Verif.Props

open Verif.Py Verif.Text Verif.Rand Verif.CountFile

/-! ### words of a line -/

theorem words_space {space : Char → Bool} {c : Char} (h : space c = true) (l : List Char) : words space (c :: l) = words space l := by
  rw [words.eq_def]
  simp [h]

theorem words_spaces {space : Char → Bool} (h : space ' ' = true) (k : ℕ) (l : List Char) :
    words space (List.replicate k ' ' ++ l) = words space l := by
  induction k with
  | zero => rfl
  | succ k ih => rw [List.replicate_succ, List.cons_append, words_space h, ih]

theorem words_word {space : Char → Bool} {w : List Char} (hw : ∀ c ∈ w, space c = false) (hne : w ≠ []) (l : List Char)
    (hl : ∀ c ∈ l.head?, space c = true) : words space (w ++ l) = w :: words space l := by
  induction w with
  | nil => exact absurd rfl hne
  | cons c w ih =>
    have hc := hw c (by simp)
    cases w with
    | nil =>
      rw [List.cons_append, List.nil_append, words.eq_def]
      cases l with
      | nil => simp [hc]; rw [words]
      | cons d l => simp [hc, hl d (by simp)]
    | cons d w =>
      have hd := hw d (by simp)
      have := ih (fun c hc => hw c (List.mem_cons_of_mem _ hc)) (by simp)
      rw [List.cons_append, words.eq_def]
      simp only [hc, List.cons_append, hd]
      rw [List.cons_append] at this
      simp only [Bool.false_eq_true, if_false]
      rw [this]

/-- columns adjusted to the right, each shorter than its width -/
def columnsText (cols : List (ℕ × List Char)) : List Char := (cols.map (fun x => rjust x.1 x.2)).flatten

theorem columnsText_head {cols : List (ℕ × List Char)} (h : ∀ x ∈ cols, x.2.length < x.1) : ∀ c ∈ (columnsText cols).head?, c = ' ' := by
  intro c hc
  cases cols with
  | nil => simp [columnsText] at hc
  | cons x cols =>
    have hx := h x (by simp)
    obtain ⟨k, hk⟩ : ∃ k, x.1 - x.2.length = k + 1 := ⟨x.1 - x.2.length - 1, by omega⟩
    rw [columnsText, List.map_cons, List.flatten_cons, rjust, hk, List.replicate_succ] at hc
    simp at hc
    exact hc.symm

theorem words_columns (C : Classes) {cols : List (ℕ × List Char)} (h : ∀ x ∈ cols, x.2.length < x.1) (hp : ∀ x ∈ cols, Plain x.2) :
    words C.space (columnsText cols) = cols.map Prod.snd := by
  induction cols with
  | nil => rw [columnsText, List.map_nil, List.flatten_nil, words]; rfl
  | cons x cols ih =>
    have e : columnsText (x :: cols) = List.replicate (x.1 - x.2.length) ' ' ++ (x.2 ++ columnsText cols) := by
      rw [columnsText, List.map_cons, List.flatten_cons, rjust, List.append_assoc]; rfl
    have hx := hp x (by simp)
    rw [e, words_spaces space_space, words_word (fun c hc => plain_space C (hx.2 c hc)) hx.1, ih (fun y hy => h y (by simp [hy]))
      (fun y hy => hp y (by simp [hy]))]
    · rfl
    · intro c hc
      rw [columnsText_head (fun y hy => h y (by simp [hy])) c hc]
      exact space_space

/-- a first column adjusted to the left, then columns adjusted to the right -/
theorem words_line (C : Classes) (k : ℕ) {w : List Char} (hw : Plain w) {cols : List (ℕ × List Char)} (h : ∀ x ∈ cols, x.2.length < x.1)
    (hp : ∀ x ∈ cols, Plain x.2) : words C.space (ljust k w ++ columnsText cols) = w :: cols.map Prod.snd := by
  rw [ljust, List.append_assoc, words_word (fun c hc => plain_space C (hw.2 c hc)) hw.1, words_spaces space_space, words_columns C h hp]
  intro c hc
  cases hk : k - w.length with
  | zero =>
    rw [hk, List.replicate_zero, List.nil_append] at hc
    rw [columnsText_head h c hc]; exact space_space
  | succ m =>
    rw [hk, List.replicate_succ, List.cons_append] at hc
    simp at hc
    subst hc
    exact space_space

/-! ### lengths of numbers -/

/-- numbers written with an exponent of at most two digits -/
def TwoDigitExponent (q : ℚ) : Prop := q = 0 ∨ (10 : ℚ) ^ (-99 : ℤ) ≤ q ∧ q < (10 : ℚ) ^ (99 : ℤ)

theorem exponent_bound (p : ℕ) {q : ℚ} (h : TwoDigitExponent q) : (sciRound p q).2.natAbs < 100 := by
  rcases h with rfl | ⟨h1, h2⟩
  · rw [sciRound, if_pos rfl]; decide
  · have h0 : 0 < q := lt_of_lt_of_le (by positivity) h1
    obtain ⟨b1, b2⟩ := ten_log |q| (abs_pos.2 h0.ne')
    have c1 : -99 < Int.log 10 |q| + 1 := by
      rw [abs_of_pos h0] at b1 b2 ⊢
      exact (zpow_lt_zpow_iff_right₀ (a := (10 : ℚ)) (by norm_num)).1 (lt_of_le_of_lt h1 b2)
    have c2 : Int.log 10 |q| < 99 := by
      rw [abs_of_pos h0] at b1 b2 ⊢
      exact (zpow_lt_zpow_iff_right₀ (a := (10 : ℚ)) (by norm_num)).1 (lt_of_le_of_lt b1 h2)
    rw [sciRound, if_neg h0.ne']
    dsimp only
    split <;> dsimp only <;> omega

theorem twoDigit_nonneg {q : ℚ} (h : TwoDigitExponent q) : ¬ q < 0 := by
  rcases h with rfl | ⟨h1, _⟩
  · exact lt_irrefl _
  · exact not_lt.2 (le_trans (by positivity) h1)

theorem expStr_length {e : ℤ} (h : e.natAbs < 100) : (expStr e).length = 3 := by
  rw [expStr, if_pos h, List.length_cons, fixDigits_length]

theorem rdrop_length (l : List Char) : (l.rdropWhile (· == '0')).length ≤ l.length := by
  have := (List.rdropWhile_prefix (· == '0') l).length_le
  exact this

theorem gStr_length (P : ℕ) {q : ℚ} (h : TwoDigitExponent q) : (gStr P q).length ≤ P + 6 := by
  have e : gStr P q = gBody P (sciRound P q).1 (sciRound P q).2 := by
    have e : gStr P q = (if q < 0 then ['-'] else []) ++ gBody P (sciRound P q).1 (sciRound P q).2 := rfl
    rw [e, if_neg (twoDigit_nonneg h), List.nil_append]
  have hb := exponent_bound P h
  rw [e, gBody]
  dsimp only
  have hl := fixDigits_length (P + 1) (sciRound P q).1
  generalize fixDigits (P + 1) (sciRound P q).1 = ds at hl
  generalize (sciRound P q).2 = x at hb
  split
  · rename_i hx
    split
    · rename_i hneg
      dsimp only
      have hr := rdrop_length (List.replicate (x.natAbs - 1) '0' ++ ds)
      rw [List.length_append, List.length_replicate, hl] at hr
      split
      · simp
      · simp only [List.length_append, List.length_cons, List.length_nil]
        omega
    · dsimp only
      have hr := rdrop_length (ds.drop (x + 1).toNat)
      rw [List.length_drop, hl] at hr
      split
      · rw [List.length_take]; omega
      · rw [List.length_append, List.length_cons, List.length_take]; omega
  · have hr := rdrop_length (ds.drop 1)
    rw [List.length_drop, hl] at hr
    have hx := expStr_length hb
    rw [List.length_append, List.length_cons, hx]
    split
    · rw [List.length_take]; omega
    · rw [List.length_append, List.length_cons, List.length_take]; omega

/-! ### the exponential format -/

theorem mant_split {ds : List Char} (h : 2 ≤ ds.length) : mantStr ds = ds.take 1 ++ '.' :: ds.drop 1 := by
  match ds, h with
  | a :: b :: l, _ => rfl

theorem decVal_exp_upper (ip fp ex : List Char) (e : ℤ) (hi : ∀ c ∈ ip, isDig c = true) (hf : ∀ c ∈ fp, isDig c = true)
    (hne : ip ≠ []) (he : intVal ex = some e) : decVal (ip ++ '.' :: (fp ++ 'E' :: ex)) =
      some (((digitsNum (ip ++ fp) : ℕ) : ℚ) / 10 ^ fp.length * (10 : ℚ) ^ e) := by
  have hs : takeSign (ip ++ '.' :: (fp ++ 'E' :: ex)) = (1, ip ++ '.' :: (fp ++ 'E' :: ex)) := by
    apply takeSign_of_dig
    intro c hc
    cases ip with
    | nil => exact absurd rfl hne
    | cons d ip => left; simp at hc; subst hc; exact hi _ (by simp)
  obtain ⟨h1, h2⟩ := takeWhile_stop (l := fp ++ 'E' :: ex) hi (c := '.') (by decide)
  obtain ⟨h3, h4⟩ := takeWhile_stop (l := ex) hf (c := 'E') (by decide)
  have h5 : fracPart ('.' :: (fp ++ 'E' :: ex)) = (fp, 'E' :: ex) := by rw [fracPart, h3, h4]
  rw [decVal]
  simp only [hs, h1, h2, h5]
  rw [if_neg (by tauto), expPart, if_pos (Or.inr rfl), he]
  simp

theorem dig_not_e {c : Char} (h : isDig c = true) : (if c = 'e' then 'E' else c) = c := by
  rw [if_neg]
  rintro rfl
  exact absurd h (by decide)

theorem sciUpper_eq (p : ℕ) (hp : 1 ≤ p) {v : ℚ} (h : ¬ v < 0) :
    sciUpper p v = (fixDigits (p + 1) (sciRound p v).1).take 1 ++ '.' :: ((fixDigits (p + 1) (sciRound p v).1).drop 1 ++ 'E' :: expStr (sciRound p v).2) := by
  have hd := fixDigits_isDig (p + 1) (sciRound p v).1
  have hl := fixDigits_length (p + 1) (sciRound p v).1
  have he : ∀ c ∈ expStr (sciRound p v).2, (if c = 'e' then 'E' else c) = c := by
    intro c hc
    rw [if_neg]
    rintro rfl
    rw [expStr, List.mem_cons] at hc
    rcases hc with hc | hc
    · split at hc <;> cases hc
    · split at hc
      · exact absurd (fixDigits_isDig _ _ _ hc) (by decide)
      · exact absurd (fixDigits_isDig _ _ _ hc) (by decide)
  rw [sciUpper, sciStr, if_neg h, List.nil_append]
  generalize fixDigits (p + 1) (sciRound p v).1 = ds at hd hl
  generalize expStr (sciRound p v).2 = ex at he
  rw [mant_split (by omega), List.map_append, List.map_append, List.map_cons, List.map_cons]
  have m1 : (ds.take 1).map (fun c => if c = 'e' then 'E' else c) = ds.take 1 := by
    conv_rhs => rw [← List.map_id (ds.take 1)]
    exact List.map_congr_left (fun c hc => dig_not_e (hd c (List.mem_of_mem_take hc)))
  have m2 : (ds.drop 1).map (fun c => if c = 'e' then 'E' else c) = ds.drop 1 := by
    conv_rhs => rw [← List.map_id (ds.drop 1)]
    exact List.map_congr_left (fun c hc => dig_not_e (hd c (List.mem_of_mem_drop hc)))
  have m3 : ex.map (fun c => if c = 'e' then 'E' else c) = ex := by
    conv_rhs => rw [← List.map_id ex]
    exact List.map_congr_left (fun c hc => he c hc)
  rw [m1, m2, m3, List.append_assoc]
  rfl

theorem decVal_sciUpper (p : ℕ) (hp : 1 ≤ p) {v : ℚ} (h : ¬ v < 0) : decVal (sciUpper p v) = some (sciSigned p v) := by
  have hd := fixDigits_isDig (p + 1) (sciRound p v).1
  have hl := fixDigits_length (p + 1) (sciRound p v).1
  have hn : digitsNum (fixDigits (p + 1) (sciRound p v).1) = (sciRound p v).1 := by
    rw [digitsNum_fixDigits, Nat.mod_eq_of_lt (sciRound_range p v).1]
  rw [sciUpper_eq p hp h, decVal_exp_upper _ _ _ (sciRound p v).2 (fun c hc => hd c (List.mem_of_mem_take hc))
    (fun c hc => hd c (List.mem_of_mem_drop hc)) _ (intVal_expStr _), List.take_append_drop, hn, List.length_drop, hl, sciSigned, if_neg h, sciVal]
  · rw [show p + 1 - 1 = p from rfl, zpow_sub₀ (by norm_num), zpow_natCast]
    congr 1
    ring
  · intro e
    have := congrArg List.length e
    rw [List.length_take, hl] at this
    simp at this

theorem sciUpper_length (p : ℕ) (hp : 1 ≤ p) {v : ℚ} (h : TwoDigitExponent v) : (sciUpper p v).length = p + 6 := by
  rw [sciUpper_eq p hp (twoDigit_nonneg h), List.length_append, List.length_cons, List.length_append, List.length_cons,
    List.length_take, List.length_drop, fixDigits_length, expStr_length (exponent_bound p h)]
  omega

/-! ### rounding -/

theorem sci_relative (p : ℕ) {n : ℚ} (h : 0 < n) : |sciSigned p n - n| * (2 * 10 ^ p) ≤ n := by
  obtain ⟨_, _, h3⟩ := sciRound_range p n
  have h3 := h3 h.ne'
  obtain ⟨b1, _⟩ := ten_log n h
  rw [sciSigned, if_neg (not_lt.2 h.le), h3, abs_of_pos h]
  set L := Int.log 10 n
  set x := n * (10 : ℚ) ^ ((p : ℤ) - L) with hx
  have hx0 : 0 ≤ x := by positivity
  have hr := (roundEven_spec x hx0).1 (round x)
  have hr2 := abs_sub_round x
  have hle : |x - roundEven x| ≤ 1 / 2 := le_trans hr hr2
  have hn : n = x * (10 : ℚ) ^ (L - p) := by
    rw [hx, mul_assoc, ← zpow_add₀ (by norm_num)]
    have : (p : ℤ) - L + (L - p) = 0 := by ring
    rw [this, zpow_zero, mul_one]
  have hk : (0 : ℚ) < (10 : ℚ) ^ (L - p) := by positivity
  have e : ((roundEven x : ℕ) : ℚ) * (10 : ℚ) ^ (L - p) - n = (roundEven x - x) * (10 : ℚ) ^ (L - p) := by
    conv_lhs => rw [hn]
    ring
  rw [e, abs_mul, abs_of_pos hk, abs_sub_comm]
  have e2 : (10 : ℚ) ^ (L - p) * (10 : ℚ) ^ p = (10 : ℚ) ^ L := by
    rw [← zpow_natCast (10 : ℚ) p, ← zpow_add₀ (by norm_num)]
    congr 1
    ring
  calc |x - roundEven x| * (10 : ℚ) ^ (L - p) * (2 * 10 ^ p) = |x - roundEven x| * 2 * ((10 : ℚ) ^ (L - p) * 10 ^ p) := by ring
    _ = |x - roundEven x| * 2 * (10 : ℚ) ^ L := by rw [e2]
    _ ≤ 1 * (10 : ℚ) ^ L := by
      apply mul_le_mul_of_nonneg_right _ (by positivity)
      linarith
    _ ≤ n := by rw [one_mul]; exact b1

theorem sci_pos (p : ℕ) {n : ℚ} (h : 0 < n) : 0 < sciSigned p n := by
  rw [sciSigned, if_neg (not_lt.2 h.le)]
  exact lt_of_lt_of_le (by positivity) (sciVal_bounds p h.ne').1

theorem area_error {n a : ℚ} (hn : 0 < n) (ha : 0 < a) : |sciSigned 4 n / sciSigned 3 (n / a) - a| ≤ 6 / 10000 * a := by
  have hd : 0 < n / a := by positivity
  have h1 := sci_relative 4 hn
  have h2 := sci_relative 3 hd
  have h3 := sci_pos 3 hd
  generalize sciSigned 4 n = u at *
  generalize sciSigned 3 (n / a) = v at *
  have g1 := abs_le.1 (show |u - n| ≤ n / 20000 by linarith)
  have g2 := abs_le.1 (show |v - n / a| ≤ n / a / 2000 by linarith)
  have e : n / a * a = n := by field_simp
  have k1 : v * a - n ≤ n / 2000 := by nlinarith [g2.2]
  have k2 : -(n / 2000) ≤ v * a - n := by nlinarith [g2.1]
  rw [show u / v - a = (u - a * v) / v by field_simp, abs_div, abs_of_pos h3, div_le_iff₀ h3, abs_le]
  constructor <;> nlinarith

/-! ### the lines of the file -/

/-- what is assumed of a line: the numbers are in the range of two-digit exponents, and the columns that are not read again are texts
shorter than their widths -/
structure LineOk (area : ℚ) (r : StatLine) : Prop where
  n : TwoDigitExponent r.n
  ncum : TwoDigitExponent r.ncum
  nEvent : TwoDigitExponent r.nEvent
  density : TwoDigitExponent (r.ncum / area)
  other : r.other.length = 6
  plain : ∀ t ∈ r.other, Plain t ∧ t.length < 12

def statColumns (area : ℚ) (r : StatLine) : List (ℕ × List Char) :=
  [(11, gStr 4 r.n), (13, r.other.getD 0 []), (12, r.other.getD 1 []), (11, gStr 4 r.ncum), (13, sciUpper 3 (r.ncum / area)),
    (12, r.other.getD 2 []), (12, r.other.getD 3 []), (12, r.other.getD 4 []), (12, r.other.getD 5 []), (12, gStr 4 r.nEvent)]

theorem statLine_eq (area : ℚ) (r : StatLine) : statLine area r = ljust 7 (gStr 4 r.dMin) ++ columnsText (statColumns area r) := by
  simp only [statLine, columnsText, statColumns, List.map_cons, List.map_nil, List.flatten_cons, List.flatten_nil, List.append_assoc,
    List.append_nil]

theorem statColumns_ok {area : ℚ} {r : StatLine} (h : LineOk area r) : ∀ x ∈ statColumns area r, x.2.length < x.1 ∧ Plain x.2 := by
  have ho : ∀ k, k < 6 → Plain (r.other.getD k []) ∧ (r.other.getD k []).length < 12 := by
    intro k hk
    rw [List.getD_eq_getElem _ _ (by rw [h.other]; exact hk)]
    exact h.plain _ (List.getElem_mem _)
  intro x hx
  simp only [statColumns, List.mem_cons, List.not_mem_nil, or_false] at hx
  rcases hx with rfl | rfl | rfl | rfl | rfl | rfl | rfl | rfl | rfl | rfl
  · exact ⟨lt_of_le_of_lt (gStr_length 4 h.n) (by norm_num), plain_g _ _⟩
  · exact ⟨lt_trans (ho 0 (by norm_num)).2 (by norm_num), (ho 0 (by norm_num)).1⟩
  · exact ⟨(ho 1 (by norm_num)).2, (ho 1 (by norm_num)).1⟩
  · exact ⟨lt_of_le_of_lt (gStr_length 4 h.ncum) (by norm_num), plain_g _ _⟩
  · exact ⟨by dsimp only; rw [sciUpper_length 3 (by norm_num) h.density]; norm_num, plain_num (decVal_sciUpper 3 (by norm_num) (twoDigit_nonneg h.density))⟩
  · exact ⟨(ho 2 (by norm_num)).2, (ho 2 (by norm_num)).1⟩
  · exact ⟨(ho 3 (by norm_num)).2, (ho 3 (by norm_num)).1⟩
  · exact ⟨(ho 4 (by norm_num)).2, (ho 4 (by norm_num)).1⟩
  · exact ⟨(ho 5 (by norm_num)).2, (ho 5 (by norm_num)).1⟩
  · exact ⟨lt_of_le_of_lt (gStr_length 4 h.nEvent) (by norm_num), plain_g _ _⟩

theorem statLine_words (C : Classes) {area : ℚ} {r : StatLine} (h : LineOk area r) :
    words C.space (statLine area r) = gStr 4 r.dMin :: (statColumns area r).map Prod.snd := by
  rw [statLine_eq]
  exact words_line C 7 (plain_g 4 r.dMin) (fun x hx => (statColumns_ok h x hx).1) (fun x hx => (statColumns_ok h x hx).2)

theorem statLine_kept (C : Classes) {area : ℚ} {r : StatLine} (h : LineOk area r) : KeptLine C (statLine area r) := by
  rw [statLine_eq]
  refine kept_safe C (by rw [ljust, List.append_assoc]; exact plain_first (plain_g 4 r.dMin)) ?_
  intro c hc
  have hp : ∀ {t : List Char}, Plain t → c ∈ t → c ∈ safeChars := fun ht hc => List.mem_append_right _ (ht.2 c hc)
  have hs : ∀ k, c ∈ List.replicate k ' ' → c ∈ safeChars := by
    intro k hk
    rw [List.eq_of_mem_replicate hk]
    decide +kernel
  rw [ljust, List.mem_append, List.mem_append] at hc
  rcases hc with (hc | hc) | hc
  · exact hp (plain_g _ _) hc
  · exact hs _ hc
  · rw [columnsText, List.mem_flatten] at hc
    obtain ⟨t, ht, hc⟩ := hc
    rw [List.mem_map] at ht
    obtain ⟨x, hx, rfl⟩ := ht
    rw [rjust, List.mem_append] at hc
    rcases hc with hc | hc
    · exact hs _ hc
    · exact hp (statColumns_ok h x hx).2 hc

/-- the numbers of a line after rounding -/
def roundedRow (area : ℚ) (r : StatLine) : StatFields :=
  ⟨sciSigned 4 r.dMin, sciSigned 4 r.n, sciSigned 4 r.ncum, sciSigned 3 (r.ncum / area), sciSigned 4 r.nEvent⟩

theorem column_g {e : List (List Char)} {k P : ℕ} {v : ℚ} (h : e[k]? = some (gStr P v)) : column e k = .ok (sciSigned P v) := by
  rw [column, h]
  show tfloat (.str (gStr P v)) = _
  rw [tfloat, decVal_gStr]

theorem stat_read (C : Classes) (sep : List Char) (hsep : sep = ['\n'] ∨ sep = ['\r', '\n']) {source binning : List Char}
    (hs : PlainLine source) (hb : PlainLine binning) (area : ℚ) (rows : List StatLine)
    (h : ∀ r ∈ rows, 0 < r.n → LineOk area r) :
    readTextfile C none true true false (statText sep source binning area rows) =
      (rows.filter (fun r => decide (0 < r.n))).map (statLine area) := by
  obtain ⟨L, hL⟩ : ∃ L, L = (rows.filter (fun r => decide (0 < r.n))).map (statLine area) := ⟨_, rfl⟩
  have hk : ∀ l ∈ L, KeptLine C l ∧ l ≠ [] := by
    intro l hl
    rw [hL, List.mem_map] at hl
    obtain ⟨r, hr, rfl⟩ := hl
    rw [List.mem_filter, decide_eq_true_eq] at hr
    refine ⟨statLine_kept C (h r hr.1 hr.2), ?_⟩
    rw [statLine_eq, ljust]
    intro e
    rw [List.append_assoc] at e
    exact (plain_g 4 r.dMin).1 (List.append_eq_nil_iff.1 e).1
  obtain ⟨A, hA⟩ : ∃ A, A = ["# Craterstats3 exported stat file".toList, dashes 32, ['#'], "# Source: ".toList ++ source, "# Binning: ".toList ++ binning, ['#'],
    "# Total area = ".toList ++ gStr 5 area, ['#'],
    "#  D_min       F(D)       N_inc       Error        C(D)       N_cum       Error      D_mean      N_diff       Error     N_event".toList,
    ['#'], dashes 126] := ⟨_, rfl⟩
  have hd : ∀ k, PlainLine (dashes k) ∧ (dashes k).head? = some '#' := by
    intro k
    refine ⟨?_, rfl⟩
    intro c hc
    rw [dashes, List.mem_cons] at hc
    rcases hc with rfl | hc
    · decide +kernel
    · rw [List.eq_of_mem_replicate hc]; decide +kernel
  have happ : ∀ p t : List Char, p.head? = some '#' → PlainLine p → PlainLine t → PlainLine (p ++ t) ∧ (p ++ t).head? = some '#' := by
    intro p t h1 h2 h3
    refine ⟨?_, ?_⟩
    · intro c hc
      rcases List.mem_append.1 hc with hc | hc
      · exact h2 c hc
      · exact h3 c hc
    · cases p with
      | nil => cases h1
      | cons => exact h1
  have hsharp : PlainLine ['#'] ∧ ['#'].head? = some '#' := ⟨by unfold PlainLine; decide +kernel, rfl⟩
  have hhA : ∀ l ∈ A, PlainLine l ∧ l.head? = some '#' := by
    rw [hA]
    refine List.forall_mem_cons.2 ⟨⟨by unfold PlainLine; decide +kernel, by decide⟩, ?_⟩
    refine List.forall_mem_cons.2 ⟨hd _, ?_⟩
    refine List.forall_mem_cons.2 ⟨hsharp, ?_⟩
    refine List.forall_mem_cons.2 ⟨happ _ _ (by decide) (by unfold PlainLine; decide +kernel) hs, ?_⟩
    refine List.forall_mem_cons.2 ⟨happ _ _ (by decide) (by unfold PlainLine; decide +kernel) hb, ?_⟩
    refine List.forall_mem_cons.2 ⟨hsharp, ?_⟩
    refine List.forall_mem_cons.2 ⟨happ _ _ (by decide) (by unfold PlainLine; decide +kernel)
      (fun c hc => (plainChars_spec c ((plain_g 5 area).2 c hc)).2.2.1), ?_⟩
    refine List.forall_mem_cons.2 ⟨hsharp, ?_⟩
    refine List.forall_mem_cons.2 ⟨⟨by unfold PlainLine; decide +kernel, by decide +kernel⟩, ?_⟩
    refine List.forall_mem_cons.2 ⟨hsharp, ?_⟩
    refine List.forall_mem_cons.2 ⟨hd _, ?_⟩
    intro l hl
    cases hl
  have e : statLines source binning area rows = A ++ L ++ [dashes 126] := by rw [hA, hL]; rfl
  have hraw : ∀ l ∈ A ++ L ++ [dashes 126], (PlainLine l ∧ l.head? = some '#') ∨ KeptLine C l := by
    intro l hl
    rw [List.mem_append, List.mem_append, List.mem_singleton] at hl
    rcases hl with (hl | hl) | rfl
    · exact Or.inl (hhA l hl)
    · exact Or.inr (hk l hl).1
    · exact Or.inl (hd _)
  have hlines : fileLines C none (writeTextfile sep false (A ++ L ++ [dashes 126])) = A ++ L ++ [dashes 126] := by
    refine C31_roundtrip_partial C sep hsep false _ ?_ ?_ (Or.inr ?_)
    · intro l hl
      rcases hraw l hl with h | h
      exacts [h.1, h.1]
    · rw [hA]; simp
    · intro l hl
      rw [hA, List.cons_append, List.cons_append, List.head?_cons] at hl
      injection hl with hl
      rw [← hl]
      decide
  have hsp : C.space '#' = false := not_space (by decide) (by decide)
  have hhash : ∀ l : List Char, l.head? = some '#' → ((lstrip C.space l).head? != some '#') = false := by
    intro l hl
    match l, hl with
    | c :: l, hl =>
      simp at hl
      subst hl
      simp [lstrip, hsp]
  rw [statText, e, readTextfile, hlines]
  simp only [Bool.false_eq_true, if_false, if_true]
  have f1 : (A ++ L ++ [dashes 126]).filter (fun e => e != []) = A ++ L ++ [dashes 126] := by
    rw [List.filter_eq_self]
    intro l hl
    rw [bne_iff_ne]
    rintro rfl
    rw [List.mem_append, List.mem_append, List.mem_singleton] at hl
    rcases hl with (hl | hl) | hl
    · have := (hhA _ hl).2; cases this
    · exact (hk _ hl).2 rfl
    · cases hl
  have f2 : A.filter (fun e => (lstrip C.space e).head? != some '#') = [] := by
    rw [List.filter_eq_nil_iff]
    intro l hl
    rw [hhash l (hhA l hl).2]; decide
  have f3 : L.filter (fun e => (lstrip C.space e).head? != some '#') = L := by
    rw [List.filter_eq_self]
    intro l hl
    rw [bne_iff_ne]
    exact (hk l hl).1.2.1
  have f4 : [dashes 126].filter (fun e => (lstrip C.space e).head? != some '#') = [] := by
    rw [List.filter_eq_nil_iff]
    intro l hl
    rw [List.mem_singleton] at hl
    rw [hl, hhash _ rfl]; decide
  rw [f1, List.filter_append, List.filter_append, f2, f3, f4, List.nil_append, List.append_nil, hL]

theorem stat_fields (C : Classes) (sep : List Char) (hsep : sep = ['\n'] ∨ sep = ['\r', '\n']) {source binning : List Char}
    (hs : PlainLine source) (hb : PlainLine binning) (area : ℚ) (rows : List StatLine)
    (h : ∀ r ∈ rows, 0 < r.n → LineOk area r) (hne : rows.filter (fun r => decide (0 < r.n)) ≠ []) :
    statFields C (statText sep source binning area rows) = .ok ((rows.filter (fun r => decide (0 < r.n))).map (roundedRow area)) := by
  have hq : ∀ r ∈ rows.filter (fun r => decide (0 < r.n)), LineOk area r := by
    intro r hr
    rw [List.mem_filter, decide_eq_true_eq] at hr
    exact h r hr.1 hr.2
  rw [statFields, stat_read C sep hsep hs hb area rows h]
  generalize rows.filter (fun r => decide (0 < r.n)) = q at hne hq
  have hm : (q.map (statLine area)).map (words C.space) = q.map (fun r => gStr 4 r.dMin :: (statColumns area r).map Prod.snd) := by
    rw [List.map_map]
    apply List.map_congr_left
    intro r hr
    exact statLine_words C (hq r hr)
  dsimp only
  rw [hm]
  obtain ⟨r0, q', rfl⟩ := List.exists_cons_of_ne_nil hne
  rw [List.map_cons]
  dsimp only
  have hlen : ¬ (gStr 4 r0.dMin :: (statColumns area r0).map Prod.snd).length = 7 := by
    rw [List.length_cons, List.length_map]; simp [statColumns]
  rw [← List.map_cons (f := fun r => gStr 4 r.dMin :: (statColumns area r).map Prod.snd)]
  rw [mapM_map', mapM_eq]
  intro r hr
  have hr := hq r hr
  simp only [if_neg hlen]
  rw [column_g (P := 4) (v := r.dMin) rfl, ok_bind, column_g (P := 4) (v := r.n) rfl, ok_bind,
    column_g (P := 4) (v := r.ncum) rfl, ok_bind]
  have hcol : column (gStr 4 r.dMin :: (statColumns area r).map Prod.snd) 5 = .ok (sciSigned 3 (r.ncum / area)) := by
    show tfloat (.str (sciUpper 3 (r.ncum / area))) = _
    rw [tfloat, decVal_sciUpper 3 (by norm_num) (twoDigit_nonneg hr.density)]
  rw [hcol, ok_bind, column_g (P := 4) (v := r.nEvent) rfl, ok_bind]
  rfl

noncomputable section

/-- the same for any list of non-empty bins -/
theorem stat_table (C : Classes) (shp : Except Exc Reading.Count) {file : List Char} (area : ℚ) (harea : 0 < area) (q : List StatLine)
    (hmem : ∀ r ∈ q, LineOk area r ∧ 0 < r.ncum) (h2 : 2 ≤ q.length) (hf : statFields C file = .ok (q.map (roundedRow area))) :
    ∃ a t, openCount C shp ".stat".toList file = .ok (.table a t) ∧
      |a - (area : ℝ)| ≤ 6 / 10000 * area ∧ ∃ hl : t.length = q.length, ∀ i (hi : i < q.length),
        t[i].dMin = (sciSigned 4 q[i].dMin : ℚ) ∧ t[i].n = (sciSigned 4 q[i].n : ℚ) ∧ t[i].nEvent = (sciSigned 4 q[i].nEvent : ℚ) ∧
        t[i].ncum = (sciSigned 4 q[i].ncum : ℚ) ∧ ∀ hi' : i + 1 < q.length, t[i].dMax = (sciSigned 4 q[i + 1].dMin : ℚ) := by
  obtain ⟨F, hF⟩ : ∃ F, F = (q.map (roundedRow area)).map StatFields.toRow := ⟨_, rfl⟩
  have hFl : F.length = q.length := by rw [hF]; simp
  have hdl : (F.map Cratercount.StatRow.diam).length = q.length := by rw [List.length_map, hFl]
  obtain ⟨z, hmx⟩ : ∃ z, Cratercount.statDMax (F.map Cratercount.StatRow.diam) = .ok ((F.map Cratercount.StatRow.diam).tail ++ [z]) :=
    ⟨_, statDMax_ok (F.map Cratercount.StatRow.diam) (by rw [hdl]; exact h2)⟩
  have hget : ∀ i (hi : i < q.length), F[i] = (roundedRow area q[i]).toRow := by
    intro i hi; simp [hF]
  have h0 : 0 < q.length := lt_of_lt_of_le (by norm_num) h2
  have hhead : F.head? = some (roundedRow area q[0]).toRow := by
    rw [List.head?_eq_getElem?, List.getElem?_eq_getElem (by rw [hFl]; exact h0), hget 0 h0]
  have hq0 := (hmem q[0] (List.getElem_mem _)).2
  have hpos : (0 : ℚ) < q[0].ncum / area := by positivity
  have hdiv : Cratercount.fdiv (roundedRow area q[0]).toRow.ncum (roundedRow area q[0]).toRow.ncumDensity =
      .ok ((sciSigned 4 q[0].ncum / sciSigned 3 (q[0].ncum / area) : ℚ) : ℝ) := by
    have hz : ((sciSigned 3 (q[0].ncum / area) : ℚ) : ℝ) ≠ 0 := by exact_mod_cast (sci_pos 3 hpos).ne'
    show Cratercount.fdiv ((sciSigned 4 q[0].ncum : ℚ) : ℝ) ((sciSigned 3 (q[0].ncum / area) : ℚ) : ℝ) = _
    rw [Cratercount.fdiv, if_neg hz]
    push_cast
    rfl
  have hread : ∃ t, Cratercount.readStat F = .ok (((sciSigned 4 q[0].ncum / sciSigned 3 (q[0].ncum / area) : ℚ) : ℝ), t) ∧
      t = List.zipWith (fun (r : Cratercount.StatRow) (hi : ℝ) =>
        ({ dMin := r.diam, dMax := hi, width := hi - r.diam, dMean := Real.sqrt (r.diam * hi),
           n := r.n, nEvent := r.nEvent, ncum := r.ncum, ncumEvent := r.ncum } : Cratercount.Bin)) F
        ((F.map Cratercount.StatRow.diam).tail ++ [z]) := by
    refine ⟨_, ?_, rfl⟩
    unfold Cratercount.readStat
    dsimp only
    rw [hmx]
    show (match F.head? with | none => _ | some r0 => _) = _
    rw [hhead]
    dsimp only
    rw [hdiv]
    rfl
  obtain ⟨t, ht, hteq⟩ := hread
  refine ⟨((sciSigned 4 q[0].ncum / sciSigned 3 (q[0].ncum / area) : ℚ) : ℝ), t, ?_, ?_, ?_, ?_⟩
  · unfold openCount
    rw [if_pos rfl, hf]
    show (match Cratercount.readStat ((q.map (roundedRow area)).map StatFields.toRow) with | .ok (a, t) => _ | .error _ => _) = _
    rw [← hF, ht]
  · have := area_error hq0 harea
    have h' : ((|sciSigned 4 q[0].ncum / sciSigned 3 (q[0].ncum / area) - area| : ℚ) : ℝ) ≤ ((6 / 10000 * area : ℚ) : ℝ) := by exact_mod_cast this
    push_cast at h' ⊢
    exact h'
  · rw [hteq, List.length_zipWith, List.length_append, List.length_tail, hdl, hFl, List.length_singleton]
    omega
  · intro i hi
    subst hteq
    simp only [List.getElem_zipWith, hget i hi]
    refine ⟨rfl, rfl, rfl, rfl, ?_⟩
    intro hi'
    rw [List.getElem_append_left (by rw [List.length_tail, hdl]; omega), List.getElem_tail, List.getElem_map, hget (i + 1) hi']
    rfl

/-- **C11, as a text.** A table with at least two non-empty bins, written as a .stat file and opened again, gives the non-empty bins, with
diameters, numbers, event numbers and cumulative numbers rounded to five significant digits and the next diameter as upper limit; the
area is the one written up to six parts in ten thousand.  (It is found from a cumulative number with five digits and a density with four.)
Missing from the full claim: see `C11_stat_roundtrip_partial` and the counterexamples. -/
theorem C11_text_partial (C : Classes) (shp : Except Exc Reading.Count) (sep : List Char) (hsep : sep = ['\n'] ∨ sep = ['\r', '\n'])
    {source binning : List Char} (hs : PlainLine source) (hb : PlainLine binning) (area : ℚ) (harea : 0 < area) (rows : List StatLine)
    (h : ∀ r ∈ rows, 0 < r.n → LineOk area r ∧ 0 < r.ncum) (h2 : 2 ≤ (rows.filter (fun r => decide (0 < r.n))).length) :
    let q := rows.filter (fun r => decide (0 < r.n))
    ∃ a t, openCount C shp ".stat".toList (statText sep source binning area rows) = .ok (.table a t) ∧
      |a - (area : ℝ)| ≤ 6 / 10000 * area ∧ ∃ hl : t.length = q.length, ∀ i (hi : i < q.length),
        t[i].dMin = (sciSigned 4 q[i].dMin : ℚ) ∧ t[i].n = (sciSigned 4 q[i].n : ℚ) ∧ t[i].nEvent = (sciSigned 4 q[i].nEvent : ℚ) ∧
        t[i].ncum = (sciSigned 4 q[i].ncum : ℚ) ∧ ∀ hi' : i + 1 < q.length, t[i].dMax = (sciSigned 4 q[i + 1].dMin : ℚ) := by
  intro q
  have hne : q ≠ [] := by intro e; rw [show rows.filter _ = q from rfl, e] at h2; simp at h2
  have hf := stat_fields C sep hsep hs hb area rows (fun r hr hn => (h r hr hn).1) hne
  have hmem : ∀ r ∈ q, LineOk area r ∧ 0 < r.ncum := by
    intro r hr
    have := List.mem_filter.1 hr
    exact h r this.1 (by simpa using this.2)
  change 2 ≤ q.length at h2
  change statFields C _ = .ok (q.map (roundedRow area)) at hf
  exact stat_table C shp area harea q hmem h2 hf

def exampleRows : List StatLine :=
  [⟨1, 3, 4, 3, ["1.200E-01", "6.928E-02", "8.000E-02", "1.225", "2.400E-01", "1.386E-01"].map String.toList⟩,
   ⟨3 / 2, 0, 1, 0, []⟩, ⟨2, 1, 1, 1, ["4.000E-02", "4.000E-02", "4.000E-02", "2.449", "4.000E-02", "4.000E-02"].map String.toList⟩]

theorem exampleRows_ok : ∀ r ∈ exampleRows, 0 < r.n → LineOk 25 r ∧ 0 < r.ncum := by
  have ht : ∀ q : ℚ, 1 / 1000 ≤ q → q ≤ 1000 → TwoDigitExponent q := by
    intro q h1 h2
    refine Or.inr ⟨le_trans ?_ h1, lt_of_le_of_lt h2 ?_⟩
    · norm_num
    · norm_num
  intro r hr hn
  simp only [exampleRows, List.mem_cons, List.not_mem_nil, or_false] at hr
  rcases hr with rfl | rfl | rfl
  · exact ⟨⟨ht _ (by norm_num) (by norm_num), ht _ (by norm_num) (by norm_num), ht _ (by norm_num) (by norm_num),
      ht _ (by norm_num) (by norm_num), rfl, by unfold Plain; decide +kernel⟩, by norm_num⟩
  · exact absurd hn (lt_irrefl _)
  · exact ⟨⟨ht _ (by norm_num) (by norm_num), ht _ (by norm_num) (by norm_num), ht _ (by norm_num) (by norm_num),
      ht _ (by norm_num) (by norm_num), rfl, by unfold Plain; decide +kernel⟩, by norm_num⟩

example (C : Classes) (shp : Except Exc Reading.Count) : ∃ a t,
    openCount C shp ".stat".toList (statText ['\n'] "a.scc".toList "pseudo-log".toList 25 exampleRows) = .ok (.table a t) ∧ t.length = 2 := by
  obtain ⟨a, t, h, _, hl, _⟩ := C11_text_partial C shp ['\n'] (.inl rfl) (source := "a.scc".toList) (binning := "pseudo-log".toList)
    (by unfold PlainLine; decide +kernel) (by unfold PlainLine; decide +kernel) 25 (by norm_num) exampleRows exampleRows_ok (by decide +kernel)
  refine ⟨a, t, h, ?_⟩
  rw [hl]
  decide +kernel

end

end Verif.Props
