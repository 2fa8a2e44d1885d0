import Verif.Model.Scc
import Verif.Props.RandomnessFile
import Mathlib.Data.List.Destutter

/-! C57, C77: spatial crater count files. -/

namespace Verif.Props

open Verif.Py Verif.Text Verif.Rand Verif.Scc

/-! ### fixed point numbers -/

/-- Specification: rounding to `p` decimals, halves to even. -/
def roundTo (p : ℕ) (q : ℚ) : ℚ := (if q < 0 then -1 else 1) * (roundEven (|q| * 10 ^ p) : ℚ) / 10 ^ p

theorem decVal_fixStr (p : ℕ) (q : ℚ) : decVal (fixStr p q) = some (roundTo p q) := by
  have hd := fixDigits_isDig
  rw [fixStr, roundTo]
  generalize roundEven (|q| * 10 ^ p) = m
  have h0 : decVal (natStr (m / 10 ^ p) ++ '.' :: fixDigits p (m % 10 ^ p)) = some ((m : ℚ) / 10 ^ p) := by
    rw [decVal_plain (natStr (m / 10 ^ p)) _ (fun c hc => fixDigits_isDig _ _ c hc) (fixDigits_isDig _ _) (Or.inl (natStr_ne_nil _)), digitsNum_append,
      digitsNum_natStr, digitsNum_fixDigits, fixDigits_length, Nat.mod_mod, Nat.div_add_mod']
  split
  · rw [List.append_assoc, List.singleton_append, decVal_neg, h0]
    · simp [neg_div]
    · intro c hc
      obtain ⟨d, t, e⟩ := List.exists_cons_of_ne_nil (natStr_ne_nil (m / 10 ^ p))
      rw [e] at hc
      simp at hc
      subst hc
      left
      exact fixDigits_isDig _ _ d (by rw [natStr] at e; rw [e]; simp)
  · rw [List.nil_append, h0]; simp

/-- what is read differs by at most half a unit of the last decimal -/
theorem roundTo_error (p : ℕ) (q : ℚ) : |roundTo p q - q| ≤ 1 / 2 / 10 ^ p := by
  have hp : (0 : ℚ) < 10 ^ p := by positivity
  have key : abs ((roundEven (|q| * 10 ^ p) : ℚ) / 10 ^ p - |q|) ≤ 1 / 2 / 10 ^ p := by
    have hq : 0 ≤ |q| * 10 ^ p := by positivity
    have h := (roundEven_spec _ hq).1
    have h1 := h ⌊|q| * 10 ^ p⌋
    have h2 := h (⌊|q| * 10 ^ p⌋ + 1)
    have f1 := Int.floor_le (|q| * 10 ^ p)
    have f2 := Int.lt_floor_add_one (|q| * 10 ^ p)
    rw [abs_of_nonneg (by linarith : (0:ℚ) ≤ |q| * 10 ^ p - ⌊|q| * 10 ^ p⌋)] at h1
    rw [abs_of_nonpos (by push_cast; linarith : |q| * 10 ^ p - ((⌊|q| * 10 ^ p⌋ + 1 : ℤ) : ℚ) ≤ 0)] at h2
    push_cast at h2
    have h3 : abs (|q| * 10 ^ p - roundEven (|q| * 10 ^ p)) ≤ 1 / 2 := by linarith
    have e : (roundEven (|q| * 10 ^ p) : ℚ) / 10 ^ p - |q| = -((|q| * 10 ^ p) - roundEven (|q| * 10 ^ p)) / 10 ^ p := by
      field_simp; ring
    rw [e, abs_div, abs_neg, abs_of_pos hp]
    exact div_le_div_of_nonneg_right h3 hp.le
  rw [roundTo]
  split
  · rename_i h
    rw [abs_of_neg h] at key ⊢
    rw [show -1 * (roundEven (-q * 10 ^ p) : ℚ) / 10 ^ p - q = -((roundEven (-q * 10 ^ p) : ℚ) / 10 ^ p - -q) by ring, abs_neg]
    exact key
  · rename_i h
    rw [abs_of_nonneg (not_lt.1 h)] at key ⊢
    rw [one_mul]
    exact key

theorem plain_fix (p : ℕ) (q : ℚ) : Plain (fixStr p q) := plain_num (decVal_fixStr p q)

/-! ### the substitution -/

theorem isPrefixOf_line (t l y : List Char) (ht : '\n' ∉ t) : t.isPrefixOf (l ++ '\n' :: y) = t.isPrefixOf l := by
  induction t generalizing l with
  | nil => simp
  | cons c t ih =>
    rw [List.mem_cons, not_or] at ht
    cases l with
    | nil =>
      have : (c == '\n') = false := by simpa using fun e => ht.1 e.symm
      simp [List.isPrefixOf, this]
    | cons d l => rw [List.cons_append, List.isPrefixOf, List.isPrefixOf, ih l ht.2]

theorem isAxis_line (l y : List Char) : isAxis (l ++ '\n' :: y) = isAxis l := by
  match l with
  | [] => cases y <;> rfl
  | [c] =>
    rw [List.cons_append, List.nil_append, isAxis]
    show (_ && _ && _) = false
    simp
  | c :: d :: l =>
    rw [List.cons_append, List.cons_append, isAxis, isAxis, isPrefixOf_line _ _ _ (by decide)]

theorem isAxis_length {l : List Char} (h : isAxis l = true) : 13 ≤ l.length := by
  match l, h with
  | c :: d :: l, h =>
    rw [isAxis, Bool.and_eq_true] at h
    have := (List.isPrefixOf_iff_prefix.1 h.2).length_le
    have e : "axis radius".toList.length = 11 := rfl
    simp only [List.length_cons]
    omega

theorem subAxis_line (l y : List Char) (n : ℕ) (hn : n ≤ l.length) :
    subAxis n (l ++ '\n' :: y) = subAxis n l ++ '\n' :: subAxis 0 y := by
  induction l generalizing n with
  | nil =>
    have : n = 0 := by simpa using hn
    subst this
    rw [List.nil_append]
    show (if isAxis ('\n' :: y) = true then _ else _) = _
    rw [if_neg]
    · rfl
    · have := isAxis_line [] y
      rw [List.nil_append] at this
      rw [this]; decide
  | cons c l ih =>
    cases n with
    | succ n => rw [List.cons_append, subAxis, subAxis, ih n (by simpa using hn)]
    | zero =>
      have ha := isAxis_line (c :: l) y
      rw [List.cons_append] at ha ⊢
      rw [subAxis, subAxis, ha]
      split
      · rename_i h
        have := isAxis_length h
        rw [ih 12 (by simp at this; omega)]
        simp
      · rw [ih 0 (by omega)]; rfl

theorem subAxis_join (ls : List (List Char)) : subAxis 0 (join ['\n'] ls) = join ['\n'] (ls.map (subAxis 0)) := by
  induction ls with
  | nil => rfl
  | cons l ls ih =>
    cases ls with
    | nil => rfl
    | cons g ls =>
      rw [List.map_cons, List.map_cons, join, join, List.append_assoc, List.singleton_append, subAxis_line _ _ _ (Nat.zero_le _), ih]
      simp

/-- no space is followed by an `r` -/
def NoSR (l : List Char) : Prop := ∀ a b, l ≠ a ++ ' ' :: 'r' :: b

theorem subAxis_eq {l : List Char} (h : NoSR l) : subAxis 0 l = l := by
  induction l with
  | nil => rfl
  | cons c l ih =>
    have h1 : NoSR l := fun a b e => h (c :: a) b (by rw [e]; rfl)
    rw [subAxis, if_neg, ih h1]
    intro ha
    match l, ha, h with
    | d :: l, ha, h =>
      rw [isAxis, Bool.and_eq_true] at ha
      obtain ⟨t, e⟩ := List.isPrefixOf_iff_prefix.1 ha.2
      refine h (c :: d :: "axis".toList) ("adius".toList ++ t) ?_
      rw [← e]
      rfl

theorem noSR_append {a b : List Char} (ha : NoSR a) (hb : 'r' ∉ b) : NoSR (a ++ b) := by
  intro x y e
  rcases List.append_eq_append_iff.1 e with ⟨z, e1, e2⟩ | ⟨z, e1, e2⟩
  · exact hb (by rw [e2]; simp)
  · match z, e1, e2 with
    | [], _, e2 => exact hb (by rw [List.nil_append] at e2; rw [← e2]; simp)
    | [c], _, e2 =>
      rw [List.cons_append, List.nil_append] at e2
      injection e2 with _ e2
      exact hb (by rw [← e2]; simp)
    | c :: d :: z, e1, e2 =>
      rw [List.cons_append, List.cons_append] at e2
      injection e2 with h1 e2
      injection e2 with h2 e2
      exact ha x z (by rw [e1, h1, h2])

theorem noSR_head {a b : List Char} (ha : NoSR a) (hb : ' ' ∉ b) (hr : b.head? ≠ some 'r') : NoSR (a ++ b) := by
  intro x y e
  rcases List.append_eq_append_iff.1 e with ⟨z, e1, e2⟩ | ⟨z, e1, e2⟩
  · exact hb (by rw [e2]; simp)
  · match z, e1, e2 with
    | [], _, e2 => exact hb (by rw [List.nil_append] at e2; rw [← e2]; simp)
    | [c], _, e2 =>
      rw [List.cons_append, List.nil_append] at e2
      injection e2 with _ e2
      exact hr (by rw [← e2]; rfl)
    | c :: d :: z, e1, e2 =>
      rw [List.cons_append, List.cons_append] at e2
      injection e2 with h1 e2
      injection e2 with h2 e2
      exact ha x z (by rw [e1, h1, h2])

/-- the same, to be computed -/
def noSRb : List Char → Bool
  | c :: d :: l => !(c == ' ' && d == 'r') && noSRb (d :: l)
  | _ => true

theorem noSR_of {l : List Char} (h : noSRb l = true) : NoSR l := by
  induction l with
  | nil => intro a b e; simp at e
  | cons c l ih =>
    intro a b e
    cases l with
    | nil =>
      have := congrArg List.length e
      simp at this
      omega
    | cons d l =>
      rw [noSRb, Bool.and_eq_true] at h
      cases a with
      | nil =>
        rw [List.nil_append] at e
        injection e with e1 e2
        injection e2 with e2 e3
        subst e1 e2
        simp at h
      | cons x a =>
        rw [List.cons_append] at e
        injection e with e1 e2
        exact ih h.2 a b e2

/-! ### lines of a file with comments -/

theorem read_lines (C : Classes) (sep : List Char) (hsep : sep = ['\n'] ∨ sep = ['\r', '\n']) (raw : List (List Char))
    (h : ∀ l ∈ raw, (PlainLine l ∧ l.head? = some '#') ∨ KeptLine C l) (hne : raw ≠ [[]])
    (hb : ∀ l ∈ raw.head?, l.head? ≠ some bomChar) :
    readTextfile C none false true true (writeTextfile sep false raw) = raw.filter (fun l => decide (l.head? ≠ some '#')) := by
  have hplain : ∀ l ∈ raw, PlainLine l := by
    intro l hl
    rcases h l hl with h | h
    exacts [h.1, h.1]
  have hlines : fileLines C none (writeTextfile sep false raw) = raw :=
    C31_roundtrip_partial C sep hsep false raw hplain hne (Or.inr hb)
  have hsp : C.space '#' = false := not_space (by decide) (by decide)
  have hfilter : raw.filter (fun e => (lstrip C.space e).head? != some '#') = raw.filter (fun l => decide (l.head? ≠ some '#')) := by
    apply List.filter_congr
    intro l hl
    rcases h l hl with h | h
    · match l, h.2 with
      | c :: l, hc =>
        simp at hc
        subst hc
        simp [lstrip, hsp]
    · have h1 := h.2.1
      have h2 : l.head? ≠ some '#' := by
        intro e
        match l, e with
        | c :: l, e =>
          simp at e
          subst e
          simp [lstrip, hsp] at h1
      simp [h1, h2]
  rw [readTextfile, hlines]
  simp only [Bool.false_eq_true, if_false, if_true]
  rw [hfilter]
  conv_rhs => rw [← List.map_id (raw.filter _)]
  apply List.map_congr_left
  intro l hl
  rw [List.mem_filter, decide_eq_true_eq] at hl
  rcases h l hl.1 with h | h
  · exact absurd h.2 hl.2
  · exact h.2.2

/-! ### values of one line -/

/-- a value of one line beginning with a plain character -/
structure LineValue (C : Classes) (v : List Char) : Prop where
  first : ∃ d ∈ v.head?, d ∈ plainChars
  last : ∀ c ∈ v.getLast?, C.space c = false
  line : '\n' ∉ v

theorem LineValue.valueText {C : Classes} {v : List Char} (h : LineValue C v) : ValueText C v := by
  obtain ⟨d, hd, hp⟩ := h.first
  have hs := (plainChars_spec d hp).2.2.2
  simp only [List.mem_cons, List.not_mem_nil, not_or, or_false] at hs
  refine ⟨by rintro rfl; simp at hd, ?_, h.last, ?_, ?_⟩
  · intro c hc
    rw [Option.mem_def] at hd hc
    rw [hd] at hc
    injection hc with hc
    subst hc
    exact plain_space C hp
  · intro c hc e
    rw [Option.mem_def] at hd hc
    rw [hd] at hc
    injection hc with hc
    subst hc
    rcases e with e | e
    · exact absurd e hs.2.2.2.2.2.1
    · exact absurd e hs.1
  · intro a b e
    exact absurd (by rw [e]; simp) h.line

theorem LineValue.simpleValue {C : Classes} {v : List Char} (h : LineValue C v) :
    simpleValue C.space (v ++ ['\n']) = .ok (.str v) := by
  obtain ⟨d, hd, hp⟩ := h.first
  obtain ⟨t', rfl⟩ : ∃ t', v = d :: t' := by
    cases v with
    | nil => simp at hd
    | cons e v => simp at hd; subst hd; exact ⟨v, rfl⟩
  clear hd
  have hd := (plainChars_spec d hp).2.2.2
  simp only [List.mem_cons, List.not_mem_nil, not_or, or_false] at hd
  have hs : strip (fun c => c == ' ' || c == '\n') ([] ++ (d :: t') ++ ['\n']) = d :: t' := by
    apply strip_eq
    · simp
    · intro c hm; simp at hm; subst hm; rfl
    · intro c hm; simp at hm; subst hm; simp [hd]
    · intro c hm
      have h1 := h.last c hm
      have h2 : c ≠ '\n' := by
        rintro rfl
        exact h.line (List.mem_of_getLast? hm)
      have h3 : c ≠ ' ' := by
        rintro rfl
        rw [space_space] at h1
        cases h1
      simp [h2, h3]
  have hq : stripQuotes (d :: t') = d :: t' := by
    cases t' with
    | nil => rfl
    | cons e t' =>
      rw [stripQuotes, if_neg]
      rintro ⟨_, h | h⟩
      · exact hd.1 h
      · exact hd.2.1 h
  rw [List.cons_append, Verif.Text.simpleValue]
  · rw [plainValue]
    · rw [← List.cons_append]
      rw [List.nil_append] at hs
      rw [hs, hq]
    · intro x hx; injection hx with h1; exact hd.2.2.2.2.2.2.2.2.2.2.2.2.1 h1
    · intro x hx; injection hx with h1; exact hd.2.2.2.2.2.2.2.2.2.2.2.2.2.1 h1
    · intro x hx; injection hx with h1; exact hd.2.2.2.2.2.1 h1
  · intro x hx; injection hx with h1; exact hd.2.2.2.2.2.2.2.2.2.2.2.2.2.2 h1

theorem unit_lineValue (C : Classes) {g : List Char} (hg : Plain g) (u : List Char)
    (hu : ∀ c ∈ u.getLast?, c.toNat < 128 ∧ asciiSpace c = false) (hne : u ≠ []) (hn : '\n' ∉ u) : LineValue C (g ++ u) := by
  obtain ⟨d, t, rfl⟩ := List.exists_cons_of_ne_nil hg.1
  refine ⟨⟨d, by simp, hg.2 d (by simp)⟩, ?_, ?_⟩
  · intro c hc
    rw [List.getLast?_append_of_ne_nil _ hne] at hc
    exact not_space (hu c hc).1 (hu c hc).2
  · rw [List.mem_append, not_or]
    exact ⟨fun hm => absurd (hg.2 _ hm) (by decide +kernel), hn⟩

/-! ### the rows -/

/-- Specification: the shape made of rings. -/
def ringStarts : ℕ → List (List Pt) → List ℕ
  | _, [] => []
  | k, r :: rs => k :: ringStarts (k + r.length) rs

def shapeOf (rings : List (List Pt)) : Shape := ⟨rings.flatten, ringStarts 0 rings⟩

/-- all rings in order, `true` for those which are not the first of their shape -/
def taggedRings (shapes : List (List (List Pt))) : List (Bool × List Pt) :=
  shapes.flatMap (fun rings => match rings with
    | [] => []
    | r :: rs => (false, r) :: rs.map (fun r => (true, r)))

def tagText (t : Bool) : List Char := if t then intTag else extTag

/-- the points with number and tag of their ring -/
def numbered : ℕ → List (Bool × List Pt) → List ((ℕ × List Char) × Pt)
  | _, [] => []
  | k, x :: l => x.2.map (fun p => ((k, tagText x.1), p)) ++ numbered (k + 1) l

theorem numbered_append (k : ℕ) (a b : List (Bool × List Pt)) : numbered k (a ++ b) = numbered k a ++ numbered (k + a.length) b := by
  induction a generalizing k with
  | nil => rfl
  | cons x a ih =>
    rw [List.cons_append, numbered, numbered, ih, List.append_assoc, List.length_cons]
    congr 3
    omega

theorem numbered_points (k : ℕ) (l : List (Bool × List Pt)) : (numbered k l).map Prod.snd = (l.map Prod.snd).flatten := by
  induction l generalizing k with
  | nil => rfl
  | cons x l ih =>
    rw [numbered, List.map_append, ih, List.map_map, List.map_cons, List.flatten_cons]
    congr 1
    exact List.map_id _

theorem starts_length (k : ℕ) (rs : List (List Pt)) : (ringStarts k rs).length = rs.length := by
  induction rs generalizing k with
  | nil => rfl
  | cons r rs ih => rw [ringStarts, List.length_cons, ih, List.length_cons]

theorem ends_head (k : ℕ) (rs : List (List Pt)) (n : ℕ) (hn : n = k + rs.flatten.length) :
    (ringStarts k rs ++ [n]).getD 0 0 = k := by
  cases rs with
  | nil => simpa [ringStarts] using hn
  | cons r rs => rfl

theorem getD_append_right' {α : Type} (a b : List α) (d : α) (n : ℕ) (h : a.length ≤ n) : (a ++ b).getD n d = b.getD (n - a.length) d := by
  rw [List.getD_eq_getElem?_getD, List.getElem?_append_right h, List.getD_eq_getElem?_getD]

theorem shapeEntries_later (pre : List ℕ) (k : ℕ) (rs : List (List Pt)) (n : ℕ) (hn : n = k + rs.flatten.length) (i : ℕ)
    (hp : pre ≠ []) : shapeEntries (pre ++ (ringStarts k rs ++ [n])) rs.length pre.length i =
      (numbered i (rs.map (fun r => (true, r)))).map Prod.fst := by
  induction rs generalizing pre k i with
  | nil => rfl
  | cons r rs ih =>
    have h1 : (pre ++ (ringStarts k (r :: rs) ++ [n])).getD pre.length 0 = k := by
      rw [getD_append_right' _ _ _ _ le_rfl, Nat.sub_self]
      rfl
    have h2 : (pre ++ (ringStarts k (r :: rs) ++ [n])).getD (pre.length + 1) 0 = k + r.length := by
      rw [getD_append_right' _ _ _ _ (by omega), Nat.add_sub_cancel_left, ringStarts, List.cons_append, List.getD_cons_succ]
      apply ends_head
      rw [hn, List.flatten_cons, List.length_append]
      omega
    have e : pre ++ (ringStarts k (r :: rs) ++ [n]) = (pre ++ [k]) ++ (ringStarts (k + r.length) rs ++ [n]) := by
      simp [ringStarts]
    have := ih (pre ++ [k]) (k + r.length) (by rw [hn, List.flatten_cons, List.length_append]; omega) (i + 1) (by simp)
    rw [List.length_cons, shapeEntries, h1, h2, if_neg (by simpa using hp), Nat.add_sub_cancel_left, e]
    rw [List.length_append, List.length_singleton] at this
    rw [this, List.map_cons, numbered, List.map_append, List.map_map]
    congr 1
    simp [tagText, Function.comp_def]

theorem shapeEntries_eq (rs : List (List Pt)) (i : ℕ) :
    shapeEntries ((shapeOf rs).parts ++ [(shapeOf rs).points.length]) (shapeOf rs).parts.length 0 i =
      (numbered i (taggedRings [rs])).map Prod.fst := by
  cases rs with
  | nil => rfl
  | cons r rs =>
    have h1 : (r.length :: []).getD 0 0 = r.length := rfl
    have := shapeEntries_later [0] (0 + r.length) rs (r :: rs).flatten.length
      (by rw [List.flatten_cons, List.length_append]; omega) (i + 1) (by simp)
    have h2 : (ringStarts (0 + r.length) rs ++ [(r :: rs).flatten.length]).getD 0 0 = r.length := by
      rw [ends_head (0 + r.length)]
      · omega
      · rw [List.flatten_cons, List.length_append]; omega
    rw [shapeOf]
    simp only
    rw [ringStarts, List.length_cons, starts_length, shapeEntries, List.cons_append, List.getD_cons_succ, List.getD_cons_zero, h2]
    rw [List.singleton_append] at this
    rw [List.length_singleton] at this
    rw [zero_add] at this
    rw [zero_add, zero_add, this]
    simp [taggedRings, numbered, tagText, Function.comp_def]

theorem taggedRings_cons (s : List (List Pt)) (l : List (List (List Pt))) : taggedRings (s :: l) = taggedRings [s] ++ taggedRings l := by
  simp [taggedRings]

theorem taggedRings_one_length (s : List (List Pt)) : (taggedRings [s]).length = s.length := by
  cases s <;> simp [taggedRings]

theorem taggedRings_one_snd (s : List (List Pt)) : (taggedRings [s]).map Prod.snd = s := by
  cases s <;> simp [taggedRings, Function.comp_def]

theorem entries_eq (shapes : List (List (List Pt))) (i : ℕ) :
    entries (shapes.map shapeOf) i = (numbered i (taggedRings shapes)).map Prod.fst ∧
    (shapes.map shapeOf).flatMap Shape.points = (numbered i (taggedRings shapes)).map Prod.snd := by
  induction shapes generalizing i with
  | nil => exact ⟨rfl, rfl⟩
  | cons s l ih =>
    rw [taggedRings_cons, numbered_append, taggedRings_one_length, List.map_append, List.map_append, List.map_cons, entries,
      shapeEntries_eq, List.flatMap_cons]
    have hl : (shapeOf s).parts.length = s.length := starts_length 0 s
    rw [hl, (ih _).1, (ih (i + s.length)).2]
    refine ⟨rfl, ?_⟩
    congr 1
    rw [numbered_points, taggedRings_one_snd]
    rfl

theorem zip_fst_snd {α β : Type*} (l : List (α × β)) : List.zip (l.map Prod.fst) (l.map Prod.snd) = l := by
  induction l with
  | nil => rfl
  | cons x l ih => rw [List.map_cons, List.map_cons, List.zip_cons_cons, ih]

theorem boundaryTable_eq (shapes : List (List (List Pt))) :
    boundaryTable (shapes.map shapeOf) = (numbered 1 (taggedRings shapes)).mapIdx (fun i x => boundaryRow (i + 1) x) := by
  rw [boundaryTable, (entries_eq shapes 1).1, (entries_eq shapes 1).2, zip_fst_snd]

def boundaryFields (i : ℕ) (x : (ℕ × List Char) × Pt) : List (List Char) :=
  [natStr i, natStr x.1.1, x.1.2, fixStr 15 x.2.1, fixStr 15 x.2.2]

def boundaryCells (x : (ℕ × List Char) × Pt) : List (List Char × ℕ × ℕ) :=
  [(natStr x.1.1, 0, 5 - (natStr x.1.1).length), (x.1.2, 0, 4 - x.1.2.length),
    (fixStr 15 x.2.1, 23 - (fixStr 15 x.2.1).length, 0), (fixStr 15 x.2.2, 23 - (fixStr 15 x.2.2).length, 0)]

theorem boundaryRow_eq (i : ℕ) (x : (ℕ × List Char) × Pt) : boundaryRow i x =
    natStr i ++ (List.replicate (5 - (natStr i).length) ' ' ++ (boundaryCells x).flatMap cell) := by
  simp [boundaryRow, boundaryCells, cell, join, ljust, rjust]

theorem plain_tagText (t : Bool) : Plain (tagText t) := by
  cases t <;> exact ⟨by decide, by decide +kernel⟩

theorem boundaryRow_ok (C : Classes) (i : ℕ) (x : (ℕ × List Char) × Pt) (hx : Plain x.1.2) :
    (∀ c ∈ boundaryRow i x, RowChar c) ∧ FieldLine C.space (boundaryRow i x) (boundaryFields i x) := by
  have hc : ∀ y ∈ boundaryCells x, Plain y.1 := by
    intro y hy
    simp only [boundaryCells, List.mem_cons, List.not_mem_nil, or_false] at hy
    rcases hy with rfl | rfl | rfl | rfl
    exacts [plain_nat _, hx, plain_fix _ _, plain_fix _ _]
  rw [boundaryRow_eq]
  exact ⟨row_chars (plain_nat i) _ _ hc, fieldLine_row C (plain_nat i) _ _ hc⟩

def craterFields (c : Crater) : List (List Char) := [gStr 6 c.diam, gStr 2 c.fraction, fixStr 15 c.lon, fixStr 15 c.lat, ['1']]

def craterCells (c : Crater) : List (List Char × ℕ × ℕ) :=
  [(gStr 2 c.fraction, 9 - (gStr 2 c.fraction).length, 0), (fixStr 15 c.lon, 23 - (fixStr 15 c.lon).length, 0),
    (fixStr 15 c.lat, 23 - (fixStr 15 c.lat).length, 0), (['1'], 0, 0)]

theorem craterRow_eq (c : Crater) : craterRow c =
    gStr 6 c.diam ++ (List.replicate (12 - (gStr 6 c.diam).length) ' ' ++ (craterCells c).flatMap cell) := by
  simp [craterRow, craterCells, cell, join, ljust, rjust]

theorem craterRow_ok (C : Classes) (c : Crater) :
    (∀ x ∈ craterRow c, RowChar x) ∧ FieldLine C.space (craterRow c) (craterFields c) := by
  have hc : ∀ y ∈ craterCells c, Plain y.1 := by
    intro y hy
    simp only [craterCells, List.mem_cons, List.not_mem_nil, or_false] at hy
    rcases hy with rfl | rfl | rfl | rfl
    exacts [plain_g _ _, plain_fix _ _, plain_fix _ _, ⟨by decide, by decide +kernel⟩]
  rw [craterRow_eq]
  exact ⟨row_chars (plain_g _ _) _ _ hc, fieldLine_row C (plain_g _ _) _ _ hc⟩

theorem plain_head_close {t : List Char} (h : Plain t) (l : List (List Char)) : (t :: l).head? ≠ some ['}'] := by
  simp only [List.head?_cons, ne_eq, Option.some.injEq]
  rintro rfl
  exact absurd (h.2 '}' (by simp)) (by decide +kernel)

/-- tags of the tables -/
def boundaryTags : List (List Char) := ["sub_area".toList, "tag".toList, "lon".toList, "lat".toList]
def craterTags : List (List Char) := ["fraction".toList, "lon".toList, "lat".toList, "topo_scale_factor".toList]

theorem plain_vertex : Plain "vertex".toList := ⟨by decide, by decide +kernel⟩
theorem plain_diam : Plain "diam".toList := ⟨by decide, by decide +kernel⟩
theorem boundaryTags_plain : ∀ x ∈ boundaryTags, ∀ c ∈ x, c ∈ plainChars := by decide +kernel
theorem craterTags_plain : ∀ x ∈ craterTags, ∀ c ∈ x, c ∈ plainChars := by decide +kernel

theorem numbered_plain (k : ℕ) (l : List (Bool × List Pt)) : ∀ x ∈ numbered k l, Plain x.1.2 := by
  induction l generalizing k with
  | nil => simp [numbered]
  | cons y l ih =>
    intro x hx
    rw [numbered, List.mem_append, List.mem_map] at hx
    rcases hx with ⟨p, _, rfl⟩ | hx
    · exact plain_tagText _
    · exact ih _ x hx

/-- rows of the boundary table -/
def boundaryRows (N : List ((ℕ × List Char) × Pt)) : List (List Char) := N.mapIdx (fun i x => boundaryRow (i + 1) x)

theorem boundaryRows_chars (N : List ((ℕ × List Char) × Pt)) (h : ∀ x ∈ N, Plain x.1.2) : ∀ r ∈ boundaryRows N, ∀ c ∈ r, RowChar c := by
  intro r hr
  rw [boundaryRows, List.mem_mapIdx] at hr
  obtain ⟨i, hi, rfl⟩ := hr
  exact (boundaryRow_ok .ascii _ _ (h _ (List.getElem_mem hi))).1

def boundaryTexts (N : List ((ℕ × List Char) × Pt)) : List (List (List Char)) := N.mapIdx (fun i x => boundaryFields (i + 1) x)

theorem map_mapIdx' {α β γ : Type} (f : ℕ → α → β) (g : β → γ) (l : List α) :
    (l.mapIdx f).map g = l.mapIdx (fun i x => g (f i x)) := by
  apply List.ext_getElem?
  intro i
  rw [List.getElem?_map, List.getElem?_mapIdx, List.getElem?_mapIdx, Option.map_map]
  rfl

theorem boundary_value (C : Classes) (N : List ((ℕ × List Char) × Pt)) (h : ∀ x ∈ N, Plain x.1.2) :
    simpleValue C.space (tableText "vertex".toList boundaryTags (boundaryRows N) ++ ['\n']) =
      .ok (columnsVal (tableColumns ("vertex".toList :: boundaryTags) (boundaryTexts N))) := by
  have := table_value C (t := "vertex".toList) (ts := boundaryTags)
    (rows := N.mapIdx (fun i x => (boundaryRow (i + 1) x, boundaryFields (i + 1) x))) plain_vertex boundaryTags_plain (by decide +kernel) (by
      intro r hr
      rw [List.mem_mapIdx] at hr
      obtain ⟨i, hi, rfl⟩ := hr
      have := boundaryRow_ok C (i + 1) _ (h _ (List.getElem_mem hi))
      exact ⟨this.1, this.2, by simp [boundaryFields], plain_head_close (plain_nat _) _⟩)
  rw [map_mapIdx', map_mapIdx'] at this
  exact this

theorem crater_value (C : Classes) (cs : List Crater) :
    simpleValue C.space (tableText "diam".toList craterTags (cs.map craterRow) ++ ['\n']) =
      .ok (columnsVal (tableColumns ("diam".toList :: craterTags) (cs.map craterFields))) := by
  have := table_value C (t := "diam".toList) (ts := craterTags)
    (rows := cs.map (fun c => (craterRow c, craterFields c))) plain_diam craterTags_plain (by decide +kernel) (by
      intro r hr
      rw [List.mem_map] at hr
      obtain ⟨c, hc, rfl⟩ := hr
      have := craterRow_ok C c
      exact ⟨this.1, this.2, by simp [craterFields], plain_head_close (plain_g _ _) _⟩)
  rw [List.map_map, List.map_map] at this
  exact this

/-! ### the file -/

/-- Specification: a version made of letters, digits, points, signs and underscores, not beginning with `r`; notes without line breaks. -/
structure SourceOk (version : List Char) (S : Source) : Prop where
  version_ok : Plain version
  version_r : version.head? ≠ some 'r'
  notes1 : PlainLine S.notes.1
  notes2 : PlainLine S.notes.2

def kmText (q : ℚ) : List Char := gStr 5 q ++ " <km>".toList
def km2Text (q : ℚ) : List Char := gStr 5 q ++ " <km2>".toList

/-- the lines with definitions, the third radius line as it is after the substitution -/
def sccKept (axis version : List Char) (S : Source) (rows : List (List Char)) : List (List Char) :=
  ["craterstats_version = ".toList ++ version, "a_axis_radius = ".toList ++ kmText S.radius, "Total_area = ".toList ++ km2Text S.area,
    "Total_perimeter = ".toList ++ kmText S.perimeter, axis ++ " = ".toList ++ kmText S.radius,
    "unit_boundary = ".toList ++ headerText "vertex".toList boundaryTags] ++ rows ++
  [['}'], "crater = ".toList ++ headerText "diam".toList craterTags] ++ S.craters.map craterRow ++ [['}']]

theorem kept_unit (C : Classes) (p : List Char) (q : ℚ) (u : List Char) (hp : ∃ d ∈ p.head?, d.toNat < 128 ∧ asciiSpace d = false ∧ d ≠ '#')
    (hps : ∀ c ∈ p, c ∈ safeChars) (hu : ∀ c ∈ u, c ∉ lineBreaks ∧ c ≠ ';' ∧ c ≠ '\'' ∧ c ≠ '"') : KeptLine C (p ++ (gStr 5 q ++ u)) := by
  have h : ∀ c ∈ p ++ (gStr 5 q ++ u), c ∉ lineBreaks ∧ c ≠ ';' ∧ c ≠ '\'' ∧ c ≠ '"' := by
    intro c hc
    rw [List.mem_append, List.mem_append] at hc
    rcases hc with hc | hc | hc
    · exact safe_spec c (hps c hc)
    · exact safe_spec c (plain_safe ((plain_g 5 q).2 c hc))
    · exact hu c hc
  exact kept_line C (first_of _ hp) (fun c hc => (h c hc).1) (closed_of_ordinary (fun c hc => (h c hc).2))

theorem kept_scc (C : Classes) {version : List Char} {S : Source} (h : SourceOk version S) (N : List ((ℕ × List Char) × Pt))
    (hN : ∀ x ∈ N, Plain x.1.2) : ∀ l ∈ sccKept "a-axis radius".toList version S (boundaryRows N), KeptLine C l := by
  intro l hl
  rw [sccKept] at hl
  simp only [List.mem_append, List.mem_cons, List.not_mem_nil, or_false] at hl
  have hu1 : ∀ c ∈ " <km>".toList, c ∉ lineBreaks ∧ c ≠ ';' ∧ c ≠ '\'' ∧ c ≠ '"' := by decide +kernel
  have hu2 : ∀ c ∈ " <km2>".toList, c ∉ lineBreaks ∧ c ≠ ';' ∧ c ≠ '\'' ∧ c ≠ '"' := by decide +kernel
  rcases hl with (((((rfl | rfl | rfl | rfl | rfl | rfl) | hl) | (rfl | rfl)) | hl) | rfl)
  · exact kept_safe C (first_of _ ⟨'c', by decide⟩) (append_safe (by decide +kernel) (fun c hc => plain_safe (h.version_ok.2 c hc)))
  · exact kept_unit C _ _ _ ⟨'a', by decide⟩ (by decide +kernel) hu1
  · exact kept_unit C _ _ _ ⟨'T', by decide⟩ (by decide +kernel) hu2
  · exact kept_unit C _ _ _ ⟨'T', by decide⟩ (by decide +kernel) hu1
  · exact kept_unit C ("a-axis radius".toList ++ " = ".toList) _ _ ⟨'a', by decide⟩ (by decide +kernel) hu1
  · exact kept_safe C (first_of _ ⟨'u', by decide⟩) (append_safe (by decide +kernel) (header_safe plain_vertex boundaryTags_plain))
  · have hc := boundaryRows_chars N hN l hl
    rw [boundaryRows, List.mem_mapIdx] at hl
    obtain ⟨i, hi, rfl⟩ := hl
    rw [boundaryRow_eq] at hc ⊢
    exact kept_safe C (plain_first (plain_nat _)) (fun c hm => rowChar_safe (hc c hm))
  · exact kept_close C
  · exact kept_safe C (first_of _ ⟨'c', by decide⟩) (append_safe (by decide +kernel) (header_safe plain_diam craterTags_plain))
  · rw [List.mem_map] at hl
    obtain ⟨c, _, rfl⟩ := hl
    have hc := (craterRow_ok C c).1
    rw [craterRow_eq] at hc ⊢
    exact kept_safe C (plain_first (plain_g _ _)) (fun x hm => rowChar_safe (hc x hm))
  · exact kept_close C

theorem scc_shape (l1 l2a l2b l2c l3a l3b l3c l4a l4b l4c l5a l5b l6 : List Char) (rows : List (List Char)) (b l8 : List Char)
    (cr : List (List Char)) :
    [l1, l2a ++ l2b ++ l2c, l3a ++ l3b ++ l3c, l4a ++ l4b ++ l4c] ++ ([l5a ++ l5b ++ l2c] ++ [] ++ []) ++ [l6] ++ rows ++ [b, l8] ++ cr ++ [b] =
    [l1, l2a ++ (l2b ++ l2c), l3a ++ (l3b ++ l3c), l4a ++ (l4b ++ l4c), l5a ++ (l5b ++ l2c), l6] ++ rows ++ [b, l8] ++ cr ++ [b] := by
  simp

/-- the comment lines -/
theorem scc_read (C : Classes) {version : List Char} {S : Source} (h : SourceOk version S) (shapes : List (List (List Pt)))
    (hS : S.sa = shapes.map shapeOf) (hne : numbered 1 (taggedRings shapes) ≠ []) (sep : List Char)
    (hsep : sep = ['\n'] ∨ sep = ['\r', '\n']) :
    ∃ file, writeScc sep version S = .ok file ∧
      readTextfile C none false true true file =
        sccKept "a-axis radius".toList version S (boundaryRows (numbered 1 (taggedRings shapes))) := by
  obtain ⟨N, hNe⟩ : ∃ N, N = numbered 1 (taggedRings shapes) := ⟨_, rfl⟩
  have hN : ∀ x ∈ N, Plain x.1.2 := hNe ▸ numbered_plain _ _
  have hk := kept_scc C h N hN
  obtain ⟨l, hl⟩ : ∃ l, (entries S.sa 1).getLast? = some l := by
    rw [hS, (entries_eq shapes 1).1, ← Option.ne_none_iff_exists']
    simpa using hne
  have hb : boundaryTable S.sa = boundaryRows N := by rw [hS, boundaryTable_eq, hNe]; rfl
  rw [← hNe]
  set A := (List.range l.1).map (fun i => "# Area_name ".toList ++ natStr (i + 1) ++ " = NULL".toList) with hA
  obtain ⟨raw, hraw⟩ : ∃ raw, raw = ["# Spatial crater count".toList, "craterstats_version = ".toList ++ version, ['#'],
      "# Derived from:".toList, "# ".toList ++ S.notes.1, "# ".toList ++ S.notes.2, ['#'],
      "a_axis_radius = ".toList ++ gStr 5 S.radius ++ " <km>".toList, "Total_area = ".toList ++ gStr 5 S.area ++ " <km2>".toList,
      "Total_perimeter = ".toList ++ gStr 5 S.perimeter ++ " <km>".toList, ['#']] ++
      ([['#'], "# Extra lines for OpenCraterTool compatibility:".toList,
        "a-axis radius = ".toList ++ gStr 5 S.radius ++ " <km>".toList] ++ A ++ [['#']]) ++
      ["unit_boundary = {vertex, sub_area, tag, lon, lat".toList] ++ boundaryRows N ++
      [['}'], "crater = {diam, fraction, lon, lat, topo_scale_factor".toList] ++ S.craters.map craterRow ++ [['}']] := ⟨_, rfl⟩
  have hw : writeScc sep version S = .ok (writeTextfile sep false raw) := by
    rw [writeScc, sccLines, hl, hraw, ← hb]
    rfl
  refine ⟨_, hw, ?_⟩
  have k1 := hk ("craterstats_version = ".toList ++ version) (by simp [sccKept])
  have k2 : KeptLine C ("a_axis_radius = ".toList ++ gStr 5 S.radius ++ " <km>".toList) := by
    have := hk ("a_axis_radius = ".toList ++ kmText S.radius) (by simp [sccKept])
    rwa [kmText, ← List.append_assoc] at this
  have k3 : KeptLine C ("Total_area = ".toList ++ gStr 5 S.area ++ " <km2>".toList) := by
    have := hk ("Total_area = ".toList ++ km2Text S.area) (by simp [sccKept])
    rwa [km2Text, ← List.append_assoc] at this
  have k4 : KeptLine C ("Total_perimeter = ".toList ++ gStr 5 S.perimeter ++ " <km>".toList) := by
    have := hk ("Total_perimeter = ".toList ++ kmText S.perimeter) (by simp [sccKept])
    rwa [kmText, ← List.append_assoc] at this
  have k5 : KeptLine C ("a-axis radius = ".toList ++ gStr 5 S.radius ++ " <km>".toList) := by
    have := hk ("a-axis radius".toList ++ " = ".toList ++ kmText S.radius) (by simp [sccKept])
    rwa [kmText, ← List.append_assoc] at this
  have k6 : KeptLine C "unit_boundary = {vertex, sub_area, tag, lon, lat".toList :=
    hk ("unit_boundary = ".toList ++ headerText "vertex".toList boundaryTags) (by simp [sccKept])
  have k7 : ∀ r ∈ boundaryRows N, KeptLine C r := fun r hr => hk r (by
    rw [sccKept]
    exact List.mem_append_left _ (List.mem_append_left _ (List.mem_append_left _ (List.mem_append_right _ hr))))
  have k8 : KeptLine C "crater = {diam, fraction, lon, lat, topo_scale_factor".toList :=
    hk ("crater = ".toList ++ headerText "diam".toList craterTags) (by simp [sccKept])
  have k9 : ∀ r ∈ S.craters.map craterRow, KeptLine C r := fun r hr => hk r (by
    rw [sccKept]
    exact List.mem_append_left _ (List.mem_append_right _ hr))
  have kA : ∀ r ∈ A, PlainLine r ∧ r.head? = some '#' := by
    intro r hr
    rw [hA, List.mem_map] at hr
    obtain ⟨i, _, rfl⟩ := hr
    refine ⟨?_, rfl⟩
    intro c hc
    rw [List.mem_append, List.mem_append] at hc
    rcases hc with (hc | hc) | hc
    · exact (by decide +kernel : ∀ c ∈ "# Area_name ".toList, c ∉ lineBreaks) c hc
    · exact (plainChars_spec c ((plain_nat _).2 c hc)).2.2.1
    · exact (by decide +kernel : ∀ c ∈ " = NULL".toList, c ∉ lineBreaks) c hc
  have kn : ∀ t : List Char, PlainLine t → PlainLine ("# ".toList ++ t) ∧ ("# ".toList ++ t).head? = some '#' := by
    intro t ht
    refine ⟨?_, rfl⟩
    intro c hc
    rw [List.mem_append] at hc
    rcases hc with hc | hc
    · exact (by decide +kernel : ∀ c ∈ "# ".toList, c ∉ lineBreaks) c hc
    · exact ht c hc
  have kc1 : PlainLine ['#'] ∧ ['#'].head? = some '#' := ⟨by unfold PlainLine; decide +kernel, rfl⟩
  have kc2 : PlainLine "# Spatial crater count".toList ∧ "# Spatial crater count".toList.head? = some '#' :=
    ⟨by unfold PlainLine; decide +kernel, rfl⟩
  have kc3 : PlainLine "# Derived from:".toList ∧ "# Derived from:".toList.head? = some '#' :=
    ⟨by unfold PlainLine; decide +kernel, rfl⟩
  have kc4 : PlainLine "# Extra lines for OpenCraterTool compatibility:".toList ∧
      "# Extra lines for OpenCraterTool compatibility:".toList.head? = some '#' :=
    ⟨by unfold PlainLine; decide +kernel, rfl⟩
  have hall : ∀ r ∈ raw, (PlainLine r ∧ r.head? = some '#') ∨ KeptLine C r := by
    intro r hr
    rw [hraw] at hr
    simp only [List.mem_append, List.mem_cons, List.not_mem_nil, or_false] at hr
    rcases hr with (((((hr | hr) | rfl) | hr) | hr) | hr) | rfl
    · rcases hr with rfl | rfl | rfl | rfl | rfl | rfl | rfl | rfl | rfl | rfl | rfl
      exacts [.inl kc2, .inr k1, .inl kc1, .inl kc3, .inl (kn _ h.notes1), .inl (kn _ h.notes2), .inl kc1, .inr k2, .inr k3, .inr k4,
        .inl kc1]
    · rcases hr with (hr | hr) | rfl
      · rcases hr with rfl | rfl | rfl
        exacts [.inl kc1, .inl kc4, .inr k5]
      · exact .inl (kA r hr)
      · exact .inl kc1
    · exact .inr k6
    · exact .inr (k7 r hr)
    · rcases hr with rfl | rfl
      exacts [.inr (kept_close C), .inr k8]
    · exact .inr (k9 r hr)
    · exact .inr (kept_close C)
  rw [read_lines C sep hsep raw hall (by rw [hraw]; simp) (by
    intro l hl
    rw [hraw] at hl
    simp only [List.cons_append, List.head?_cons, Option.mem_def, Option.some.injEq] at hl
    subst hl
    decide)]
  obtain ⟨p, hp⟩ : ∃ p : List Char → Bool, p = fun l => decide (l.head? ≠ some '#') := ⟨_, rfl⟩
  rw [← hp]
  have hkeep : ∀ l, KeptLine C l → p l = true := by
    intro l hl
    rw [hp, decide_eq_true_eq]
    intro e
    have hsp : C.space '#' = false := not_space (by decide) (by decide)
    match l, e with
    | c :: l, e =>
      simp at e
      subst e
      have := hl.2.1
      simp [lstrip, hsp] at this
  have hdrop : ∀ l : List Char, l.head? = some '#' → p l = false := by
    intro l hl; rw [hp]; simp [hl]
  have f1 : (boundaryRows N).filter p = boundaryRows N := List.filter_eq_self.2 (fun l hl => hkeep l (k7 l hl))
  have f2 : (S.craters.map craterRow).filter p = S.craters.map craterRow := List.filter_eq_self.2 (fun l hl => hkeep l (k9 l hl))
  have f3 : A.filter p = [] := List.filter_eq_nil_iff.2 (fun l hl => by rw [hdrop l (kA l hl).2]; simp)
  have fk : ∀ (l : List Char) (L : List (List Char)), KeptLine C l → (l :: L).filter p = l :: L.filter p :=
    fun l L hl => List.filter_cons_of_pos (hkeep l hl)
  have fd : ∀ (l : List Char) (L : List (List Char)), l.head? = some '#' → (l :: L).filter p = L.filter p :=
    fun l L hl => List.filter_cons_of_neg (by rw [hdrop l hl]; simp)
  rw [hraw]
  simp only [List.filter_append]
  rw [f1, f2, f3, fd _ _ kc2.2, fk _ _ k1, fd _ _ kc1.2, fd _ _ kc3.2, fd _ _ (kn _ h.notes1).2, fd _ _ (kn _ h.notes2).2,
    fd _ _ kc1.2, fk _ _ k2, fk _ _ k3, fk _ _ k4, fd _ _ kc1.2, fd _ _ kc1.2, fd _ _ kc4.2, fk _ _ k5, fk _ _ k6,
    fk _ _ (kept_close C), fk _ _ k8, fk _ _ (kept_close C)]
  simp only [List.filter_nil]
  exact scc_shape _ _ _ _ _ _ _ _ _ _ _ _ _ _ _ _ _

theorem row_noSR {l : List Char} (h : ∀ c ∈ l, RowChar c) (hr : 'r' ∉ l) : NoSR l := by
  intro a b e
  exact hr (by rw [e]; simp)

theorem num_no_r {s : List Char} {q : ℚ} (h : decVal s = some q) : 'r' ∉ s := by
  intro hm
  have := (decVal_chars h).2 _ hm
  rcases this with h | h
  · exact absurd h (by decide)
  · exact absurd h (by decide)

theorem nat_no_r (n : ℕ) : 'r' ∉ natStr n := fun hm => absurd (fixDigits_isDig _ _ _ hm) (by decide)

theorem replicate_no_r (n : ℕ) : 'r' ∉ List.replicate n ' ' := fun hm => absurd (List.eq_of_mem_replicate hm) (by decide)

theorem tag_no_r (t : Bool) : 'r' ∉ tagText t := by cases t <;> decide

theorem cells_no_r (cells : List (List Char × ℕ × ℕ)) (h : ∀ x ∈ cells, 'r' ∉ x.1) : 'r' ∉ cells.flatMap cell := by
  intro hm
  rw [List.mem_flatMap] at hm
  obtain ⟨x, hx, hm⟩ := hm
  rw [cell, List.mem_cons, List.mem_append, List.mem_append] at hm
  rcases hm with hm | (hm | hm) | hm
  · exact absurd hm (by decide)
  · exact replicate_no_r _ hm
  · exact h x hx hm
  · exact replicate_no_r _ hm

theorem boundaryRow_no_r (i : ℕ) (x : (ℕ × List Char) × Pt) (hx : 'r' ∉ x.1.2) : 'r' ∉ boundaryRow i x := by
  rw [boundaryRow_eq, List.mem_append, List.mem_append]
  rintro (hm | hm | hm)
  · exact nat_no_r i hm
  · exact replicate_no_r _ hm
  · refine cells_no_r _ ?_ hm
    intro y hy
    simp only [boundaryCells, List.mem_cons, List.not_mem_nil, or_false] at hy
    rcases hy with rfl | rfl | rfl | rfl
    exacts [nat_no_r _, hx, num_no_r (decVal_fixStr _ _), num_no_r (decVal_fixStr _ _)]

theorem craterRow_no_r (c : Crater) : 'r' ∉ craterRow c := by
  rw [craterRow_eq, List.mem_append, List.mem_append]
  rintro (hm | hm | hm)
  · exact num_no_r (decVal_gStr _ _) hm
  · exact replicate_no_r _ hm
  · refine cells_no_r _ ?_ hm
    intro y hy
    simp only [craterCells, List.mem_cons, List.not_mem_nil, or_false] at hy
    rcases hy with rfl | rfl | rfl | rfl
    exacts [num_no_r (decVal_gStr _ _), num_no_r (decVal_fixStr _ _), num_no_r (decVal_fixStr _ _), by decide]

theorem numbered_no_r (k : ℕ) (l : List (Bool × List Pt)) : ∀ x ∈ numbered k l, 'r' ∉ x.1.2 := by
  induction l generalizing k with
  | nil => simp [numbered]
  | cons y l ih =>
    intro x hx
    rw [numbered, List.mem_append, List.mem_map] at hx
    rcases hx with ⟨p, _, rfl⟩ | hx
    · exact tag_no_r _
    · exact ih _ x hx

theorem unit_no_r (q : ℚ) : 'r' ∉ kmText q ∧ 'r' ∉ km2Text q := by
  have h := num_no_r (decVal_gStr 5 q)
  constructor
  · rw [kmText, List.mem_append, not_or]; exact ⟨h, by decide⟩
  · rw [km2Text, List.mem_append, not_or]; exact ⟨h, by decide⟩

theorem subAxis_axis (r : List Char) (h : NoSR r) : subAxis 0 ("a-axis radius".toList ++ r) = "oct_a_axis_radius".toList ++ r := by
  have e : subAxis 0 ("a-axis radius".toList ++ r) = "oct_a_axis_radius".toList ++ subAxis 0 r := rfl
  rw [e, subAxis_eq h]

/-- the substitution changes one line -/
theorem scc_subst {version : List Char} {S : Source} (h : SourceOk version S) (N : List ((ℕ × List Char) × Pt))
    (hN : ∀ x ∈ N, Plain x.1.2) (hr : ∀ x ∈ N, 'r' ∉ x.1.2) :
    (sccKept "a-axis radius".toList version S (boundaryRows N)).map (subAxis 0) =
      sccKept "oct_a_axis_radius".toList version S (boundaryRows N) := by
  have f1 : (boundaryRows N).map (subAxis 0) = boundaryRows N := by
    conv_rhs => rw [← List.map_id (boundaryRows N)]
    apply List.map_congr_left
    intro l hl
    apply subAxis_eq
    apply row_noSR (boundaryRows_chars N hN l hl)
    rw [boundaryRows, List.mem_mapIdx] at hl
    obtain ⟨i, hi, rfl⟩ := hl
    exact boundaryRow_no_r _ _ (hr _ (List.getElem_mem hi))
  have f2 : (S.craters.map craterRow).map (subAxis 0) = S.craters.map craterRow := by
    conv_rhs => rw [← List.map_id (S.craters.map craterRow)]
    apply List.map_congr_left
    intro l hl
    rw [List.mem_map] at hl
    obtain ⟨c, _, rfl⟩ := hl
    exact subAxis_eq (row_noSR (craterRow_ok .ascii c).1 (craterRow_no_r c))
  have e1 : subAxis 0 ("craterstats_version = ".toList ++ version) = "craterstats_version = ".toList ++ version :=
    subAxis_eq (noSR_head (noSR_of (by decide +kernel)) (fun hm => absurd (h.version_ok.2 _ hm) (by decide +kernel)) h.version_r)
  have e2 : subAxis 0 ("a_axis_radius = ".toList ++ kmText S.radius) = "a_axis_radius = ".toList ++ kmText S.radius :=
    subAxis_eq (noSR_append (noSR_of (by decide +kernel)) (unit_no_r _).1)
  have e3 : subAxis 0 ("Total_area = ".toList ++ km2Text S.area) = "Total_area = ".toList ++ km2Text S.area :=
    subAxis_eq (noSR_append (noSR_of (by decide +kernel)) (unit_no_r _).2)
  have e4 : subAxis 0 ("Total_perimeter = ".toList ++ kmText S.perimeter) = "Total_perimeter = ".toList ++ kmText S.perimeter :=
    subAxis_eq (noSR_append (noSR_of (by decide +kernel)) (unit_no_r _).1)
  have e5 : subAxis 0 ("a-axis radius".toList ++ " = ".toList ++ kmText S.radius) =
      "oct_a_axis_radius".toList ++ " = ".toList ++ kmText S.radius := by
    rw [List.append_assoc, subAxis_axis _ (noSR_append (noSR_of (by decide +kernel)) (unit_no_r _).1), List.append_assoc]
  have e6 : subAxis 0 ("unit_boundary = ".toList ++ headerText "vertex".toList boundaryTags) =
      "unit_boundary = ".toList ++ headerText "vertex".toList boundaryTags := subAxis_eq (noSR_of (by decide +kernel))
  have e7 : subAxis 0 ("crater = ".toList ++ headerText "diam".toList craterTags) =
      "crater = ".toList ++ headerText "diam".toList craterTags := subAxis_eq (noSR_of (by decide +kernel))
  rw [sccKept, List.map_append, List.map_append, List.map_append, List.map_append, f1, f2]
  rw [List.map_cons, List.map_cons, List.map_cons, List.map_cons, List.map_cons, List.map_cons, e1, e2, e3, e4, e5, e6, List.map_cons,
    List.map_cons, e7]
  rfl

/-! ### the definitions -/

theorem scc_join (p1 v1 p2 v2 p3 v3 p4 v4 p5 v5 p6 h6 : List Char) (rows : List (List Char)) (p7 h7 : List Char) (cr : List (List Char)) :
    join ['\n'] ([(p1 ++ [' ', '=', ' ']) ++ v1, (p2 ++ [' ', '=', ' ']) ++ v2, (p3 ++ [' ', '=', ' ']) ++ v3, (p4 ++ [' ', '=', ' ']) ++ v4,
      p5 ++ [' ', '=', ' '] ++ v5, (p6 ++ [' ', '=', ' ']) ++ h6] ++ rows ++ [['}'], (p7 ++ [' ', '=', ' ']) ++ h7] ++ cr ++ [['}']]) =
    [] ++ (p1 ++ ([' '] ++ '=' :: ([' '] ++ (v1 ++ '\n' :: (
    [] ++ (p2 ++ ([' '] ++ '=' :: ([' '] ++ (v2 ++ '\n' :: (
    [] ++ (p3 ++ ([' '] ++ '=' :: ([' '] ++ (v3 ++ '\n' :: (
    [] ++ (p4 ++ ([' '] ++ '=' :: ([' '] ++ (v4 ++ '\n' :: (
    [] ++ (p5 ++ ([' '] ++ '=' :: ([' '] ++ (v5 ++ '\n' :: (
    [] ++ (p6 ++ ([' '] ++ '=' :: ([' '] ++ (join ['\n'] (h6 :: rows ++ [['}']]) ++ '\n' :: (
    [] ++ (p7 ++ ([' '] ++ '=' :: ([' '] ++ join ['\n'] (h7 :: cr ++ [['}']])))))))))))))))))))))))))))))))))) := by
  have e : [(p1 ++ [' ', '=', ' ']) ++ v1, (p2 ++ [' ', '=', ' ']) ++ v2, (p3 ++ [' ', '=', ' ']) ++ v3, (p4 ++ [' ', '=', ' ']) ++ v4,
      p5 ++ [' ', '=', ' '] ++ v5, (p6 ++ [' ', '=', ' ']) ++ h6] ++ rows ++ [['}'], (p7 ++ [' ', '=', ' ']) ++ h7] ++ cr ++ [['}']] =
      [(p1 ++ [' ', '=', ' ']) ++ v1, (p2 ++ [' ', '=', ' ']) ++ v2, (p3 ++ [' ', '=', ' ']) ++ v3, (p4 ++ [' ', '=', ' ']) ++ v4,
      p5 ++ [' ', '=', ' '] ++ v5] ++ ((((p6 ++ [' ', '=', ' ']) ++ h6) :: (rows ++ [['}']])) ++
        (((p7 ++ [' ', '=', ' ']) ++ h7) :: (cr ++ [['}']]))) := by
    simp
  rw [e, join_append [_, _, _, _, _] _ (by simp) (by simp),
    join_append (((p6 ++ [' ', '=', ' ']) ++ h6) :: (rows ++ [['}']])) _ (by simp) (by simp), join_prefix (p6 ++ [' ', '=', ' ']) h6,
    join_prefix (p7 ++ [' ', '=', ' ']) h7]
  simp [join]

def boundaryVal (N : List ((ℕ × List Char) × Pt)) : TVal := columnsVal (tableColumns ("vertex".toList :: boundaryTags) (boundaryTexts N))
def craterVal (cs : List Crater) : TVal := columnsVal (tableColumns ("diam".toList :: craterTags) (cs.map craterFields))

/-- what the file defines -/
def sccDefs (version : List Char) (S : Source) (N : List ((ℕ × List Char) × Pt)) : List (List Char × TVal) :=
  [("craterstats_version".toList, .str version), ("a_axis_radius".toList, .str (kmText S.radius)),
    ("Total_area".toList, .str (km2Text S.area)), ("Total_perimeter".toList, .str (kmText S.perimeter)),
    ("oct_a_axis_radius".toList, .str (kmText S.radius)), ("unit_boundary".toList, boundaryVal N), ("crater".toList, craterVal S.craters)]

theorem scc_definitions (C : Classes) {version : List Char} {S : Source} (h : SourceOk version S) (N : List ((ℕ × List Char) × Pt))
    (hN : ∀ x ∈ N, Plain x.1.2) :
    Definitions C (join ['\n'] (sccKept "oct_a_axis_radius".toList version S (boundaryRows N))) (sccDefs version S N) := by
  have u1 : ∀ q, LineValue C (kmText q) := fun q => unit_lineValue C (plain_g 5 q) _ (by decide) (by decide) (by decide)
  have u2 : ∀ q, LineValue C (km2Text q) := fun q => unit_lineValue C (plain_g 5 q) _ (by decide) (by decide) (by decide)
  have key := Definitions.simple (asciiHead C "craterstats_version".toList " ".toList " ".toList ⟨by decide, by decide⟩ (by decide) (by decide))
    version _ _ _ (plain_valueText C h.version_ok) (plain_simpleValue C h.version_ok)
    (Definitions.simple (asciiHead C "a_axis_radius".toList " ".toList " ".toList ⟨by decide, by decide⟩ (by decide) (by decide))
      (kmText S.radius) _ _ _ (u1 _).valueText (u1 _).simpleValue
    (Definitions.simple (asciiHead C "Total_area".toList " ".toList " ".toList ⟨by decide, by decide⟩ (by decide) (by decide))
      (km2Text S.area) _ _ _ (u2 _).valueText (u2 _).simpleValue
    (Definitions.simple (asciiHead C "Total_perimeter".toList " ".toList " ".toList ⟨by decide, by decide⟩ (by decide) (by decide))
      (kmText S.perimeter) _ _ _ (u1 _).valueText (u1 _).simpleValue
    (Definitions.simple (asciiHead C "oct_a_axis_radius".toList " ".toList " ".toList ⟨by decide, by decide⟩ (by decide) (by decide))
      (kmText S.radius) _ _ _ (u1 _).valueText (u1 _).simpleValue
    (Definitions.simple (asciiHead C "unit_boundary".toList " ".toList " ".toList ⟨by decide, by decide⟩ (by decide) (by decide))
      (tableText "vertex".toList boundaryTags (boundaryRows N)) _ _ _
      (table_valueText C plain_vertex boundaryTags_plain (boundaryRows_chars N hN)) (boundary_value C N hN)
    (Definitions.last (asciiHead C "crater".toList " ".toList " ".toList ⟨by decide, by decide⟩ (by decide) (by decide))
      (tableText "diam".toList craterTags (S.craters.map craterRow)) _
      (table_valueText C plain_diam craterTags_plain (by
        intro r hr
        rw [List.mem_map] at hr
        obtain ⟨c, _, rfl⟩ := hr
        exact (craterRow_ok C c).1)) (crater_value C S.craters)))))))
  have e := scc_join "craterstats_version".toList version "a_axis_radius".toList (kmText S.radius) "Total_area".toList (km2Text S.area)
    "Total_perimeter".toList (kmText S.perimeter) "oct_a_axis_radius".toList (kmText S.radius) "unit_boundary".toList
    (headerText "vertex".toList boundaryTags) (boundaryRows N) "crater".toList (headerText "diam".toList craterTags) (S.craters.map craterRow)
  have e' : join ['\n'] (sccKept "oct_a_axis_radius".toList version S (boundaryRows N)) = _ := e
  rw [e']
  exact key

/-! ### reading -/

theorem scc_dict (version : List Char) (S : Source) (N : List ((ℕ × List Char) × Pt)) :
    ∃ d, mergeAll (sccDefs version S N) = .dict d ∧ dictGet d "crater".toList = some (craterVal S.craters) ∧
      dictGet d "unit_boundary".toList = some (boundaryVal N) ∧ dictGet d "a_axis_radius".toList = some (.str (kmText S.radius)) ∧
      dictGet d "fraction".toList = none := by
  have hne : sccDefs version S N ≠ [] := by simp [sccDefs]
  obtain ⟨d, h0, h1⟩ := mergeAll_get (sccDefs version S N) hne "crater".toList
  obtain ⟨d2, h02, h2⟩ := mergeAll_get (sccDefs version S N) hne "unit_boundary".toList
  obtain ⟨d3, h03, h3⟩ := mergeAll_get (sccDefs version S N) hne "a_axis_radius".toList
  obtain ⟨d4, h04, h4⟩ := mergeAll_get (sccDefs version S N) hne "fraction".toList
  rw [h0] at h02 h03 h04
  injection h02 with e2
  injection h03 with e3
  injection h04 with e4
  subst e2 e3 e4
  refine ⟨_, h0, ?_, ?_, ?_, ?_⟩
  · rw [h1]; rfl
  · rw [h2]; rfl
  · rw [h3]; rfl
  · rw [h4]; rfl

theorem mapIdx_const {α β : Type} {f : ℕ → α → β} {g : α → β} (h : ∀ i x, f i x = g x) (l : List α) : l.mapIdx f = l.map g := by
  apply List.ext_getElem?
  intro i
  rw [List.getElem?_mapIdx, List.getElem?_map]
  cases l[i]? with
  | none => rfl
  | some x => exact congrArg some (h i x)

theorem crater_columns (cs : List Crater) :
    tget (craterVal cs) "diam".toList = .ok (.list (cs.map (fun c => .str (gStr 6 c.diam)))) ∧
    tget (craterVal cs) "lon".toList = .ok (.list (cs.map (fun c => .str (fixStr 15 c.lon)))) ∧
    tget (craterVal cs) "lat".toList = .ok (.list (cs.map (fun c => .str (fixStr 15 c.lat)))) := by
  have h : ∀ n, ((cs.map craterFields).map (fun r => r.getD n [])).map TVal.str = cs.map (fun c => .str ((craterFields c).getD n [])) := by
    intro n; rw [List.map_map, List.map_map]; rfl
  have e0 : tget (craterVal cs) "diam".toList = .ok (.list (((cs.map craterFields).map (fun r => r.getD 0 [])).map TVal.str)) := rfl
  have e2 : tget (craterVal cs) "lon".toList = .ok (.list (((cs.map craterFields).map (fun r => r.getD 2 [])).map TVal.str)) := rfl
  have e3 : tget (craterVal cs) "lat".toList = .ok (.list (((cs.map craterFields).map (fun r => r.getD 3 [])).map TVal.str)) := rfl
  rw [e0, e2, e3, h, h, h]
  exact ⟨rfl, rfl, rfl⟩

theorem boundary_columns (N : List ((ℕ × List Char) × Pt)) :
    tget (boundaryVal N) "sub_area".toList = .ok (.list (N.map (fun x => .str (natStr x.1.1)))) ∧
    tget (boundaryVal N) "tag".toList = .ok (.list (N.map (fun x => .str x.1.2))) ∧
    tget (boundaryVal N) "lon".toList = .ok (.list (N.map (fun x => .str (fixStr 15 x.2.1)))) ∧
    tget (boundaryVal N) "lat".toList = .ok (.list (N.map (fun x => .str (fixStr 15 x.2.2)))) := by
  have h : ∀ n, ((boundaryTexts N).map (fun r => r.getD n [])).map TVal.str =
      N.mapIdx (fun i x => .str ((boundaryFields (i + 1) x).getD n [])) := by
    intro n; rw [boundaryTexts, map_mapIdx', map_mapIdx']
  have e1 : tget (boundaryVal N) "sub_area".toList = .ok (.list (((boundaryTexts N).map (fun r => r.getD 1 [])).map TVal.str)) := rfl
  have e2 : tget (boundaryVal N) "tag".toList = .ok (.list (((boundaryTexts N).map (fun r => r.getD 2 [])).map TVal.str)) := rfl
  have e3 : tget (boundaryVal N) "lon".toList = .ok (.list (((boundaryTexts N).map (fun r => r.getD 3 [])).map TVal.str)) := rfl
  have e4 : tget (boundaryVal N) "lat".toList = .ok (.list (((boundaryTexts N).map (fun r => r.getD 4 [])).map TVal.str)) := rfl
  have g1 : N.mapIdx (fun i x => TVal.str ((boundaryFields (i + 1) x).getD 1 [])) = N.map (fun x => TVal.str (natStr x.1.1)) :=
    by apply mapIdx_const; intro _ _; rfl
  have g2 : N.mapIdx (fun i x => TVal.str ((boundaryFields (i + 1) x).getD 2 [])) = N.map (fun x => TVal.str x.1.2) :=
    by apply mapIdx_const; intro _ _; rfl
  have g3 : N.mapIdx (fun i x => TVal.str ((boundaryFields (i + 1) x).getD 3 [])) = N.map (fun x => TVal.str (fixStr 15 x.2.1)) :=
    by apply mapIdx_const; intro _ _; rfl
  have g4 : N.mapIdx (fun i x => TVal.str ((boundaryFields (i + 1) x).getD 4 [])) = N.map (fun x => TVal.str (fixStr 15 x.2.2)) :=
    by apply mapIdx_const; intro _ _; rfl
  rw [e1, e2, e3, e4, h, h, h, h, g1, g2, g3, g4]
  exact ⟨rfl, rfl, rfl, rfl⟩

/-- Specification: a crater as it is after writing and reading: the diameter rounded to seven significant digits, the coordinates to
15 decimals, and the fraction replaced by 1. -/
def storedCrater (c : Crater) : Crater := ⟨sciSigned 6 c.diam, 1, roundTo 15 c.lon, roundTo 15 c.lat⟩

theorem tfloat_g (P : ℕ) (v : ℚ) : tfloat (.str (gStr P v)) = .ok (sciSigned P v) := by rw [tfloat, decVal_gStr]
theorem tfloat_fix (p : ℕ) (v : ℚ) : tfloat (.str (fixStr p v)) = .ok (roundTo p v) := by rw [tfloat, decVal_fixStr]
theorem pick_of {α : Type} {l : List α} {e : ℕ} {x : α} (h : l[e]? = some x) : pick l e = .ok x := by rw [pick, h]

theorem readCraters_eq (d : List (List Char × TVal)) (cs : List Crater) (h1 : dictGet d "crater".toList = some (craterVal cs))
    (h2 : dictGet d "fraction".toList = none) :
    readCraters (.dict d) = .ok ((cs.map storedCrater).insertionSort (fun a b => a.diam ≤ b.diam)) := by
  obtain ⟨c1, c2, c3⟩ := crater_columns cs
  have t1 : tget (.dict d) "crater".toList = .ok (craterVal cs) := by
    show (match dictGet d _ with | some v => Except.ok v | none => _) = _
    rw [h1]
  obtain ⟨R, hR⟩ : ∃ R, R = cs.map storedCrater := ⟨_, rfl⟩
  have f1 : floats (craterVal cs) "diam".toList = .ok (R.map Crater.diam) := by
    rw [floats, c1, ok_bind, telems, ok_bind, mapM_map', mapM_eq (g := fun c => (storedCrater c).diam) (fun c _ => tfloat_g 6 c.diam), hR,
      List.map_map]
    rfl
  have f2 : floats (craterVal cs) "lon".toList = .ok (R.map Crater.lon) := by
    rw [floats, c2, ok_bind, telems, ok_bind, mapM_map', mapM_eq (g := fun c => (storedCrater c).lon) (fun c _ => tfloat_fix 15 c.lon), hR,
      List.map_map]
    rfl
  have f3 : floats (craterVal cs) "lat".toList = .ok (R.map Crater.lat) := by
    rw [floats, c3, ok_bind, telems, ok_bind, mapM_map', mapM_eq (g := fun c => (storedCrater c).lat) (fun c _ => tfloat_fix 15 c.lat), hR,
      List.map_map]
    rfl
  have hfrac : ∀ c ∈ R, c.fraction = 1 := by
    intro c hc
    rw [hR, List.mem_map] at hc
    obtain ⟨c', _, rfl⟩ := hc
    rfl
  rw [readCraters, t1, ok_bind, f1, ok_bind]
  simp only [h2, Option.isSome_none, Bool.false_eq_true, if_false]
  rw [ok_bind, f2, ok_bind, f3, ok_bind, ← hR]
  have hz : (R.map Crater.diam).zipIdx.insertionSort (fun a b => a.1 ≤ b.1) =
      (R.zipIdx.insertionSort (fun a b => a.1.diam ≤ b.1.diam)).map (fun x => (x.1.diam, x.2)) := by
    rw [List.map_insertionSort (s := fun a b : ℚ × ℕ => a.1 ≤ b.1) (r := fun a b : Crater × ℕ => a.1.diam ≤ b.1.diam)
      (fun x : Crater × ℕ => (x.1.diam, x.2)) R.zipIdx (fun a _ b _ => Iff.rfl), List.zipIdx_map]
    rfl
  have hs : R.insertionSort (fun a b => a.diam ≤ b.diam) = (R.zipIdx.insertionSort (fun a b => a.1.diam ≤ b.1.diam)).map Prod.fst := by
    rw [List.map_insertionSort (s := fun a b : Crater => a.diam ≤ b.diam) (r := fun a b : Crater × ℕ => a.1.diam ≤ b.1.diam)
      Prod.fst R.zipIdx (fun a _ b _ => Iff.rfl), List.zipIdx_map_fst]
  rw [hz, mapM_map', mapM_map', mapM_eq (g := Prod.fst), hs]
  intro x hx
  rw [List.mem_insertionSort] at hx
  obtain ⟨c, i⟩ := x
  have hi : R[i]? = some c := by
    rw [List.mem_zipIdx_iff_getElem?] at hx
    exact hx
  have hm : c ∈ R := List.mem_of_getElem? hi
  have p1 : pick (R.map Crater.diam) i = .ok c.diam := pick_of (by rw [List.getElem?_map, hi]; rfl)
  have p2 : pick (List.map (fun _ => (1 : ℚ)) (R.map Crater.diam)) i = .ok c.fraction := pick_of (by
    rw [List.map_map, List.getElem?_map, hi, hfrac c hm]; rfl)
  have p3 : pick (R.map Crater.lon) i = .ok c.lon := pick_of (by rw [List.getElem?_map, hi]; rfl)
  have p4 : pick (R.map Crater.lat) i = .ok c.lat := pick_of (by rw [List.getElem?_map, hi]; rfl)
  show (do .ok (⟨← pick (R.map Crater.diam) i, ← pick (List.map (fun _ => (1 : ℚ)) (R.map Crater.diam)) i, ← pick (R.map Crater.lon) i,
    ← pick (R.map Crater.lat) i⟩ : Crater)) = _
  rw [p1, ok_bind, p2, ok_bind, p3, ok_bind, p4, ok_bind]

theorem readRadius_eq (d : List (List Char × TVal)) (q : ℚ) (h : dictGet d "a_axis_radius".toList = some (.str (kmText q))) :
    readRadius (.dict d) = .ok (sciSigned 5 q) := by
  have hs : (split ' ' (kmText q)).headD [] = gStr 5 q := by
    have : kmText q = gStr 5 q ++ ' ' :: "<km>".toList := rfl
    rw [this, split_append]
    · rfl
    · intro hm
      exact absurd ((plain_g 5 q).2 _ hm) (by decide +kernel)
  rw [readRadius]
  simp only [h]
  rw [ok_bind]
  simp only [hs]
  exact tfloat_g 5 q

/-! ### rings -/

/-- Specification: a point as it is after writing and reading -/
def storedPt (p : Pt) : Pt := (roundTo 15 p.1, roundTo 15 p.2)

/-- Specification: a ring as it is after writing and reading: rounded points, without immediate repetitions -/
def storedRing (r : List Pt) : List Pt := (r.map storedPt).destutter (· ≠ ·)

theorem dedupRuns_eq {α : Type} [DecidableEq α] : ∀ l : List α, dedupRuns l = l.destutter (· ≠ ·)
  | [] => rfl
  | [a] => rfl
  | a :: b :: l => by
    rw [dedupRuns, List.destutter_cons_cons, dedupRuns_eq (b :: l), List.destutter_cons']
    by_cases h : a = b
    · subst h; simp
    · simp [h]

def ringKeys : ℕ → List (Bool × List Pt) → List (ℤ × Bool)
  | _, [] => []
  | k, x :: l => ((k : ℤ), x.1) :: ringKeys (k + 1) l

instance : Std.Total ringLe := ⟨fun a b => by
  unfold ringLe
  rcases lt_trichotomy a.1 b.1 with h | h | h
  · exact .inl (.inl h)
  · cases ha : a.2 <;> cases hb : b.2 <;> simp [h]
  · exact .inr (.inl h)⟩

instance : IsTrans (ℤ × Bool) ringLe := ⟨fun a b c h1 h2 => by
  unfold ringLe at *
  rcases h1 with h1 | ⟨h1, h1'⟩ <;> rcases h2 with h2 | ⟨h2, h2'⟩
  · exact .inl (by omega)
  · exact .inl (by omega)
  · exact .inl (by omega)
  · exact .inr ⟨by omega, fun h => h2' (h1' h)⟩⟩

theorem ringLe_antisymm {a b : ℤ × Bool} (h1 : ringLe a b) (h2 : ringLe b a) : a = b := by
  unfold ringLe at *
  rcases h1 with h1 | ⟨h1, h1'⟩ <;> rcases h2 with h2 | ⟨h2, h2'⟩
  · omega
  · omega
  · omega
  · refine Prod.ext h1 ?_
    rw [Bool.eq_iff_iff]
    exact ⟨h1', h2'⟩

theorem ringKeys_ge (k : ℕ) (l : List (Bool × List Pt)) : ∀ x ∈ ringKeys k l, (k : ℤ) ≤ x.1 := by
  induction l generalizing k with
  | nil => intro x hx; cases hx
  | cons y l ih =>
    intro x hx
    rcases List.mem_cons.1 hx with rfl | hx
    · exact le_refl _
    · have := ih (k + 1) x hx
      push_cast at this
      omega

theorem ringKeys_sorted (k : ℕ) (l : List (Bool × List Pt)) : (ringKeys k l).Pairwise (fun a b => a.1 < b.1) := by
  induction l generalizing k with
  | nil => exact List.Pairwise.nil
  | cons y l ih =>
    refine List.Pairwise.cons ?_ (ih (k + 1))
    intro x hx
    have := ringKeys_ge (k + 1) l x hx
    push_cast at this
    show (k : ℤ) < x.1
    omega

theorem ringKeys_append (k : ℕ) (a b : List (Bool × List Pt)) : ringKeys k (a ++ b) = ringKeys k a ++ ringKeys (k + a.length) b := by
  induction a generalizing k with
  | nil => rfl
  | cons x a ih =>
    rw [List.cons_append, ringKeys, ringKeys, ih, List.cons_append, List.length_cons]
    congr 3
    omega

theorem ringKeys_length (k : ℕ) (l : List (Bool × List Pt)) : (ringKeys k l).length = l.length := by
  induction l generalizing k with
  | nil => rfl
  | cons x l ih => rw [ringKeys, List.length_cons, ih, List.length_cons]

theorem tag_isInt (t : Bool) : decide (TVal.str (tagText t) = .str intTag) = t := by cases t <;> decide +kernel

theorem mem_numbered_keys (k : ℕ) (l : List (Bool × List Pt)) (hl : ∀ x ∈ l, x.2 ≠ []) (y : ℤ × Bool) :
    y ∈ (numbered k l).map (fun x => ((x.1.1 : ℤ), decide (TVal.str x.1.2 = .str intTag))) ↔ y ∈ ringKeys k l := by
  induction l generalizing k with
  | nil => rfl
  | cons x l ih =>
    rw [numbered, ringKeys, List.map_append, List.mem_append, ih (k + 1) (fun z hz => hl z (List.mem_cons_of_mem _ hz)), List.mem_cons,
      List.map_map]
    refine or_congr ?_ Iff.rfl
    rw [List.mem_map]
    constructor
    · rintro ⟨p, _, rfl⟩
      exact Prod.ext rfl (tag_isInt x.1)
    · rintro rfl
      obtain ⟨p, hp⟩ := List.exists_mem_of_ne_nil _ (hl x List.mem_cons_self)
      exact ⟨p, hp, Prod.ext rfl (tag_isInt x.1)⟩

theorem zip_map_map {α β γ : Type} (f : α → β) (g : α → γ) (l : List α) : List.zip (l.map f) (l.map g) = l.map (fun x => (f x, g x)) := by
  induction l with
  | nil => rfl
  | cons x l ih => rw [List.map_cons, List.map_cons, List.zip_cons_cons, ih, List.map_cons]

theorem ringNumbers_eq (k : ℕ) (l : List (Bool × List Pt)) (hl : ∀ x ∈ l, x.2 ≠ []) :
    ringNumbers ((numbered k l).map (fun x => .str (natStr x.1.1))) ((numbered k l).map (fun x => .str x.1.2)) = .ok (ringKeys k l) := by
  rw [ringNumbers, zip_map_map, mapM_map', mapM_eq (g := fun x => ((x.1.1 : ℤ), decide (TVal.str x.1.2 = .str intTag)))]
  · rw [ok_bind]
    congr 1
    have hnd : (ringKeys k l).Nodup := (ringKeys_sorted k l).imp (fun h e => by rw [e] at h; exact lt_irrefl _ h)
    refine List.Perm.eq_of_pairwise (le := ringLe) (fun a b _ _ h1 h2 => ringLe_antisymm h1 h2) (List.pairwise_insertionSort ringLe _)
      ((ringKeys_sorted k l).imp (fun h => Or.inl h)) ?_
    refine (List.perm_insertionSort ringLe _).trans ?_
    rw [List.perm_ext_iff_of_nodup (List.nodup_dedup _) hnd]
    intro y
    rw [List.mem_dedup]
    exact mem_numbered_keys k l hl y
  · intro x _
    show (do .ok ((← tint (TVal.str (natStr x.1.1))), decide (TVal.str x.1.2 = TVal.str intTag))) = _
    rw [tint_nat, ok_bind]

/-- the ring with number `i` when numbering begins at `k` -/
def ringAt (k : ℕ) (l : List (Bool × List Pt)) (i : ℕ) : List Pt := if i < k then [] else ((l[i - k]?).map Prod.snd).getD []

theorem points_of (k : ℕ) (l : List (Bool × List Pt)) (i : ℕ) :
    ((numbered k l).map (fun x => if x.1.1 = i then [storedPt x.2] else [])).flatten = (ringAt k l i).map storedPt := by
  induction l generalizing k with
  | nil => unfold ringAt; split <;> rfl
  | cons x l ih =>
    rw [numbered, List.map_append, List.flatten_append, ih, List.map_map]
    have h1 : ∀ (c : Prop) [Decidable c] (r : List Pt), (r.map (fun p => if c then [storedPt p] else [])).flatten = if c then r.map storedPt else [] := by
      intro c _ r
      induction r with
      | nil => split <;> rfl
      | cons p r ihr => rw [List.map_cons, List.flatten_cons, ihr]; split <;> rfl
    have h2 : (x.2.map ((fun x : (ℕ × List Char) × Pt => if x.1.1 = i then [storedPt x.2] else []) ∘ fun p => ((k, tagText x.1), p))).flatten =
        if k = i then x.2.map storedPt else [] := h1 (k = i) x.2
    rw [h2]
    unfold ringAt
    rcases lt_trichotomy i k with h | h | h
    · rw [if_neg (by omega), if_pos (by omega), if_pos h]; rfl
    · subst h
      rw [if_pos rfl, if_pos (by omega), if_neg (by omega), Nat.sub_self]
      simp
    · rw [if_neg (by omega), if_neg (by omega), if_neg (by omega)]
      have : i - k = (i - (k + 1)) + 1 := by omega
      rw [this, List.getElem?_cons_succ, List.nil_append]

theorem ringPoints_eq (k : ℕ) (l : List (Bool × List Pt)) (i : ℕ) :
    ringPoints ((numbered k l).map (fun x => .str (fixStr 15 x.2.1))) ((numbered k l).map (fun x => .str (fixStr 15 x.2.2)))
      ((numbered k l).map (fun x => .str (natStr x.1.1))) (i : ℤ) = .ok (storedRing (ringAt k l i)) := by
  rw [ringPoints, zip_map_map, zip_map_map, mapM_map', mapM_eq (g := fun x => if x.1.1 = i then [storedPt x.2] else [])]
  · rw [ok_bind, points_of, dedupRuns_eq]; rfl
  · intro x _
    show (do if (← tint (.str (natStr x.1.1))) = (i : ℤ) then
      .ok [((← tfloat (.str (fixStr 15 x.2.1))), (← tfloat (.str (fixStr 15 x.2.2))))] else .ok []) = _
    rw [tint_nat, ok_bind]
    by_cases h : x.1.1 = i
    · rw [if_pos (by exact_mod_cast h), if_pos h, tfloat_fix, ok_bind, tfloat_fix, ok_bind]; rfl
    · rw [if_neg (by exact_mod_cast h), if_neg h]

/-- Specification: an exterior ring takes all later rings lying within it as holes. -/
def polygonsOf (within : List Pt → List Pt → Bool) : List (Bool × List Pt) → List (List Pt × List (List Pt))
  | [] => []
  | (t, r) :: l => if t then polygonsOf within l
      else (r, (l.map Prod.snd).filter (fun q => within q r)) :: polygonsOf within l

theorem find_key {β : Type} (P : ℤ → β) (z : List (ℤ × Bool)) (i : ℤ) (h : ∃ x ∈ z, x.1 = i) :
    (z.map (fun x => (x.1, P x.1))).find? (fun x => decide (x.1 = i)) = some (i, P i) := by
  induction z with
  | nil => obtain ⟨x, hx, _⟩ := h; cases hx
  | cons y z ih =>
    rw [List.map_cons, List.find?_cons]
    by_cases hy : y.1 = i
    · simp [hy]
    · simp only [hy, decide_false]
      apply ih
      obtain ⟨x, hx, he⟩ := h
      rcases List.mem_cons.1 hx with rfl | hx
      · exact absurd he hy
      · exact ⟨x, hx, he⟩

def storedRings (l : List (Bool × List Pt)) : List (Bool × List Pt) := l.map (fun x => (x.1, storedRing x.2))

theorem ringAt_append (a b : List (Bool × List Pt)) (x : Bool × List Pt) : ringAt 1 (a ++ x :: b) (1 + a.length) = x.2 := by
  rw [ringAt, if_neg (by omega), Nat.add_sub_cancel_left, List.getElem?_append_right (Nat.le_refl _), Nat.sub_self]
  rfl

theorem keys_rings (a b : List (Bool × List Pt)) :
    (ringKeys (1 + a.length) b).map (fun y => storedRing (ringAt 1 (a ++ b) y.1.toNat)) = b.map (fun x => storedRing x.2) := by
  induction b generalizing a with
  | nil => rfl
  | cons x b ih =>
    rw [ringKeys, List.map_cons, List.map_cons]
    have h1 : a ++ x :: b = (a ++ [x]) ++ b := by simp
    congr 1
    · show storedRing (ringAt 1 (a ++ x :: b) ((1 + a.length : ℕ) : ℤ).toNat) = _
      rw [Int.toNat_natCast, ringAt_append]
    · have := ih (a ++ [x])
      rw [List.length_append, List.length_singleton] at this
      rw [h1, ← this]
      rfl

theorem polygons_keys (within : List Pt → List Pt → Bool) (a b : List (Bool × List Pt)) :
    ((ringKeys (1 + a.length) b).filter (fun x => !x.2)).map (fun x => (storedRing (ringAt 1 (a ++ b) x.1.toNat),
      ((sliceFrom (ringKeys 1 (a ++ b)) x.1).filter (fun y => within (storedRing (ringAt 1 (a ++ b) y.1.toNat))
        (storedRing (ringAt 1 (a ++ b) x.1.toNat)))).map (fun y => storedRing (ringAt 1 (a ++ b) y.1.toNat)))) =
      polygonsOf within (storedRings b) := by
  induction b generalizing a with
  | nil => rfl
  | cons x b ih =>
    have h1 : a ++ x :: b = (a ++ [x]) ++ b := by simp
    have := ih (a ++ [x])
    rw [List.length_append, List.length_singleton, ← h1, ← Nat.add_assoc] at this
    obtain ⟨t, r⟩ := x
    cases t with
    | true =>
      rw [ringKeys, List.filter_cons_of_neg (by simp), this]
      rfl
    | false =>
      rw [ringKeys, List.filter_cons_of_pos (by simp), List.map_cons, this]
      have e0 : polygonsOf within (storedRings ((false, r) :: b)) =
          (storedRing r, ((storedRings b).map Prod.snd).filter (fun q => within q (storedRing r))) :: polygonsOf within (storedRings b) := rfl
      rw [e0]
      congr 1
      have e1 : ringAt 1 (a ++ (false, r) :: b) ((1 + a.length : ℕ) : ℤ).toNat = r := by rw [Int.toNat_natCast, ringAt_append]
      have e2 : sliceFrom (ringKeys 1 (a ++ (false, r) :: b)) ((1 + a.length : ℕ) : ℤ) = ringKeys (1 + (a ++ [(false, r)]).length) b := by
        rw [sliceFrom, if_neg (by omega), Int.toNat_natCast, h1, ringKeys_append]
        apply List.drop_left'
        rw [ringKeys_length, List.length_append, List.length_singleton]
        omega
      have e3 := keys_rings (a ++ [(false, r)]) b
      rw [← h1] at e3
      refine Prod.ext (congrArg storedRing e1) ?_
      show ((sliceFrom (ringKeys 1 (a ++ (false, r) :: b)) ((1 + a.length : ℕ) : ℤ)).filter (fun y =>
        within (storedRing (ringAt 1 (a ++ (false, r) :: b) y.1.toNat))
          (storedRing (ringAt 1 (a ++ (false, r) :: b) ((1 + a.length : ℕ) : ℤ).toNat)))).map _ = _
      rw [e1, e2, storedRings, List.map_map]
      show _ = (b.map (fun x => storedRing x.2)).filter _
      rw [← e3, List.filter_map]
      rfl

theorem tget_dict {d : List (List Char × TVal)} {k : List Char} {v : TVal} (h : dictGet d k = some v) : tget (.dict d) k = .ok v := by
  show (match dictGet d k with | some v => Except.ok v | none => _) = _
  rw [h]

theorem ringKeys_mem_nat (k : ℕ) (l : List (Bool × List Pt)) : ∀ x ∈ ringKeys k l, ((x.1.toNat : ℕ) : ℤ) = x.1 := by
  intro x hx
  have := ringKeys_ge k l x hx
  omega

theorem sliceFrom_subset {α : Type} (z : List α) (i : ℤ) : ∀ x ∈ sliceFrom z i, x ∈ z := by
  intro x hx
  exact List.mem_of_mem_drop hx

theorem readPolygons_eq (within : List Pt → List Pt → Bool) (d : List (List Char × TVal)) (l : List (Bool × List Pt))
    (hl : ∀ x ∈ l, x.2 ≠ []) (h : dictGet d "unit_boundary".toList = some (boundaryVal (numbered 1 l))) :
    readPolygons within (.dict d) = .ok (polygonsOf within (storedRings l)) := by
  obtain ⟨c1, c2, c3, c4⟩ := boundary_columns (numbered 1 l)
  rw [readPolygons, tget_dict h, ok_bind, c1, ok_bind, telems, ok_bind, c2, ok_bind, telems, ok_bind, ringNumbers_eq 1 l hl, ok_bind, c3, ok_bind,
    telems, ok_bind, c4, ok_bind, telems, ok_bind]
  rw [mapM_eq (g := fun x : ℤ × Bool => (x.1, storedRing (ringAt 1 l x.1.toNat)))]
  · rw [ok_bind, if_neg]
    · have key := polygons_keys within [] l
      rw [List.length_nil, List.nil_append] at key
      rw [← key]
      refine congrArg Except.ok ?_
      have hf : ∀ x ∈ ringKeys 1 l, (((ringKeys 1 l).map (fun x => (x.1, storedRing (ringAt 1 l x.1.toNat)))).find?
          (fun y => decide (y.1 = x.1))) = some (x.1, storedRing (ringAt 1 l x.1.toNat)) :=
        fun x hx => find_key (fun i => storedRing (ringAt 1 l i.toNat)) (ringKeys 1 l) x.1 ⟨x, hx, rfl⟩
      apply List.map_congr_left
      intro x hx
      have hx' := (List.mem_filter.1 hx).1
      have hm : ∀ y ∈ sliceFrom (ringKeys 1 l) x.1, y ∈ ringKeys 1 l := sliceFrom_subset _ _
      simp only [hf x hx', Option.map_some, Option.getD_some]
      congr 1
      have hfl : (sliceFrom (ringKeys 1 l) x.1).filter (fun y => within (((((ringKeys 1 l).map (fun x => (x.1, storedRing (ringAt 1 l x.1.toNat)))).find?
          (fun z => decide (z.1 = y.1))).map Prod.snd).getD []) (storedRing (ringAt 1 l x.1.toNat))) =
          (sliceFrom (ringKeys 1 l) x.1).filter (fun y => within (storedRing (ringAt 1 l y.1.toNat)) (storedRing (ringAt 1 l x.1.toNat))) := by
        apply List.filter_congr
        intro y hy
        rw [hf y (hm y hy), Option.map_some, Option.getD_some]
      rw [hfl]
      apply List.map_congr_left
      intro y hy
      rw [hf y (hm y (List.mem_filter.1 hy).1), Option.map_some, Option.getD_some]
    · cases l with
      | nil => simp [ringKeys]
      | cons x l => simp [ringKeys]
  · intro x hx
    have h1 := ringPoints_eq 1 l x.1.toNat
    rw [ringKeys_mem_nat 1 l x hx] at h1
    show (do Except.ok (x.1, ← ringPoints _ _ _ x.1)) = _
    rw [h1, ok_bind]

theorem tagged_nonempty {shapes : List (List (List Pt))} (h : ∀ s ∈ shapes, ∀ r ∈ s, r ≠ []) : ∀ x ∈ taggedRings shapes, x.2 ≠ [] := by
  intro x hx
  rw [taggedRings, List.mem_flatMap] at hx
  obtain ⟨s, hs, hx⟩ := hx
  cases s with
  | nil => cases hx
  | cons r rs =>
    rcases List.mem_cons.1 hx with rfl | hx
    · exact h _ hs r List.mem_cons_self
    · obtain ⟨q, hq, rfl⟩ := List.mem_map.1 hx
      exact h _ hs q (List.mem_cons_of_mem _ hq)

theorem numbered_nonempty {k : ℕ} {l : List (Bool × List Pt)} (h : ∀ x ∈ l, x.2 ≠ []) (hl : l ≠ []) : numbered k l ≠ [] := by
  cases l with
  | nil => exact absurd rfl hl
  | cons x l =>
    rw [numbered]
    intro e
    have := (List.append_eq_nil_iff.1 e).1
    exact h x List.mem_cons_self (List.map_eq_nil_iff.1 this)

/-- what is read from a file written: the craters in order of diameter, the radius, and the rings -/
theorem scc_roundtrip (C : Classes) (within : List Pt → List Pt → Bool) {version : List Char} {S : Source} (h : SourceOk version S)
    (shapes : List (List (List Pt))) (hS : S.sa = shapes.map shapeOf) (hr : ∀ s ∈ shapes, ∀ r ∈ s, r ≠ [])
    (hne : taggedRings shapes ≠ []) (sep : List Char) (hsep : sep = ['\n'] ∨ sep = ['\r', '\n']) :
    ∃ file, writeScc sep version S = .ok file ∧
      readScc C within file = .ok ⟨(S.craters.map storedCrater).insertionSort (fun a b => a.diam ≤ b.diam), sciSigned 5 S.radius,
        polygonsOf within (storedRings (taggedRings shapes))⟩ := by
  have ht := tagged_nonempty hr
  obtain ⟨file, h1, h2⟩ := scc_read C h shapes hS (numbered_nonempty ht hne) sep hsep
  refine ⟨file, h1, ?_⟩
  obtain ⟨N, hN⟩ : ∃ N, N = numbered 1 (taggedRings shapes) := ⟨_, rfl⟩
  have p1 : ∀ x ∈ N, Plain x.1.2 := hN ▸ numbered_plain _ _
  have p2 : ∀ x ∈ N, 'r' ∉ x.1.2 := hN ▸ numbered_no_r _ _
  have h3 := scc_subst h N p1 p2
  have h4 := C33_value_partial (scc_definitions C h N p1)
  obtain ⟨d, d0, d1, d2, d3, d4⟩ := scc_dict version S N
  rw [← hN] at h2
  rw [readScc, h2]
  simp only [subAxis_join]
  rw [h3, h4, ok_bind, d0, readCraters_eq d _ d1 d4, ok_bind, readRadius_eq d _ d3, ok_bind,
    readPolygons_eq within d _ ht (by rw [d2, hN]), ok_bind]

theorem polygonsOf_true (within : List Pt → List Pt → Bool) (rs : List (List Pt)) (l : List (Bool × List Pt)) :
    polygonsOf within (rs.map (fun r => (true, r)) ++ l) = polygonsOf within l := by
  induction rs with
  | nil => rfl
  | cons r rs ih => rw [List.map_cons, List.cons_append, polygonsOf, if_pos rfl, ih]

theorem stored_tagged (shapes : List (List (List Pt))) : storedRings (taggedRings shapes) = taggedRings (shapes.map (fun s => s.map storedRing)) := by
  induction shapes with
  | nil => rfl
  | cons s shapes ih =>
    have h1 : ∀ s ss, taggedRings (s :: ss) = taggedRings [s] ++ taggedRings ss := by
      intro s ss; rw [taggedRings, taggedRings, taggedRings, List.flatMap_cons, List.flatMap_singleton]
    rw [h1 s shapes, List.map_cons, h1 (s.map storedRing), ← ih, storedRings, List.map_append]
    congr 1
    cases s with
    | nil => rfl
    | cons r rs =>
      simp [taggedRings, List.flatMap_cons]

theorem tagged_snd (shapes : List (List (List Pt))) : (taggedRings shapes).map Prod.snd = shapes.flatten := by
  induction shapes with
  | nil => rfl
  | cons s shapes ih =>
    rw [taggedRings, List.flatMap_cons, List.map_append, List.flatten_cons, ← ih]
    congr 1
    cases s with
    | nil => rfl
    | cons r rs => rw [List.map_cons, List.map_map]; congr 1; exact List.map_id' rs

theorem polygonsOf_shapes (within : List Pt → List Pt → Bool) (shapes : List (List (List Pt))) (h0 : ∀ s ∈ shapes, s ≠ [])
    (h1 : ∀ s ∈ shapes, ∀ r ∈ s.tail, within r (s.headD []) = true)
    (h2 : shapes.Pairwise (fun s t => ∀ r ∈ t, within r (s.headD []) = false)) :
    polygonsOf within (taggedRings shapes) = shapes.map (fun s => (s.headD [], s.tail)) := by
  induction shapes with
  | nil => rfl
  | cons s shapes ih =>
    rw [List.pairwise_cons] at h2
    have ih' := ih (fun t ht => h0 t (List.mem_cons_of_mem _ ht)) (fun t ht => h1 t (List.mem_cons_of_mem _ ht)) h2.2
    cases s with
    | nil => exact absurd rfl (h0 _ List.mem_cons_self)
    | cons r rs =>
      have e : taggedRings ((r :: rs) :: shapes) = (false, r) :: (rs.map (fun r => (true, r)) ++ taggedRings shapes) := rfl
      rw [e, polygonsOf, if_neg (by simp), polygonsOf_true, ih', List.map_cons, List.map_append, tagged_snd, List.filter_append]
      have f1 : ((rs.map (fun r => (true, r))).map Prod.snd).filter (fun q => within q r) = rs := by
        rw [List.map_map]
        show (rs.map id).filter _ = _
        rw [List.map_id, List.filter_eq_self]
        exact h1 _ List.mem_cons_self
      have f2 : shapes.flatten.filter (fun q => within q r) = [] := by
        rw [List.filter_eq_nil_iff]
        intro q hq
        obtain ⟨t, ht, hqt⟩ := List.mem_flatten.1 hq
        have := h2.1 t ht q hqt
        simpa using this
      rw [f1, f2, List.append_nil]
      rfl

/-- C57: the shapes of an area, written to a spatial crater count file and read again, are the same shapes: each first ring is the outline
of a polygon and the other rings of the shape are its holes, in the same order, with coordinates rounded to 15 decimals and without
immediately repeated points; provided that the further rings of a shape lie within its first ring, and no ring of a later shape lies within
the first ring of an earlier one.  Missing: the shapes for which this does not hold, see the counterexamples. -/
theorem C57_rings_partial (C : Classes) (within : List Pt → List Pt → Bool) {version : List Char} {S : Source} (h : SourceOk version S)
    (shapes : List (List (List Pt))) (hS : S.sa = shapes.map shapeOf) (hne : shapes ≠ []) (h0 : ∀ s ∈ shapes, s ≠ [])
    (hr : ∀ s ∈ shapes, ∀ r ∈ s, r ≠ [])
    (hin : ∀ s ∈ shapes, ∀ r ∈ s.tail, within (storedRing r) (storedRing (s.headD [])) = true)
    (hout : shapes.Pairwise (fun s t => ∀ r ∈ t, within (storedRing r) (storedRing (s.headD [])) = false))
    (sep : List Char) (hsep : sep = ['\n'] ∨ sep = ['\r', '\n']) :
    ∃ file sc, writeScc sep version S = .ok file ∧ readScc C within file = .ok sc ∧
      sc.polygons = shapes.map (fun s => (storedRing (s.headD []), s.tail.map storedRing)) := by
  have hd : ∀ s : List (List Pt), (s.map storedRing).headD [] = storedRing (s.headD []) := by
    intro s; cases s <;> rfl
  have ht : taggedRings shapes ≠ [] := by
    cases shapes with
    | nil => exact absurd rfl hne
    | cons s ss =>
      cases s with
      | nil => exact absurd rfl (h0 _ List.mem_cons_self)
      | cons r rs => intro e; cases e
  obtain ⟨file, h1, h2⟩ := scc_roundtrip C within h shapes hS hr ht sep hsep
  refine ⟨file, _, h1, h2, ?_⟩
  show polygonsOf within (storedRings (taggedRings shapes)) = _
  rw [stored_tagged, polygonsOf_shapes, List.map_map]
  · apply List.map_congr_left
    intro s _
    show ((s.map storedRing).headD [], (s.map storedRing).tail) = _
    rw [hd, List.map_tail]
  · intro s hs
    obtain ⟨t, ht, rfl⟩ := List.mem_map.1 hs
    intro e
    exact h0 t ht (List.map_eq_nil_iff.1 e)
  · intro s hs
    obtain ⟨t, ht, rfl⟩ := List.mem_map.1 hs
    intro r hr'
    rw [← List.map_tail] at hr'
    obtain ⟨q, hq, rfl⟩ := List.mem_map.1 hr'
    rw [hd]
    exact hin t ht q hq
  · rw [List.pairwise_map]
    refine hout.imp ?_
    intro s t hst r hr'
    obtain ⟨q, hq, rfl⟩ := List.mem_map.1 hr'
    rw [hd]
    exact hst q hq

/-- C57: every ring written is the outline of a polygon read, or a hole of one, whenever it is the first of its shape or lies within an
earlier first ring; and nothing else is read: without any assumption on the shapes. -/
theorem C57_every_ring_partial (C : Classes) (within : List Pt → List Pt → Bool) {version : List Char} {S : Source} (h : SourceOk version S)
    (shapes : List (List (List Pt))) (hS : S.sa = shapes.map shapeOf) (hne : shapes ≠ []) (h0 : ∀ s ∈ shapes, s ≠ [])
    (hr : ∀ s ∈ shapes, ∀ r ∈ s, r ≠ []) (sep : List Char) (hsep : sep = ['\n'] ∨ sep = ['\r', '\n']) :
    ∃ file sc, writeScc sep version S = .ok file ∧ readScc C within file = .ok sc ∧
      sc.polygons.map Prod.fst = shapes.map (fun s => storedRing (s.headD [])) ∧
      ∀ p ∈ sc.polygons, ∀ q ∈ p.2, within q p.1 = true ∧ ∃ s ∈ shapes, ∃ r ∈ s, q = storedRing r := by
  have ht : taggedRings shapes ≠ [] := by
    cases shapes with
    | nil => exact absurd rfl hne
    | cons s ss =>
      cases s with
      | nil => exact absurd rfl (h0 _ List.mem_cons_self)
      | cons r rs => intro e; cases e
  obtain ⟨file, h1, h2⟩ := scc_roundtrip C within h shapes hS hr ht sep hsep
  refine ⟨file, _, h1, h2, ?_, ?_⟩
  · show (polygonsOf within (storedRings (taggedRings shapes))).map Prod.fst = _
    rw [stored_tagged]
    clear h1 h2 ht hS hne hr
    induction shapes with
    | nil => rfl
    | cons s ss ih =>
      have ih' := ih (fun t ht => h0 t (List.mem_cons_of_mem _ ht))
      cases s with
      | nil => exact absurd rfl (h0 _ List.mem_cons_self)
      | cons r rs =>
        have e : taggedRings (((r :: rs) :: ss).map (fun s => s.map storedRing)) =
          (false, storedRing r) :: ((rs.map storedRing).map (fun r => (true, r)) ++ taggedRings (ss.map (fun s => s.map storedRing))) := rfl
        rw [e, polygonsOf, if_neg (by simp), polygonsOf_true, List.map_cons, ih']
        rfl
  · show ∀ p ∈ polygonsOf within (storedRings (taggedRings shapes)), _
    have hp : ∀ (l : List (Bool × List Pt)), ∀ p ∈ polygonsOf within l, ∀ q ∈ p.2, within q p.1 = true ∧ q ∈ l.map Prod.snd := by
      intro l
      induction l with
      | nil => intro p hp; cases hp
      | cons x l ih =>
        obtain ⟨t, r⟩ := x
        intro p hp q hq
        rw [polygonsOf] at hp
        split at hp
        · exact ⟨(ih p hp q hq).1, List.mem_cons_of_mem _ (ih p hp q hq).2⟩
        · rcases List.mem_cons.1 hp with rfl | hp
          · have := List.mem_filter.1 hq
            exact ⟨by simpa using this.2, List.mem_cons_of_mem _ this.1⟩
          · exact ⟨(ih p hp q hq).1, List.mem_cons_of_mem _ (ih p hp q hq).2⟩
    intro p hpp q hq
    obtain ⟨a, b⟩ := hp _ p hpp q hq
    refine ⟨a, ?_⟩
    rw [stored_tagged, tagged_snd, List.mem_flatten] at b
    obtain ⟨s, hs, hqs⟩ := b
    obtain ⟨t, ht', rfl⟩ := List.mem_map.1 hs
    obtain ⟨r, hr', rfl⟩ := List.mem_map.1 hqs
    exact ⟨t, ht', r, hr', rfl⟩

/-- C57: a second part of a shape which does not lie within its first ring, nor within that of any earlier shape, is lost: a shape of two
separate areas comes back with one of them only. -/
theorem C57_multipart_counterexample (C : Classes) (within : List Pt → List Pt → Bool) {version : List Char} {S : Source}
    (h : SourceOk version S) (r₁ r₂ : List Pt) (hS : S.sa = [shapeOf [r₁, r₂]]) (h1 : r₁ ≠ []) (h2 : r₂ ≠ [])
    (hout : within (storedRing r₂) (storedRing r₁) = false) (sep : List Char) (hsep : sep = ['\n'] ∨ sep = ['\r', '\n']) :
    ∃ file sc, writeScc sep version S = .ok file ∧ readScc C within file = .ok sc ∧ sc.polygons = [(storedRing r₁, [])] := by
  obtain ⟨file, e1, e2⟩ := scc_roundtrip C within h [[r₁, r₂]] hS (by simp [h1, h2]) (by simp [taggedRings]) sep hsep
  refine ⟨file, _, e1, e2, ?_⟩
  show polygonsOf within [(false, storedRing r₁), (true, storedRing r₂)] = _
  simp [polygonsOf, hout]

/-- C57: an area of its own which lies within the outline of an earlier area (an island in a hole of it) is read as a hole of the earlier
area as well. -/
theorem C57_island_counterexample (C : Classes) (within : List Pt → List Pt → Bool) {version : List Char} {S : Source}
    (h : SourceOk version S) (shell hole island : List Pt) (hS : S.sa = [shapeOf [shell, hole], shapeOf [island]])
    (h1 : shell ≠ []) (h2 : hole ≠ []) (h3 : island ≠ []) (hin : within (storedRing hole) (storedRing shell) = true)
    (hisl : within (storedRing island) (storedRing shell) = true) (sep : List Char) (hsep : sep = ['\n'] ∨ sep = ['\r', '\n']) :
    ∃ file sc, writeScc sep version S = .ok file ∧ readScc C within file = .ok sc ∧
      sc.polygons = [(storedRing shell, [storedRing hole, storedRing island]), (storedRing island, [])] := by
  obtain ⟨file, e1, e2⟩ := scc_roundtrip C within h [[shell, hole], [island]] hS (by simp [h1, h2, h3]) (by simp [taggedRings]) sep hsep
  refine ⟨file, _, e1, e2, ?_⟩
  show polygonsOf within [(false, storedRing shell), (true, storedRing hole), (false, storedRing island)] = _
  simp [polygonsOf, hin, hisl]

/-- C77: the craters written to a spatial crater count file are all there when it is read: with their diameters to seven significant digits
and their coordinates to 15 decimals, in order of diameter, equal ones in the order written.  Missing: the fractions, see the
counterexample. -/
theorem C77_craters_partial (C : Classes) (within : List Pt → List Pt → Bool) {version : List Char} {S : Source} (h : SourceOk version S)
    (shapes : List (List (List Pt))) (hS : S.sa = shapes.map shapeOf) (hne : shapes ≠ []) (h0 : ∀ s ∈ shapes, s ≠ [])
    (hr : ∀ s ∈ shapes, ∀ r ∈ s, r ≠ []) (sep : List Char) (hsep : sep = ['\n'] ∨ sep = ['\r', '\n']) :
    ∃ file sc, writeScc sep version S = .ok file ∧ readScc C within file = .ok sc ∧
      (sc.craters.map (fun c => (c.diam, c.lon, c.lat))).Perm
        (S.craters.map (fun c => (sciSigned 6 c.diam, roundTo 15 c.lon, roundTo 15 c.lat))) ∧
      sc.craters.Pairwise (fun a b => a.diam ≤ b.diam) ∧ sc.radius = sciSigned 5 S.radius := by
  have ht : taggedRings shapes ≠ [] := by
    cases shapes with
    | nil => exact absurd rfl hne
    | cons s ss =>
      cases s with
      | nil => exact absurd rfl (h0 _ List.mem_cons_self)
      | cons r rs => intro e; cases e
  obtain ⟨file, h1, h2⟩ := scc_roundtrip C within h shapes hS hr ht sep hsep
  refine ⟨file, _, h1, h2, ?_, ?_, rfl⟩
  · have := (List.perm_insertionSort (fun a b : Crater => a.diam ≤ b.diam) (S.craters.map storedCrater)).map (fun c => (c.diam, c.lon, c.lat))
    rw [List.map_map] at this
    exact this
  · have : Std.Total (fun a b : Crater => a.diam ≤ b.diam) := ⟨fun a b => le_total _ _⟩
    have : IsTrans Crater (fun a b : Crater => a.diam ≤ b.diam) := ⟨fun a b c h1 h2 => le_trans h1 h2⟩
    exact List.pairwise_insertionSort _ _

/-- C77: the fractions of the craters are written to the file but are never read from it: every crater read has the fraction 1. -/
theorem C77_fraction_counterexample (C : Classes) (within : List Pt → List Pt → Bool) {version : List Char} {S : Source}
    (h : SourceOk version S) (shapes : List (List (List Pt))) (hS : S.sa = shapes.map shapeOf) (hne : shapes ≠ []) (h0 : ∀ s ∈ shapes, s ≠ [])
    (hr : ∀ s ∈ shapes, ∀ r ∈ s, r ≠ []) (sep : List Char) (hsep : sep = ['\n'] ∨ sep = ['\r', '\n']) :
    ∃ file sc, writeScc sep version S = .ok file ∧ readScc C within file = .ok sc ∧ sc.craters.length = S.craters.length ∧
      ∀ c ∈ sc.craters, c.fraction = 1 := by
  have ht : taggedRings shapes ≠ [] := by
    cases shapes with
    | nil => exact absurd rfl hne
    | cons s ss =>
      cases s with
      | nil => exact absurd rfl (h0 _ List.mem_cons_self)
      | cons r rs => intro e; cases e
  obtain ⟨file, h1, h2⟩ := scc_roundtrip C within h shapes hS hr ht sep hsep
  refine ⟨file, _, h1, h2, ?_, ?_⟩
  · show (List.insertionSort _ (S.craters.map storedCrater)).length = _
    rw [List.length_insertionSort, List.length_map]
  · intro c hc
    have hc' := (List.mem_insertionSort _).1 hc
    obtain ⟨c', _, rfl⟩ := List.mem_map.1 hc'
    rfl

/-! an example: an area with a hole, and another area -/

def exampleSource : Source :=
  { sa := [shapeOf [[(0, 0), (0, 4), (4, 4), (0, 0)], [(1, 2), (1, 3), (2, 3), (1, 2)]], shapeOf [[(10, 0), (10, 1), (11, 1), (10, 0)]]],
    craters := [⟨2, 1, 1, 1⟩, ⟨1/2, 3/10, 21/2, 1/2⟩], radius := 17374/10, area := 100, perimeter := 50,
    notes := ("written now".toList, "area.shp".toList) }

example : SourceOk "3.7".toList exampleSource := ⟨by unfold Plain; decide +kernel, by decide, by unfold PlainLine; decide +kernel,
  by unfold PlainLine; decide +kernel⟩

example : [[[((0 : ℚ), (0 : ℚ)), (0, 4), (4, 4), (0, 0)], [(1, 2), (1, 3), (2, 3), (1, 2)]], [[(10, 0), (10, 1), (11, 1), (10, 0)]]].map shapeOf =
    exampleSource.sa := rfl

/-- the hypotheses on the rings, for rings compared by their first point only -/
example : let within := fun (a b : List Pt) => decide ((a.headD (0, 0)).1 < ((b.getLastD (0, 0)).1 + 4))
    (∀ r ∈ [[((1 : ℚ), (2 : ℚ)), (1, 3), (2, 3), (1, 2)]], within (storedRing r) (storedRing [(0, 0), (0, 4), (4, 4), (0, 0)]) = true) ∧
    within (storedRing [(10, 0), (10, 1), (11, 1), (10, 0)]) (storedRing [(0, 0), (0, 4), (4, 4), (0, 0)]) = false := by decide +kernel

end Verif.Props
