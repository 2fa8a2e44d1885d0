import Verif.Model.TextStructure
import Verif.Py.RegexStar

/-! Property C35: splitting lines with quoted fields. -/

namespace Verif.Props

open Verif.Py Verif.Text

/-- Specification: quotation marks written with a backslash. -/
def escQuote (q : Char) (f : List Char) : List Char := f.flatMap (fun c => if c = q then ['\\', q] else [c])

/-- Specification: how a field may be written: as it is, if it has no separators, does not begin with a quotation mark, and has no
backslash before a quotation mark; or between quotation marks, with those in it escaped, if it has no backslash. -/
inductive FieldText (sep : Char → Bool) : List Char → List Char → Prop
  | plain (f : List Char) : f ≠ [] → (∀ c ∈ f, sep c = false) → (∀ c ∈ f.head?, c ≠ '"' ∧ c ≠ '\'') →
      (∀ a b, f ≠ a ++ '\\' :: '"' :: b ∧ f ≠ a ++ '\\' :: '\'' :: b) → FieldText sep f f
  | quoted (q : Char) (f : List Char) : q = '"' ∨ q = '\'' → '\\' ∉ f → FieldText sep (q :: escQuote q f ++ [q]) f

/-- Specification: a line of fields between separators. -/
inductive FieldLine (sep : Char → Bool) : List Char → List (List Char) → Prop
  | done (g : List Char) : (∀ c ∈ g, sep c = true) → FieldLine sep g []
  | field (g t rest f : List Char) (fs : List (List Char)) : (∀ c ∈ g, sep c = true) → FieldText sep t f →
      (∀ c ∈ rest.head?, sep c = true) → FieldLine sep rest fs → FieldLine sep (g ++ t ++ rest) (f :: fs)

theorem replace2_noop {a1 a2 : Char} (r : List Char) {s : List Char} (h : ∀ a b, s ≠ a ++ a1 :: a2 :: b) :
    replace2 a1 a2 r s = s := by
  induction s with
  | nil => rfl
  | cons c l ih =>
    have hl : replace2 a1 a2 r l = l := ih (fun a b e => h (c :: a) b (by rw [e]; rfl))
    cases l with
    | nil => rfl
    | cons d l =>
      rw [replace2, if_neg, hl]
      rintro ⟨rfl, rfl⟩
      exact h [] l rfl

theorem escQuote_cons (q c : Char) (f : List Char) :
    escQuote q (c :: f) = (if c = q then ['\\', q] else [c]) ++ escQuote q f := by
  rw [escQuote, List.flatMap_cons]; rfl

theorem replace2_cons_ne {a1 a2 c : Char} (r l : List Char) (hc : c ≠ a1) :
    replace2 a1 a2 r (c :: l) = c :: replace2 a1 a2 r l := by
  cases l with
  | nil => rfl
  | cons d l => rw [replace2, if_neg (fun h => hc h.1)]

theorem replace2_esc (q : Char) {f : List Char} (h : '\\' ∉ f) : replace2 '\\' q [q] (escQuote q f) = f := by
  induction f with
  | nil => rfl
  | cons c f ih =>
    rw [List.mem_cons, not_or] at h
    rw [escQuote_cons]
    by_cases hc : c = q
    · subst hc
      rw [if_pos rfl]
      show replace2 _ _ _ ('\\' :: c :: escQuote c f) = _
      rw [replace2, if_pos ⟨rfl, rfl⟩, ih h.2]
      rfl
    · rw [if_neg hc, List.singleton_append, replace2_cons_ne _ _ (Ne.symm h.1), ih h.2]

/-- escaping puts a backslash only before `q` -/
theorem escQuote_pair {q r : Char} (hr : r ≠ q) (hr' : r ≠ '\\') {f : List Char} (h : '\\' ∉ f) (a b : List Char) :
    escQuote q f ≠ a ++ '\\' :: r :: b := by
  induction f generalizing a with
  | nil =>
    intro e
    cases a <;> simp [escQuote] at e
  | cons c f ih =>
    rw [List.mem_cons, not_or] at h
    intro e
    rw [escQuote_cons] at e
    by_cases hc : c = q
    · rw [if_pos hc] at e
      cases a with
      | nil =>
        simp at e
        exact hr e.1.symm
      | cons x a =>
        cases a with
        | nil =>
          simp at e
          -- the quotation mark would be a backslash
          have : q ≠ '\\' := by rw [← hc]; exact Ne.symm h.1
          exact this e.2.1
        | cons y a =>
          simp at e
          exact ih h.2 a e.2.2
    · rw [if_neg hc] at e
      cases a with
      | nil =>
        simp at e
        exact h.1 e.1.symm
      | cons x a =>
        simp at e
        exact ih h.2 a e.2

theorem not_mem_pair {a1 a2 : Char} {s : List Char} (h : a1 ∉ s) (a b : List Char) : s ≠ a ++ a1 :: a2 :: b := by
  rintro rfl
  exact h (by simp)

theorem cleanField_text {sep : Char → Bool} {t f : List Char} (h : FieldText sep t f) : cleanField t = f := by
  cases h with
  | plain _ hne hs hh hb =>
    have h1 : stripQuotes t = t := by
      unfold stripQuotes
      split
      · rename_i c d l
        rw [if_neg]
        rintro ⟨_, hq⟩
        have := hh c (by simp)
        rcases hq with rfl | rfl
        · exact this.1 rfl
        · exact this.2 rfl
      · rfl
    rw [cleanField, h1, replace2_noop _ (fun a b => (hb a b).1), replace2_noop _ (fun a b => (hb a b).2)]
  | quoted q _ hq hb =>
    have h1 : stripQuotes (q :: escQuote q f ++ [q]) = escQuote q f := by
      rw [List.cons_append]
      cases hx : escQuote q f ++ [q] with
      | nil => simp at hx
      | cons d l =>
        rw [stripQuotes, ← hx, if_pos]
        · simp
        · exact ⟨by simp, hq⟩
    rw [cleanField, h1]
    rcases hq with rfl | rfl
    · rw [replace2_esc _ hb, replace2_noop _ (fun a b => not_mem_pair hb a b)]
    · rw [replace2_noop _ (fun a b => escQuote_pair (by decide) (by decide) hb a b), replace2_esc _ hb]

/-- the body of a quotation -/
def quotedBody (q : Char) : Re := .alt (.seq (.lit '\\') .dot) (.chr (fun c => c != q))

theorem quotedBody_plain {q c : Char} (hc : c ≠ q) (hb : c ≠ '\\') (pre l : List Char) (caps) :
    (quotedBody q).run ⟨pre, c :: l, caps⟩ = [⟨c :: pre, l, caps⟩] := by
  have h1 : (Re.seq (.lit '\\') .dot).run ⟨pre, c :: l, caps⟩ = [] := by
    rw [run_seq]
    have : (Re.lit '\\').run ⟨pre, c :: l, caps⟩ = [] := by
      show (Re.chr _).run _ = _
      rw [run_chr_cons]; simp [hb]
    rw [this]; rfl
  rw [quotedBody, run_alt, h1, List.nil_append, run_chr_cons]
  simp [hc]

theorem quotedBody_esc {q : Char} (hq : q ≠ '\n') (pre l : List Char) (caps) :
    ((quotedBody q).run ⟨pre, '\\' :: q :: l, caps⟩).head? = some ⟨q :: '\\' :: pre, l, caps⟩ := by
  have h1 : (Re.seq (.lit '\\') .dot).run ⟨pre, '\\' :: q :: l, caps⟩ = [⟨q :: '\\' :: pre, l, caps⟩] := by
    rw [run_seq]
    have : (Re.lit '\\').run ⟨pre, '\\' :: q :: l, caps⟩ = [⟨'\\' :: pre, q :: l, caps⟩] := by
      show (Re.chr _).run _ = _
      rw [run_chr_cons]; simp
    rw [this, List.flatMap_cons, List.flatMap_nil, List.append_nil]
    show (Re.chr _).run _ = _
    rw [run_chr_cons]; simp [hq]
  rw [quotedBody, run_alt, h1]
  rfl

theorem quotedBody_close {q : Char} (hb : q ≠ '\\') (pre l : List Char) (caps) :
    (quotedBody q).run ⟨pre, q :: l, caps⟩ = [] := by
  have h1 : (Re.seq (.lit '\\') .dot).run ⟨pre, q :: l, caps⟩ = [] := by
    rw [run_seq]
    have : (Re.lit '\\').run ⟨pre, q :: l, caps⟩ = [] := by
      show (Re.chr _).run _ = _
      rw [run_chr_cons]; simp [hb]
    rw [this]; rfl
  rw [quotedBody, run_alt, h1, List.nil_append, run_chr_cons]
  simp

theorem quoted_star (q : Char) (hq : q = '"' ∨ q = '\'') (f : List Char) (hf : '\\' ∉ f) (tail : List Char) (n : ℕ) (pre : List Char)
    (caps) (hn : (escQuote q f ++ q :: tail).length ≤ n) :
    (starRun (quotedBody q).run true n ⟨pre, escQuote q f ++ q :: tail, caps⟩).head? =
      some ⟨(escQuote q f).reverse ++ pre, q :: tail, caps⟩ := by
  have hqb : q ≠ '\\' ∧ q ≠ '\n' := by rcases hq with rfl | rfl <;> decide
  induction f generalizing n pre with
  | nil =>
    cases n with
    | zero => simp [escQuote] at hn
    | succ n =>
      rw [starRun_head]
      have : (quotedBody q).run ⟨pre, escQuote q [] ++ q :: tail, caps⟩ = [] := quotedBody_close hqb.1 _ _ _
      rw [this]
      rfl
  | cons c f ih =>
    rw [List.mem_cons, not_or] at hf
    cases n with
    | zero => rw [List.length_append, List.length_cons] at hn; omega
    | succ n =>
      rw [starRun_head]
      by_cases hc : c = q
      · subst hc
        have e : escQuote c (c :: f) = '\\' :: c :: escQuote c f := by rw [escQuote_cons, if_pos rfl]; rfl
        rw [e] at hn ⊢
        have hb := quotedBody_esc hqb.2 pre (escQuote c f ++ c :: tail) caps
        cases hrun : (quotedBody c).run ⟨pre, '\\' :: c :: escQuote c f ++ c :: tail, caps⟩ with
        | nil => rw [List.cons_append, List.cons_append] at hrun; rw [hrun] at hb; simp at hb
        | cons x xs =>
          rw [List.cons_append, List.cons_append] at hrun
          rw [hrun] at hb
          simp only [List.head?_cons, Option.some.injEq] at hb
          subst hb
          rw [List.filter_cons, if_pos (by simp; omega), List.head?_cons]
          simp only
          rw [ih hf.2 n _ (by simp at hn ⊢; omega)]
          simp
      · have e : escQuote q (c :: f) = c :: escQuote q f := by rw [escQuote_cons, if_neg hc]; rfl
        rw [e] at hn ⊢
        rw [List.cons_append, quotedBody_plain hc (Ne.symm hf.1), List.filter_cons, if_pos (by simp), List.head?_cons]
        simp only
        rw [ih hf.2 n _ (by simp at hn ⊢; omega)]
        simp

theorem quotedRe_head (q : Char) (hq : q = '"' ∨ q = '\'') (f : List Char) (hf : '\\' ∉ f) (tail pre : List Char) (caps) :
    ((quotedRe q).run ⟨pre, q :: escQuote q f ++ [q] ++ tail, caps⟩).head? =
      some ⟨(q :: escQuote q f ++ [q]).reverse ++ pre, tail, caps⟩ := by
  have h1 : ((Re.lit q).run ⟨pre, q :: escQuote q f ++ [q] ++ tail, caps⟩).head? =
      some ⟨q :: pre, escQuote q f ++ q :: tail, caps⟩ := by
    show ((Re.chr _).run _).head? = _
    rw [List.cons_append, List.cons_append, run_chr_cons]; simp
  refine seq_head h1 ?_
  have h2 : ((Re.many (quotedBody q)).run ⟨q :: pre, escQuote q f ++ q :: tail, caps⟩).head? = _ :=
    quoted_star q hq f hf tail _ (q :: pre) caps le_rfl
  refine seq_head h2 ?_
  show ((Re.chr _).run _).head? = _
  rw [run_chr_cons]; simp

theorem quotedRe_none {q c : Char} (h : c ≠ q) (pre l : List Char) (caps) : (quotedRe q).run ⟨pre, c :: l, caps⟩ = [] := by
  rw [quotedRe, run_seq]
  have : (Re.lit q).run ⟨pre, c :: l, caps⟩ = [] := by
    show (Re.chr _).run _ = _
    rw [run_chr_cons]; simp [h]
  rw [this]; rfl

/-- a field is found where it begins -/
theorem fieldRe_head {sep : Char → Bool} (hsep : sep '"' = false ∧ sep '\'' = false) {t f : List Char} (h : FieldText sep t f)
    (rest pre : List Char) (hr : ∀ c ∈ rest.head?, sep c = true) :
    ((fieldRe sep).run ⟨pre, t ++ rest, []⟩).head? = some ⟨t.reverse ++ pre, rest, []⟩ := by
  cases h with
  | plain _ hne hs hh hb =>
    cases t with
    | nil => exact absurd rfl hne
    | cons c l =>
      have hc := hh c (by simp)
      rw [fieldRe, run_alt, run_alt, List.cons_append, quotedRe_none hc.1, quotedRe_none hc.2, List.nil_append, List.nil_append,
        some1_head _ _ c (l ++ rest) rfl (by simp [hs c (by simp)])]
      have hrun : runLen (fun c => !sep c) (c :: (l ++ rest)) = (c :: l).length := by
        rw [← List.cons_append, runLen_append (fun d hd => by simp [hs d hd])]
        cases rest with
        | nil => simp [runLen]
        | cons x rest => rw [runLen_cons_neg (by simp [hr x (by simp)])]; rfl
      rw [hrun]
      simp [St.adv]
  | quoted q _ hq hb =>
    rw [fieldRe, run_alt]
    have hd := quotedRe_head q hq f hb rest pre []
    rcases hq with rfl | rfl
    · rw [List.head?_append, hd]; rfl
    · rw [run_alt]
      have : (quotedRe '"').run ⟨pre, '\'' :: escQuote '\'' f ++ ['\''] ++ rest, []⟩ = [] := by
        rw [List.cons_append, List.cons_append, quotedRe_none (by decide)]
      rw [this, List.nil_append, List.head?_append, hd]; rfl

/-- nothing is found at a separator -/
theorem fieldRe_sep {sep : Char → Bool} (hsep : sep '"' = false ∧ sep '\'' = false) {c : Char} (hc : sep c = true)
    (pre l : List Char) : (fieldRe sep).run ⟨pre, c :: l, []⟩ = [] := by
  have h1 : c ≠ '"' := by rintro rfl; rw [hsep.1] at hc; cases hc
  have h2 : c ≠ '\'' := by rintro rfl; rw [hsep.2] at hc; cases hc
  rw [fieldRe, run_alt, run_alt, quotedRe_none h1, quotedRe_none h2, List.nil_append, List.nil_append, Re.some1, run_seq,
    run_chr_cons, hc]
  rfl

theorem fieldRe_skip {sep : Char → Bool} (hsep : sep '"' = false ∧ sep '\'' = false) (g pre l : List Char)
    (hg : ∀ c ∈ g, sep c = true) : (fieldRe sep).searchFrom pre (g ++ l) = (fieldRe sep).searchFrom (g.reverse ++ pre) l := by
  induction g generalizing pre with
  | nil => rfl
  | cons c g ih =>
    rw [List.cons_append, searchFrom_skip (fieldRe_sep hsep (hg c (by simp)) _ _), ih _ (fun d hd => hg d (by simp [hd]))]
    simp

theorem fieldText_ne_nil {sep : Char → Bool} {t f : List Char} (h : FieldText sep t f) : t ≠ [] := by
  cases h with
  | plain _ h => exact h
  | quoted => simp

theorem fieldLine_iter {sep : Char → Bool} (hsep : sep '"' = false ∧ sep '\'' = false) {s : List Char} {fs : List (List Char)}
    (h : FieldLine sep s fs) (n : ℕ) (pre : List Char) (hn : s.length < n) :
    ((fieldRe sep).findIter n pre s).map (fun m => cleanField (matched m.1 m.2)) = fs := by
  induction h generalizing n pre with
  | done g hg =>
    cases n with
    | zero => omega
    | succ n =>
      have : (fieldRe sep).searchFrom pre g = none := by
        have := fieldRe_skip hsep g pre [] hg
        rw [List.append_nil] at this
        rw [this]
        rfl
      rw [Re.findIter, this]
      rfl
  | field g t rest f fs hg ht hr _ ih =>
    cases n with
    | zero => omega
    | succ n =>
      have hne := fieldText_ne_nil ht
      have hlt : rest.length < (t ++ rest).length := by
        have := List.length_pos_of_ne_nil hne
        rw [List.length_append]; omega
      rw [Re.findIter, List.append_assoc, fieldRe_skip hsep g pre _ hg, searchFrom_here (fieldRe_head hsep ht rest _ hr)]
      simp only
      rw [if_pos hlt, List.map_cons, ih n _ (by simp only [List.length_append] at hn hlt; omega)]
      congr 1
      rw [matched_step (w := t) rfl]
      exact cleanField_text ht

/-- **C35.** Splitting a line of fields returns exactly the fields: fields without separators may stand as they are, all others
between single or double quotation marks with those in the field escaped by a backslash. -/
theorem C35_fields_partial (sep : Char → Bool) (hsep : sep '"' = false ∧ sep '\'' = false) (s : List Char) (fs : List (List Char))
    (h : FieldLine sep s fs) : quotedSplit sep s = fs := fieldLine_iter hsep h _ [] (Nat.lt_succ_self _)

/-- every list of fields without backslashes can be written -/
theorem C35_writable (sep : Char → Bool) (hsp : sep ' ' = true) (fs : List (List Char)) (h : ∀ f ∈ fs, '\\' ∉ f) :
    FieldLine sep (fs.flatMap (fun f => ' ' :: ('"' :: escQuote '"' f ++ ['"']))) fs := by
  induction fs with
  | nil => exact .done [] (by simp)
  | cons f fs ih =>
    have := FieldLine.field [' '] ('"' :: escQuote '"' f ++ ['"']) _ f fs (by simp [hsp])
      (.quoted '"' f (Or.inl rfl) (h f (by simp))) (by
        intro c hc
        cases fs with
        | nil => simp at hc
        | cons g fs => simp at hc; rw [← hc]; exact hsp) (ih (fun g hg => h g (by simp [hg])))
    rw [List.flatMap_cons]
    simpa using this

/-- quoted and plain fields, an apostrophe within a field, an escaped quotation mark -/
example : quotedSplit asciiSpace "  9684 'test data' O'Brien \"a \\\"b\\\"\"\t\"\" ".toList =
    ["9684".toList, "test data".toList, "O'Brien".toList, "a \"b\"".toList, []] := by decide +kernel

/-- **C35** fails for a quoted field ending in a backslash: it takes the following field with it. -/
theorem C35_backslash_counterexample :
    quotedSplit asciiSpace "'C:\\data set\\' 'b c'".toList = ["C:\\data set' ".toList, "b".toList, "c'".toList] := by decide +kernel

end Verif.Props
