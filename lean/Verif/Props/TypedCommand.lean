import Verif.Props.CommandFile

/-! Property C114: command files typed by hand (`-i file`). -/

namespace Verif.Props

open Verif.Py Verif.Cli

/-- Specification: characters which stand for themselves outside quotations: no space, tab, line break, quote or backslash. -/
def PlainChar (c : Char) : Prop := c ≠ ' ' ∧ c ≠ '\t' ∧ c ≠ '\r' ∧ c ≠ '\n' ∧ c ≠ '\'' ∧ c ≠ '"' ∧ c ≠ '\\'

instance (c : Char) : Decidable (PlainChar c) := by unfold PlainChar; infer_instance

/-- Specification: the text between double quotes and its meaning: a backslash before a double quote or a backslash is dropped,
before any other character it is kept. -/
inductive InDouble : List Char → List Char → Prop
  | nil : InDouble [] []
  | plain (c : Char) (hc : c ≠ '"' ∧ c ≠ '\\' ∧ c ≠ '\n') {t a : List Char} (h : InDouble t a) : InDouble (c :: t) (c :: a)
  | dropped (c : Char) (hc : c = '"' ∨ c = '\\') {t a : List Char} (h : InDouble t a) : InDouble ('\\' :: c :: t) (c :: a)
  | kept (c : Char) (hc : c ≠ '"' ∧ c ≠ '\\' ∧ c ≠ '\n') {t a : List Char} (h : InDouble t a) :
      InDouble ('\\' :: c :: t) ('\\' :: c :: a)

/-- Specification: a piece of an argument as typed, and its meaning. -/
inductive Piece : List Char → List Char → Prop
  | bare (c : Char) (hc : PlainChar c) : Piece [c] [c]
  | escaped (c : Char) (hc : c ≠ '\n') : Piece ['\\', c] [c]
  | single (w : List Char) (hw : ∀ c ∈ w, c ≠ '\'' ∧ c ≠ '\n') : Piece ('\'' :: w ++ ['\'']) w
  | double {t a : List Char} (h : InDouble t a) : Piece ('"' :: t ++ ['"']) a

/-- Specification: an argument as typed: one or more pieces without blanks between them. -/
inductive Typed : List Char → List Char → Prop
  | one {t a : List Char} (h : Piece t a) : Typed t a
  | more {t a t' a' : List Char} (h : Piece t a) (h' : Typed t' a') : Typed (t ++ t') (a ++ a')

/-- Specification: spaces and tabs -/
def Blanks (s : List Char) : Prop := ∀ c ∈ s, c = ' ' ∨ c = '\t'

/-- Specification: arguments with blanks between them. -/
inductive TypedArgs : List Char → List (List Char) → Prop
  | last {t a s : List Char} (h : Typed t a) (hs : Blanks s) : TypedArgs (t ++ s) [a]
  | more {t a s r : List Char} {l : List (List Char)} (h : Typed t a) (hs : Blanks s) (hne : s ≠ []) (hr : TypedArgs r l) :
      TypedArgs (t ++ s ++ r) (a :: l)

/-- Specification: a line of the file and the arguments on it.  `white` is Python's white space. -/
inductive TypedLine (white : Char → Prop) : List Char → List (List Char) → Prop
  | blank (s : List Char) (hs : ∀ c ∈ s, white c ∧ c ≠ '\n') : TypedLine white s []
  | comment (s t : List Char) (hs : ∀ c ∈ s, white c ∧ c ≠ '\n') (ht : '\n' ∉ t) : TypedLine white (s ++ '#' :: t) []
  | args {s r : List Char} {l : List (List Char)} (hs : Blanks s) (hr : TypedArgs r l)
      (hh : ∀ c ∈ r.head?, c ≠ '#' ∧ ¬ white c) : TypedLine white (s ++ r) l

theorem ordinary_special {c : Char} (h : PlainChar c) : lexSpecial c = false := by
  obtain ⟨h1, h2, h3, h4, h5, h6, h7⟩ := h
  simp [lexSpecial, lexSpace, h1, h2, h3, h4, h5, h6, h7]

/-- the state at which an argument may begin or go on -/
def Ready (s : LexSt) : Prop := (s.mode = .space ∧ s.token = [] ∧ s.quoted = false) ∨ s.mode = .word

theorem lex_inDouble {t a : List Char} (h : InDouble t a) (tok : List Char) (q : Bool) (out : List (List Char)) :
    ∃ q', t.foldl lexStep ⟨.quote '"', tok, q, out⟩ = ⟨.quote '"', tok ++ a, q', out⟩ := by
  induction h generalizing tok q with
  | nil => exact ⟨q, by simp⟩
  | plain c hc h ih =>
    obtain ⟨q', h⟩ := ih (tok ++ [c]) true
    refine ⟨q', ?_⟩
    have e : lexStep ⟨.quote '"', tok, q, out⟩ c = ⟨.quote '"', tok ++ [c], true, out⟩ := by
      simp [lexStep, hc.1, hc.2.1]
    rw [List.foldl_cons, e, h]
    simp
  | dropped c hc h ih =>
    obtain ⟨q', h⟩ := ih (tok ++ [c]) true
    refine ⟨q', ?_⟩
    have e : lexStep (lexStep ⟨.quote '"', tok, q, out⟩ '\\') c = ⟨.quote '"', tok ++ [c], true, out⟩ := by
      rcases hc with rfl | rfl <;> simp [lexStep, escapeBack, escapeKeep]
    rw [List.foldl_cons, List.foldl_cons, e, h]
    simp
  | kept c hc h ih =>
    obtain ⟨q', h⟩ := ih (tok ++ ['\\', c]) true
    refine ⟨q', ?_⟩
    have e : lexStep (lexStep ⟨.quote '"', tok, q, out⟩ '\\') c = ⟨.quote '"', tok ++ ['\\', c], true, out⟩ := by
      simp [lexStep, escapeBack, escapeKeep, hc.1, hc.2.1]
    rw [List.foldl_cons, List.foldl_cons, e, h]
    simp

theorem lex_single (w : List Char) (hw : ∀ c ∈ w, c ≠ '\'') (tok : List Char) (q : Bool) (out : List (List Char)) :
    ∃ q', w.foldl lexStep ⟨.quote '\'', tok, q, out⟩ = ⟨.quote '\'', tok ++ w, q', out⟩ := by
  induction w generalizing tok q with
  | nil => exact ⟨q, by simp⟩
  | cons c w ih =>
    obtain ⟨q', h⟩ := ih (fun d hd => hw d (by simp [hd])) (tok ++ [c]) true
    refine ⟨q', ?_⟩
    have e : lexStep ⟨.quote '\'', tok, q, out⟩ c = ⟨.quote '\'', tok ++ [c], true, out⟩ := by
      simp [lexStep, hw c (by simp)]
    rw [List.foldl_cons, e, h]
    simp

theorem open_quote (s : LexSt) (hs : Ready s) (c : Char) (hc : c = '\'' ∨ c = '"') :
    lexStep s c = ⟨.quote c, s.token, s.quoted, s.out⟩ := by
  obtain ⟨m, tok, q, out⟩ := s
  have h1 : lexSpace c = false := by rcases hc with rfl | rfl <;> decide
  have h2 : c ≠ '\\' := by rcases hc with rfl | rfl <;> decide
  rcases hs with ⟨h, _, _⟩ | h <;> simp only at h <;> subst h <;> simp [lexStep, h1, h2, hc]

theorem close_quote (tok : List Char) (q : Bool) (out : List (List Char)) (c : Char) :
    lexStep ⟨.quote c, tok, q, out⟩ c = ⟨.word, tok, true, out⟩ := by simp [lexStep]

theorem lex_piece {t a : List Char} (h : Piece t a) (s : LexSt) (hs : Ready s) :
    ∃ q, t.foldl lexStep s = ⟨.word, s.token ++ a, q, s.out⟩ ∧ (s.token ++ a ≠ [] ∨ q = true) := by
  cases h with
  | bare c hc =>
    obtain ⟨m, tok, q, out⟩ := s
    have h1 := ordinary_special hc
    simp only [lexSpecial, Bool.or_eq_false_iff, beq_eq_false_iff_ne] at h1
    obtain ⟨⟨⟨h1, h2⟩, h3⟩, h4⟩ := h1
    refine ⟨q, ?_, Or.inl (by simp)⟩
    rcases hs with ⟨h, ht, _⟩ | h
    · simp only at h ht
      subst h; subst ht
      simp [lexStep, h1, h2, h3, h4]
    · simp only at h
      subst h
      simp [lexStep, h1, h2, h3, h4]
  | escaped c hc =>
    obtain ⟨m, tok, q, out⟩ := s
    refine ⟨q, ?_, Or.inl (by simp)⟩
    have h1 : lexSpace '\\' = false := by decide
    rcases hs with ⟨h, ht, _⟩ | h
    · simp only at h ht
      subst h; subst ht
      simp [lexStep, h1, escapeBack, escapeKeep]
    · simp only at h
      subst h
      simp [lexStep, h1, escapeBack, escapeKeep]
  | single w hw =>
    obtain ⟨q', h⟩ := lex_single a (fun c hc => (hw c hc).1) s.token s.quoted s.out
    refine ⟨true, ?_, Or.inr rfl⟩
    rw [List.cons_append, List.foldl_cons, open_quote s hs _ (Or.inl rfl), List.foldl_append, h, List.foldl_cons, List.foldl_nil,
      close_quote]
  | double hd =>
    obtain ⟨q', h⟩ := lex_inDouble hd s.token s.quoted s.out
    refine ⟨true, ?_, Or.inr rfl⟩
    rw [List.cons_append, List.foldl_cons, open_quote s hs _ (Or.inr rfl), List.foldl_append, h, List.foldl_cons, List.foldl_nil,
      close_quote]

theorem lex_typed {t a : List Char} (h : Typed t a) (s : LexSt) (hs : Ready s) :
    ∃ q, t.foldl lexStep s = ⟨.word, s.token ++ a, q, s.out⟩ ∧ (s.token ++ a ≠ [] ∨ q = true) := by
  induction h generalizing s with
  | one h => exact lex_piece h s hs
  | more h h' ih =>
    obtain ⟨q, e, _⟩ := lex_piece h s hs
    obtain ⟨q', e', he'⟩ := ih ⟨.word, _, q, s.out⟩ (Or.inr rfl)
    refine ⟨q', ?_, ?_⟩
    · rw [List.foldl_append, e, e', List.append_assoc]
    · rw [← List.append_assoc]; exact he'

/-- the state after complete arguments -/
def Done (s : LexSt) (l : List (List Char)) : Prop :=
  s = ⟨.space, [], false, l⟩ ∨ ∃ tok q out, s = ⟨.word, tok, q, out⟩ ∧ (tok ≠ [] ∨ q = true) ∧ out ++ [tok] = l

theorem done_space {s : LexSt} {l : List (List Char)} (h : Done s l) (c : Char) (hc : lexSpace c = true) :
    lexStep s c = ⟨.space, [], false, l⟩ := by
  rcases h with rfl | ⟨tok, q, out, rfl, h, rfl⟩
  · simp [lexStep, hc, LexSt.emit]
  · simp only [lexStep, hc, if_true, LexSt.emit, ne_eq]
    rw [if_pos h]

theorem blank_space {c : Char} (h : c = ' ' ∨ c = '\t') : lexSpace c = true := by
  rcases h with rfl | rfl <;> decide

theorem done_blanks {s : LexSt} {l : List (List Char)} (h : Done s l) (b : List Char) (hb : Blanks b) :
    Done (b.foldl lexStep s) l ∧ (b ≠ [] → b.foldl lexStep s = ⟨.space, [], false, l⟩) := by
  induction b generalizing s with
  | nil => exact ⟨h, fun h => absurd rfl h⟩
  | cons c b ih =>
    have e := done_space h c (blank_space (hb c (by simp)))
    have := @ih ⟨.space, [], false, l⟩ (Or.inl rfl) (fun d hd => hb d (by simp [hd]))
    rw [List.foldl_cons, e]
    refine ⟨this.1, fun _ => ?_⟩
    cases b with
    | nil => rfl
    | cons d b => exact this.2 (by simp)

theorem lex_typedArgs {t : List Char} {l : List (List Char)} (h : TypedArgs t l) (pre : List (List Char)) :
    Done (t.foldl lexStep ⟨.space, [], false, pre⟩) (pre ++ l) := by
  induction h generalizing pre with
  | last h hs =>
    obtain ⟨q, e, hq⟩ := lex_typed h ⟨.space, [], false, pre⟩ (Or.inl ⟨rfl, rfl, rfl⟩)
    rw [List.foldl_append, e]
    refine (done_blanks (Or.inr ⟨_, _, _, rfl, hq, ?_⟩) _ hs).1
    simp
  | @more t a s r l h hs hne hr ih =>
    obtain ⟨q, e, hq⟩ := lex_typed h ⟨.space, [], false, pre⟩ (Or.inl ⟨rfl, rfl, rfl⟩)
    rw [List.foldl_append, List.foldl_append, e]
    have := (done_blanks (l := pre ++ [a]) (Or.inr ⟨_, _, pre, rfl, hq, by simp⟩) _ hs).2 hne
    rw [this]
    have := ih (pre ++ [a])
    simpa using this

theorem piece_ne {t a : List Char} (h : Piece t a) : t ≠ [] ∧ '\n' ∉ t := by
  cases h with
  | bare c hc => exact ⟨by simp, by simpa using Ne.symm hc.2.2.2.1⟩
  | escaped c hc => exact ⟨by simp, by simpa using Ne.symm hc⟩
  | single w hw =>
    refine ⟨by simp, ?_⟩
    intro hm
    simp at hm
    exact (hw _ hm).2 rfl
  | double hd =>
    refine ⟨by simp, ?_⟩
    intro hm
    simp at hm
    induction hd with
    | nil => simp at hm
    | plain c hc h ih =>
      rcases List.mem_cons.1 hm with rfl | hm
      · exact hc.2.2 rfl
      · exact ih hm
    | dropped c hc h ih =>
      rcases List.mem_cons.1 hm with h | hm
      · cases h
      rcases List.mem_cons.1 hm with rfl | hm
      · rcases hc with h | h <;> cases h
      · exact ih hm
    | kept c hc h ih =>
      rcases List.mem_cons.1 hm with h | hm
      · cases h
      rcases List.mem_cons.1 hm with rfl | hm
      · exact hc.2.2 rfl
      · exact ih hm

theorem typed_ne {t a : List Char} (h : Typed t a) : t ≠ [] ∧ '\n' ∉ t := by
  induction h with
  | one h => exact piece_ne h
  | more h h' ih =>
    have := piece_ne h
    refine ⟨by simp [this.1], ?_⟩
    simp [this.2, ih.2]

theorem blanks_nl {s : List Char} (h : Blanks s) : '\n' ∉ s := by
  intro hm
  rcases h _ hm with h | h <;> cases h

theorem typedArgs_ne {t : List Char} {l : List (List Char)} (h : TypedArgs t l) : t ≠ [] ∧ '\n' ∉ t := by
  induction h with
  | last h hs =>
    have := typed_ne h
    exact ⟨by simp [this.1], by simp [this.2, blanks_nl hs]⟩
  | more h hs hne hr ih =>
    have := typed_ne h
    exact ⟨by simp [this.1], by simp [this.2, blanks_nl hs, ih.2]⟩

theorem strip_head {p : Char → Bool} (s : List Char) (hs : ∀ c ∈ s, p c = true) (c : Char) (hc : p c = false) (t : List Char) :
    ∃ t', strip p (s ++ c :: t) = c :: t' := by
  have hl : lstrip p (s ++ c :: t) = c :: t := by
    rw [lstrip, dropWhile_append_of_all hs, List.dropWhile_cons_of_neg (by simp [hc])]
  rw [strip, hl, rstrip]
  clear hl
  induction t using List.reverseRecOn with
  | nil => exact ⟨[], by rw [List.rdropWhile_singleton]; simp [hc]⟩
  | append_singleton l d ih =>
    rw [← List.cons_append]
    by_cases hd : p d = true
    · rw [List.rdropWhile_concat_pos _ _ _ hd]; exact ih
    · rw [List.rdropWhile_concat_neg _ _ _ hd]; exact ⟨l ++ [d], by simp⟩

theorem strip_all {p : Char → Bool} (s : List Char) (hs : ∀ c ∈ s, p c = true) : strip p s = [] := by
  have : lstrip p s = [] := by
    rw [lstrip]
    have := dropWhile_append_of_all (s := []) hs
    simpa using this
  rw [strip, this]
  rfl

theorem blank_white (C : Classes) {c : Char} (h : c = ' ' ∨ c = '\t') : C.space c = true := by
  rcases h with rfl | rfl <;> rw [C.space_ascii _ (by decide)] <;> decide

/-- what becomes of a line -/
theorem typedLine_keep (C : Classes) {t : List Char} {l : List (List Char)} (h : TypedLine (fun c => C.space c = true) t l) :
    '\n' ∉ t ∧ ((keepLine C t = false ∧ l = []) ∨ (keepLine C t = true ∧
      ∀ st pre, st = ⟨.space, [], false, pre⟩ → Done (t.foldl lexStep st) (pre ++ l))) := by
  cases h with
  | blank s hs =>
    refine ⟨fun hm => (hs _ hm).2 rfl, Or.inl ⟨?_, rfl⟩⟩
    rw [keepLine, strip_all _ (fun c hc => (hs c hc).1)]
    rfl
  | comment s t hs ht =>
    refine ⟨?_, Or.inl ⟨?_, rfl⟩⟩
    · intro hm
      rcases List.mem_append.1 hm with hm | hm
      · exact (hs _ hm).2 rfl
      · rcases List.mem_cons.1 hm with h | h
        · cases h
        · exact ht h
    · obtain ⟨t', e⟩ := strip_head (p := C.space) s (fun c hc => (hs c hc).1) '#'
        (by rw [C.space_ascii _ (by decide)]; decide) t
      rw [keepLine, e]
      simp
  | @args s r l hs hr hh =>
    obtain ⟨hne, hnl⟩ := typedArgs_ne hr
    refine ⟨by simp [blanks_nl hs, hnl], Or.inr ⟨?_, ?_⟩⟩
    · cases r with
      | nil => exact absurd rfl hne
      | cons c r =>
        obtain ⟨h1, h2⟩ := hh c (by simp)
        obtain ⟨t', e⟩ := strip_head (p := C.space) s (fun c hc => blank_white C (hs c hc)) c (by simpa using h2) r
        rw [keepLine, e]
        simp [h1]
    · rintro _ pre rfl
      rw [List.foldl_append]
      have : s.foldl lexStep ⟨.space, [], false, pre⟩ = ⟨.space, [], false, pre⟩ := by
        cases s with
        | nil => rfl
        | cons d s => exact (done_blanks (Or.inl rfl) _ hs).2 (by simp)
      rw [this]
      exact lex_typedArgs hr pre

theorem lex_lines (C : Classes) (ls : List (List Char × List (List Char)))
    (h : ∀ x ∈ ls, TypedLine (fun c => C.space c = true) x.1 x.2) :
    ∀ s pre, Done s pre →
      Done ((((ls.map Prod.fst).filter (keepLine C)).flatMap (['\n'] ++ ·)).foldl lexStep s) (pre ++ ls.flatMap Prod.snd) := by
  induction ls with
  | nil => intro s pre hs; simpa using hs
  | cons x ls ih =>
    intro s pre hs
    have ih := ih (fun y hy => h y (by simp [hy]))
    rcases (typedLine_keep C (h x (by simp))).2 with ⟨hk, he⟩ | ⟨hk, hd⟩
    · rw [List.map_cons, List.filter_cons_of_neg (by simp [hk])]
      simpa [he] using ih s pre hs
    · rw [List.map_cons, List.filter_cons_of_pos hk, List.flatMap_cons, List.foldl_append, List.singleton_append, List.foldl_cons,
        done_space hs '\n' (by decide)]
      have := ih _ _ (hd _ pre rfl)
      simpa using this

theorem lex_kept (C : Classes) (ls : List (List Char × List (List Char)))
    (h : ∀ x ∈ ls, TypedLine (fun c => C.space c = true) x.1 x.2) :
    Done ((join ['\n'] ((ls.map Prod.fst).filter (keepLine C))).foldl lexStep ⟨.space, [], false, []⟩) (ls.flatMap Prod.snd) := by
  induction ls with
  | nil => exact Or.inl rfl
  | cons x ls ih =>
    have ih := ih (fun y hy => h y (by simp [hy]))
    rcases (typedLine_keep C (h x (by simp))).2 with ⟨hk, he⟩ | ⟨hk, hd⟩
    · rw [List.map_cons, List.filter_cons_of_neg (by simp [hk])]
      simpa [he] using ih
    · rw [List.map_cons, List.filter_cons_of_pos hk, join_cons, List.foldl_append]
      have := lex_lines C ls (fun y hy => h y (by simp [hy])) _ _ (hd _ [] rfl)
      simpa using this

theorem done_ok {t : List Char} {l : List (List Char)} (h : Done (t.foldl lexStep ⟨.space, [], false, []⟩) l) :
    shlexSplit t = .ok l := by
  rw [shlexSplit]
  rcases h with h | ⟨tok, q, out, h, hq, rfl⟩
  · rw [h]; simp [LexSt.emit]
  · rw [h]
    simp only [LexSt.emit, ne_eq]
    rw [if_pos hq]

/-- **C114.** A command file typed by hand gives exactly the arguments written in it, line after line, comment lines and blank
lines left out, quotations and escapes taken off. -/
theorem C114_typed (C : Classes) (ls : List (List Char × List (List Char)))
    (h : ∀ x ∈ ls, TypedLine (fun c => C.space c = true) x.1 x.2) :
    loadArgs C (join ['\n'] (ls.map Prod.fst)) = .ok (ls.flatMap Prod.snd) := by
  by_cases hne : ls = []
  · subst hne
    refine done_ok ?_
    have : split '\n' (join ['\n'] (List.map Prod.fst ([] : List (List Char × List (List Char))))) = [[]] := by decide
    rw [this]
    have hk : keepLine C [] = false := by rw [keepLine, strip_all _ (by simp)]; rfl
    rw [List.filter_cons_of_neg (by simp [hk])]
    exact Or.inl rfl
  · rw [loadArgs, split_join (by simpa using hne)]
    · exact done_ok (lex_kept C ls h)
    · intro f hf
      obtain ⟨x, hx, rfl⟩ := List.mem_map.1 hf
      exact (typedLine_keep C (h x hx)).1

/-- **C114.** A quotation which is opened on the last line and never closed is an error: no argument is made up. -/
theorem C114_open_quotation (C : Classes) (ls : List (List Char × List (List Char)))
    (h : ∀ x ∈ ls, TypedLine (fun c => C.space c = true) x.1 x.2) (w a r : List Char) (hw : Typed w a)
    (hh : ∀ c ∈ w.head?, c ≠ '#' ∧ C.space c = false) (hr : ∀ c ∈ r, c ≠ '\'' ∧ c ≠ '\n') :
    loadArgs C (join ['\n'] (ls.map Prod.fst ++ [w ++ '\'' :: r])) = .error .value := by
  obtain ⟨hne, hnl⟩ := typed_ne hw
  have hkl : keepLine C (w ++ '\'' :: r) = true := by
    cases w with
    | nil => exact absurd rfl hne
    | cons c w =>
      obtain ⟨h1, h2⟩ := hh c (by simp)
      obtain ⟨t', e⟩ := strip_head (p := C.space) [] (by simp) c h2 (w ++ '\'' :: r)
      rw [List.nil_append] at e
      rw [keepLine, List.cons_append, e]
      simp [h1]
  have key : ∀ pre, ∃ tok q, (w ++ '\'' :: r).foldl lexStep ⟨.space, [], false, pre⟩ = ⟨.quote '\'', tok, q, pre⟩ := by
    intro pre
    obtain ⟨q, e, _⟩ := lex_typed hw ⟨.space, [], false, pre⟩ (Or.inl ⟨rfl, rfl, rfl⟩)
    rw [List.foldl_append, e, List.foldl_cons, open_quote _ (Or.inr rfl) _ (Or.inl rfl)]
    obtain ⟨q', e'⟩ := lex_single r (fun c hc => (hr c hc).1) ([] ++ a) q pre
    exact ⟨_, q', e'⟩
  have hsp : split '\n' (join ['\n'] (ls.map Prod.fst ++ [w ++ '\'' :: r])) = ls.map Prod.fst ++ [w ++ '\'' :: r] := by
    refine split_join (by simp) ?_
    intro f hf
    rcases List.mem_append.1 hf with hf | hf
    · obtain ⟨x, hx, rfl⟩ := List.mem_map.1 hf
      exact (typedLine_keep C (h x hx)).1
    · rw [List.mem_singleton] at hf
      subst hf
      intro hm
      simp [hnl] at hm
      exact (hr _ hm).2 rfl
  rw [loadArgs, hsp, List.filter_append, List.filter_cons_of_pos hkl, List.filter_nil]
  have hd := lex_kept C ls h
  have : ∃ tok q pre, (join ['\n'] ((ls.map Prod.fst).filter (keepLine C) ++ [w ++ '\'' :: r])).foldl lexStep ⟨.space, [], false, []⟩
      = ⟨.quote '\'', tok, q, pre⟩ := by
    cases hk : (ls.map Prod.fst).filter (keepLine C) with
    | nil =>
      obtain ⟨tok, q, e⟩ := key []
      exact ⟨tok, q, [], by simpa [join_cons] using e⟩
    | cons f fs =>
      rw [hk, join_cons] at hd
      obtain ⟨tok, q, e⟩ := key (ls.flatMap Prod.snd)
      refine ⟨tok, q, ls.flatMap Prod.snd, ?_⟩
      rw [List.cons_append, join_cons, List.flatMap_append, ← List.append_assoc, List.foldl_append, List.flatMap_cons,
        List.flatMap_nil, List.append_nil, List.singleton_append, List.foldl_cons, done_space hd '\n' (by decide)]
      exact e
  obtain ⟨tok, q, pre, e⟩ := this
  rw [shlexSplit, e]

theorem typed_path (parts : List (List Char)) (hne : parts ≠ []) (h : ∀ p ∈ parts, p ≠ [] ∧ ∀ c ∈ p, PlainChar c) :
    Typed (join ['\\'] parts) parts.flatten := by
  have bare : ∀ p : List Char, p ≠ [] → (∀ c ∈ p, PlainChar c) → Typed p p := by
    intro p
    induction p with
    | nil => intro h; exact absurd rfl h
    | cons c p ih =>
      intro _ hc
      by_cases hp : p = []
      · subst hp; exact Typed.one (Piece.bare c (hc c (by simp)))
      · exact Typed.more (Piece.bare c (hc c (by simp))) (ih hp (fun d hd => hc d (by simp [hd])))
  have app : ∀ {t a t' a' : List Char}, Typed t a → Typed t' a' → Typed (t ++ t') (a ++ a') := by
    intro t a t' a' ht ht'
    induction ht with
    | one h => exact Typed.more h ht'
    | more h _ ih => rw [List.append_assoc, List.append_assoc]; exact Typed.more h ih
  have tail : ∀ p : List Char, p ≠ [] → (∀ c ∈ p, PlainChar c) → Typed ('\\' :: p) p := by
    intro p hp hc
    cases p with
    | nil => exact absurd rfl hp
    | cons c p =>
      have h0 : Piece ['\\', c] [c] := Piece.escaped c (hc c (by simp)).2.2.2.1
      by_cases hp : p = []
      · subst hp; exact Typed.one h0
      · exact Typed.more h0 (bare p hp (fun d hd => hc d (by simp [hd])))
  cases parts with
  | nil => exact absurd rfl hne
  | cons p ps =>
    rw [join_cons, List.flatten_cons]
    have h0 := bare p (h p (by simp)).1 (h p (by simp)).2
    induction ps using List.reverseRecOn with
    | nil => simpa using h0
    | append_singleton ps x ih =>
      have := ih (by simp) (fun y hy => h y (by
        rcases List.mem_cons.1 hy with rfl | hy
        · simp
        · simp [hy]))
      rw [List.flatMap_append, ← List.append_assoc, List.flatten_append, ← List.append_assoc]
      refine app this ?_
      have hx := h x (by simp)
      simpa using tail x hx.1 hx.2

/-- **C114, counterexample.** A path with backslashes typed without quotations loses all of them: for every such path the argument
read is the concatenation of its parts. -/
theorem C114_backslash_counterexample (C : Classes) (parts : List (List Char)) (hlen : 2 ≤ parts.length)
    (h : ∀ p ∈ parts, p ≠ [] ∧ ∀ c ∈ p, PlainChar c) (hh : ∀ p ∈ parts.head?, ∀ c ∈ p.head?, c ≠ '#' ∧ C.space c = false) :
    loadArgs C (join ['\\'] parts) = .ok [parts.flatten] ∧ loadArgs C (join ['\\'] parts) ≠ .ok [join ['\\'] parts] := by
  have hne : parts ≠ [] := by rintro rfl; simp at hlen
  have e : loadArgs C (join ['\\'] parts) = .ok [parts.flatten] := by
    have := C114_typed C [(join ['\\'] parts, [parts.flatten])] (by
      intro x hx
      rw [List.mem_singleton] at hx
      subst hx
      refine TypedLine.args (s := []) (fun _ hc => absurd hc (by simp)) ?_ ?_
      · have := TypedArgs.last (typed_path parts hne h) (s := []) (fun _ hc => absurd hc (by simp))
        simpa using this
      · cases parts with
        | nil => exact absurd rfl hne
        | cons p ps =>
          have hp := (h p (by simp)).1
          cases p with
          | nil => exact absurd rfl hp
          | cons c p =>
            have := hh (c :: p) (by simp) c (by simp)
            rw [join_cons]
            intro d hd
            simp at hd
            subst hd
            exact ⟨this.1, by simp [this.2]⟩)
    simpa [join_cons] using this
  refine ⟨e, ?_⟩
  rw [e]
  intro hc
  simp only [Except.ok.injEq, List.cons.injEq, and_true] at hc
  have hm : '\\' ∈ parts.flatten := by
    rw [hc]
    cases parts with
    | nil => exact absurd rfl hne
    | cons p ps =>
      cases ps with
      | nil => simp at hlen
      | cons p' ps => simp [join_cons]
  obtain ⟨p, hp, hcp⟩ := List.mem_flatten.1 hm
  exact ((h p hp).2 _ hcp).2.2.2.2.2.2 rfl

/-! ### concrete cases -/

/-- a file of four lines: a comment, options, a blank line, a source with blanks in quotations -/
example : TypedLine (fun c => asciiSpace c = true) "  # my counts".toList [] ∧
    TypedLine (fun c => asciiSpace c = true) "-cs \tneukumivanov ".toList ["-cs".toList, "neukumivanov".toList] ∧
    TypedLine (fun c => asciiSpace c = true) " \t".toList [] ∧
    TypedLine (fun c => asciiSpace c = true) "  -p source=\"a \\\"b\\c.scc\"".toList
      ["-p".toList, "source=a \"b\\c.scc".toList] := by
  have ord : ∀ s : List Char, s ≠ [] → (∀ c ∈ s, PlainChar c) → Typed s s := by
    intro s hs h
    have := typed_path [s] (by simp) (by simpa using ⟨hs, h⟩)
    simpa [join_cons] using this
  refine ⟨?_, ?_, ?_, ?_⟩
  · exact TypedLine.comment "  ".toList " my counts".toList (by decide) (by decide)
  · refine TypedLine.args (s := []) (r := "-cs \tneukumivanov ".toList) (by simp [Blanks]) ?_ (by decide)
    exact TypedArgs.more (t := "-cs".toList) (s := " \t".toList) (r := "neukumivanov ".toList)
      (ord _ (by decide) (by decide +kernel)) (by unfold Blanks; decide) (by decide)
      (TypedArgs.last (t := "neukumivanov".toList) (s := " ".toList) (ord _ (by decide) (by decide +kernel)) (by unfold Blanks; decide))
  · exact TypedLine.blank " \t".toList (by decide)
  · refine TypedLine.args (s := "  ".toList) (r := "-p source=\"a \\\"b\\c.scc\"".toList) (by unfold Blanks; decide) ?_ (by decide)
    refine TypedArgs.more (t := "-p".toList) (s := " ".toList) (r := "source=\"a \\\"b\\c.scc\"".toList)
      (ord _ (by decide) (by decide +kernel)) (by unfold Blanks; decide) (by decide) ?_
    refine TypedArgs.last (t := "source=\"a \\\"b\\c.scc\"".toList) (s := []) ?_ (by simp [Blanks])
    have hd : InDouble "a \\\"b\\c.scc".toList "a \"b\\c.scc".toList :=
      .plain 'a' (by decide) <| .plain ' ' (by decide) <| .dropped '"' (by decide) <| .plain 'b' (by decide) <|
        .kept 'c' (by decide) <| .plain '.' (by decide) <| .plain 's' (by decide) <| .plain 'c' (by decide) <|
        .plain 'c' (by decide) .nil
    have hb : ∀ c ∈ "source=".toList, PlainChar c := by decide +kernel
    have key : ∀ (s t a : List Char), (∀ c ∈ s, PlainChar c) → Typed t a → Typed (s ++ t) (s ++ a) := by
      intro s t a hs h
      induction s with
      | nil => exact h
      | cons c s ih => exact Typed.more (t := [c]) (a := [c]) (Piece.bare c (hs c (by simp))) (ih (fun d hd => hs d (by simp [hd])))
    exact key "source=".toList _ _ hb (Typed.one (Piece.double hd))

/-- a Windows path without quotations -/
example (C : Classes) : loadArgs C "C:\\data\\x.scc".toList = .ok ["C:datax.scc".toList] := by
  have := (C114_backslash_counterexample C ["C:".toList, "data".toList, "x.scc".toList] (by decide) (by decide +kernel) (by
    intro p hp c hc
    simp at hp
    subst hp
    simp at hc
    subst hc
    exact ⟨by decide, by rw [C.space_ascii _ (by decide)]; decide⟩)).1
  exact this

/-- an apostrophe in the name of a file -/
example (C : Classes) : loadArgs C "Bob's.scc".toList = .error .value := by
  have := C114_open_quotation C [] (by simp) "Bob".toList "Bob".toList "s.scc".toList
    (by simpa [join_cons] using typed_path ["Bob".toList] (by simp) (by decide +kernel)) (by
      intro c hc
      simp at hc
      subst hc
      exact ⟨by decide, by rw [C.space_ascii _ (by decide)]; decide⟩) (by decide)
  exact this

end Verif.Props
