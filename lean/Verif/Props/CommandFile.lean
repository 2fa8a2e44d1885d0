import Verif.Model.CommandFile

/-! Property C39: a saved command file yields the same arguments. -/

namespace Verif.Props

open Verif.Py Verif.Cli

/-- characters with a meaning of their own for the lexer -/
def lexSpecial (c : Char) : Bool := lexSpace c || c == '\'' || c == '"' || c == '\\'

theorem safe_not_special {c : Char} (h : shellSafe c = true) : lexSpecial c = false := by
  have : ∀ d ∈ [' ', '\t', '\r', '\n', '\'', '"', '\\'], shellSafe d = false := by decide
  by_contra hc
  rw [Bool.not_eq_false] at hc
  have hm : c ∈ [' ', '\t', '\r', '\n', '\'', '"', '\\'] := by
    simp only [lexSpecial, lexSpace, Bool.or_eq_true, beq_iff_eq] at hc
    simp only [List.mem_cons, List.not_mem_nil, or_false]
    tauto
  rw [this c hm] at h
  cases h

theorem lex_plain_word (e : List Char) (he : ∀ c ∈ e, lexSpecial c = false) (tok : List Char) (q : Bool) (out : List (List Char)) :
    e.foldl lexStep ⟨.word, tok, q, out⟩ = ⟨.word, tok ++ e, q, out⟩ := by
  induction e generalizing tok with
  | nil => simp
  | cons c e ih =>
    have hc := he c (by simp)
    simp only [lexSpecial, Bool.or_eq_false_iff, beq_eq_false_iff_ne] at hc
    obtain ⟨⟨⟨h1, h2⟩, h3⟩, h4⟩ := hc
    have : lexStep ⟨.word, tok, q, out⟩ c = ⟨.word, tok ++ [c], q, out⟩ := by
      simp [lexStep, h1, h2, h3, h4]
    rw [List.foldl_cons, this, ih (fun d hd => he d (by simp [hd]))]
    simp

/-- an unquoted word without special characters -/
theorem lex_plain (e : List Char) (hne : e ≠ []) (he : ∀ c ∈ e, lexSpecial c = false) (out : List (List Char)) :
    e.foldl lexStep ⟨.space, [], false, out⟩ = ⟨.word, e, false, out⟩ := by
  cases e with
  | nil => exact absurd rfl hne
  | cons c e =>
    have hc := he c (by simp)
    simp only [lexSpecial, Bool.or_eq_false_iff, beq_eq_false_iff_ne] at hc
    obtain ⟨⟨⟨h1, h2⟩, h3⟩, h4⟩ := hc
    have : lexStep ⟨.space, [], false, out⟩ c = ⟨.word, [c], false, out⟩ := by
      simp [lexStep, h1, h2, h3, h4]
    rw [List.foldl_cons, this, lex_plain_word e (fun d hd => he d (by simp [hd]))]
    rfl

/-- the inside of a quoted word -/
theorem lex_escaped (e : List Char) (tok : List Char) (q : Bool) (out : List (List Char)) :
    ∃ q', (escapeQuotes e).foldl lexStep ⟨.quote '\'', tok, q, out⟩ = ⟨.quote '\'', tok ++ e, q', out⟩ := by
  induction e generalizing tok q with
  | nil => exact ⟨q, by simp [escapeQuotes]⟩
  | cons c e ih =>
    by_cases hc : c = '\''
    · subst hc
      obtain ⟨q', h⟩ := ih (tok ++ ['\'']) true
      refine ⟨q', ?_⟩
      have e1 : escapeQuotes ('\'' :: e) = "'\"'\"'".toList ++ escapeQuotes e := by simp [escapeQuotes]
      rw [e1, List.foldl_append]
      have e2 : "'\"'\"'".toList.foldl lexStep ⟨.quote '\'', tok, q, out⟩ = ⟨.quote '\'', tok ++ ['\''], true, out⟩ := by
        have e0 : "'\"'\"'".toList = ['\'', '"', '\'', '"', '\''] := by decide
        rw [e0]
        simp [lexStep, lexSpace]
      rw [e2, h]
      simp
    · obtain ⟨q', h⟩ := ih (tok ++ [c]) true
      refine ⟨q', ?_⟩
      have e1 : escapeQuotes (c :: e) = c :: escapeQuotes e := by simp [escapeQuotes, hc]
      have e2 : lexStep ⟨.quote '\'', tok, q, out⟩ c = ⟨.quote '\'', tok ++ [c], true, out⟩ := by
        simp [lexStep, hc]
      rw [e1, List.foldl_cons, e2, h]
      simp

/-- a quoted argument is one word -/
theorem lex_quote (e : List Char) (out : List (List Char)) :
    ∃ q, (shellQuote e).foldl lexStep ⟨.space, [], false, out⟩ = ⟨.word, e, q, out⟩ ∧ (e = [] → q = true) := by
  rw [shellQuote]
  split
  · rename_i h
    subst h
    exact ⟨true, rfl, fun _ => rfl⟩
  · rename_i hne
    split
    · rename_i hs
      rw [List.all_eq_true] at hs
      exact ⟨false, lex_plain e hne (fun c hc => safe_not_special (hs c hc)) out, fun h => absurd h hne⟩
    · refine ⟨true, ?_, fun h => absurd h hne⟩
      have e1 : lexStep ⟨.space, [], false, out⟩ '\'' = ⟨.quote '\'', [], false, out⟩ := by simp [lexStep, lexSpace]
      obtain ⟨q', h⟩ := lex_escaped e [] false out
      rw [List.cons_append, List.foldl_cons, e1, List.foldl_append, h]
      simp [lexStep]

/-- Specification: an argument which looks like an option (a minus sign not followed by a digit). -/
def OptionLike (isdigit : Char → Bool) (e : List Char) : Prop := ∃ t, e = '-' :: t ∧ ∀ d ∈ t.head?, isdigit d = false

/-- Specification: what a saved command can hold: arguments which are not empty and have no line breaks; arguments looking like
options also no white space, quotes or backslashes. -/
def Savable (isdigit : Char → Bool) (e : List Char) : Prop :=
  e ≠ [] ∧ (∀ c ∈ e, c ≠ '\n' ∧ c ≠ '\r') ∧ (OptionLike isdigit e → ∀ c ∈ e, c ≠ ' ' ∧ c ≠ '\t' ∧ c ≠ '\'' ∧ c ≠ '"' ∧ c ≠ '\\')

/-- the text of one argument: a separator and something the lexer reads as the argument -/
theorem csItem_spec (isdigit : Char → Bool) (hsp : isdigit ' ' = false) (e : List Char) (h : Savable isdigit e) :
    ∃ sep w, csItem isdigit e = .ok (sep :: w) ∧ (sep = ' ' ∨ sep = '\n') ∧
      (∀ out, ∃ q, w.foldl lexStep ⟨.space, [], false, out⟩ = ⟨.word, e, q, out⟩) ∧
      '\n' ∉ w ∧ ∃ c, w.head? = some c ∧ (shellSafe c = true ∨ c = '\'') := by
  obtain ⟨hne, hnl, hopt⟩ := h
  cases e with
  | nil => exact absurd rfl hne
  | cons c t =>
    rw [csItem]
    by_cases h : c = '-' ∧ isdigit (t.headD ' ') = false
    · have hO : OptionLike isdigit (c :: t) := by
        refine ⟨t, by rw [h.1], ?_⟩
        intro d hd
        cases t with
        | nil => simp at hd
        | cons x t => simp at hd; subst hd; exact h.2
      refine ⟨'\n', c :: t, by rw [if_pos h], Or.inr rfl, ?_, ?_, c, rfl, Or.inl (by rw [h.1]; decide)⟩
      · intro out
        refine ⟨false, lex_plain _ (by simp) ?_ out⟩
        intro d hd
        have h1 := hopt hO d hd
        have h2 := hnl d hd
        simp [lexSpecial, lexSpace, h1, h2]
      · intro hm; exact (hnl '\n' hm).1 rfl
    · refine ⟨' ', shellQuote (c :: t), by rw [if_neg h], Or.inl rfl, ?_, ?_, ?_⟩
      · intro out
        obtain ⟨q, hq, _⟩ := lex_quote (c :: t) out
        exact ⟨q, hq⟩
      · rw [shellQuote, if_neg (by simp)]
        split
        · intro hm; exact (hnl '\n' hm).1 rfl
        · intro hm
          rw [List.cons_append, List.mem_cons, List.mem_append, List.mem_singleton] at hm
          rcases hm with hm | hm | hm
          · exact absurd hm (by decide)
          · rw [escapeQuotes, List.mem_flatMap] at hm
            obtain ⟨d, hd, hm⟩ := hm
            split at hm
            · revert hm; decide
            · rw [List.mem_singleton] at hm
              subst hm
              exact (hnl '\n' hd).1 rfl
          · exact absurd hm (by decide)
      · rw [shellQuote, if_neg (by simp)]
        split
        · rename_i hs
          rw [List.all_eq_true] at hs
          exact ⟨c, rfl, Or.inl (hs c (by simp))⟩
        · exact ⟨'\'', rfl, Or.inr rfl⟩

/-- the texts of all arguments -/
theorem csItems_spec (isdigit : Char → Bool) (hsp : isdigit ' ' = false) (args : List (List Char)) (h : ∀ e ∈ args, Savable isdigit e) :
    ∃ items : List (Char × List Char), args.mapM (csItem isdigit) = .ok (items.map (fun x => x.1 :: x.2)) ∧
      items.length = args.length ∧
      ∀ (i : ℕ) (x : Char × List Char), items[i]? = some x → (x.1 = ' ' ∨ x.1 = '\n') ∧ '\n' ∉ x.2 ∧
        (∃ c, x.2.head? = some c ∧ (shellSafe c = true ∨ c = '\'')) ∧
        ∃ e, args[i]? = some e ∧ e ≠ [] ∧ ∀ out, ∃ q, x.2.foldl lexStep ⟨.space, [], false, out⟩ = ⟨.word, e, q, out⟩ := by
  induction args with
  | nil => exact ⟨[], rfl, rfl, by simp⟩
  | cons e args ih =>
    obtain ⟨items, h1, h2, h3⟩ := ih (fun x hx => h x (by simp [hx]))
    obtain ⟨sep, w, g1, g2, g3, g4, g5⟩ := csItem_spec isdigit hsp e (h e (by simp))
    refine ⟨(sep, w) :: items, ?_, by simp [h2], ?_⟩
    · rw [List.mapM_cons, g1, h1]; rfl
    · intro i x hx
      cases i with
      | zero =>
        simp at hx; subst hx
        exact ⟨g2, g4, g5, e, rfl, (h e (by simp)).1, g3⟩
      | succ i => simpa using h3 i x (by simpa using hx)

/-- lexing separated words, from within a word -/
theorem lex_items (items : List (Char × List Char)) (args : List (List Char)) (hlen : items.length = args.length)
    (h : ∀ (i : ℕ) (x : Char × List Char), items[i]? = some x → (x.1 = ' ' ∨ x.1 = '\n') ∧
      ∃ e, args[i]? = some e ∧ e ≠ [] ∧ ∀ out, ∃ q, x.2.foldl lexStep ⟨.space, [], false, out⟩ = ⟨.word, e, q, out⟩)
    (tok : List Char) (htok : tok ≠ []) (q : Bool) (out : List (List Char)) :
    ∃ tok' q' out', (items.map (fun x => x.1 :: x.2)).flatten.foldl lexStep ⟨.word, tok, q, out⟩ = ⟨.word, tok', q', out'⟩ ∧
      tok' ≠ [] ∧ out' ++ [tok'] = out ++ tok :: args := by
  induction items generalizing args tok q out with
  | nil =>
    cases args with
    | nil => exact ⟨tok, q, out, rfl, htok, rfl⟩
    | cons => simp at hlen
  | cons x items ih =>
    cases args with
    | nil => simp at hlen
    | cons e args =>
      obtain ⟨hsep, e', he, hne, hw⟩ := h 0 x rfl
      simp at he
      subst he
      have h1 : lexStep ⟨.word, tok, q, out⟩ x.1 = ⟨.space, [], false, out ++ [tok]⟩ := by
        rcases hsep with hs | hs <;> simp [lexStep, hs, lexSpace, LexSt.emit, htok]
      obtain ⟨q1, h2⟩ := hw (out ++ [tok])
      obtain ⟨tok', q', out', h3, h4, h5⟩ := ih args (by simpa using hlen)
        (fun i y hy => by simpa using h (i + 1) y (by simpa using hy)) e hne q1 (out ++ [tok])
      refine ⟨tok', q', out', ?_, h4, by rw [h5]; simp⟩
      rw [List.map_cons, List.flatten_cons, List.foldl_append, List.foldl_cons, h1, h2, h3]

theorem lex_all (x : Char × List Char) (items : List (Char × List Char)) (e : List Char) (args : List (List Char))
    (hlen : items.length = args.length)
    (h : ∀ (i : ℕ) (y : Char × List Char), (x :: items)[i]? = some y → (y.1 = ' ' ∨ y.1 = '\n') ∧
      ∃ e', (e :: args)[i]? = some e' ∧ e' ≠ [] ∧ ∀ out, ∃ q, y.2.foldl lexStep ⟨.space, [], false, out⟩ = ⟨.word, e', q, out⟩) :
    shlexSplit (x.2 ++ (items.map (fun x => x.1 :: x.2)).flatten) = .ok (e :: args) := by
  obtain ⟨_, e', he, hne, hw⟩ := h 0 x rfl
  simp at he
  subst he
  obtain ⟨q, h1⟩ := hw []
  obtain ⟨tok', q', out', h2, h3, h4⟩ := lex_items items args hlen
    (fun i y hy => by simpa using h (i + 1) y (by simpa using hy)) e hne q []
  rw [shlexSplit, List.foldl_append, h1, h2]
  simp only [LexSt.emit, ne_eq, h3, not_false_eq_true, true_or, if_true]
  rw [h4]
  rfl

/-- the lines of the file -/
theorem lines_keep (C : Classes) (hd : Char) (hhd : shellSafe hd = true ∨ hd = '\'') (tl : List Char) (htl : '\n' ∉ tl) :
    keepLine C (hd :: tl) = true := by
  have hlt : hd.toNat < 128 ∧ asciiSpace hd = false ∧ hd ≠ '#' := by
    rcases hhd with h | rfl
    · have key : ∀ n < 128, shellSafe (Char.ofNat n) = true → asciiSpace (Char.ofNat n) = false ∧ Char.ofNat n ≠ '#' := by decide +kernel
      have hn : hd.toNat < 128 := by
        simp only [shellSafe, Bool.or_eq_true, beq_iff_eq] at h
        rcases h with (((((((((h | h) | h) | h) | h) | h) | h) | h) | h) | h) | h
        · simp only [Char.isAlphanum, Char.isAlpha, Char.isUpper, Char.isLower, Char.isDigit, Bool.or_eq_true,
            Bool.and_eq_true, decide_eq_true_eq, UInt32.le_iff_toNat_le, ge_iff_le] at h
          show hd.val.toNat < 128
          rcases h with (⟨_, h⟩ | ⟨_, h⟩) | ⟨_, h⟩
          · exact lt_of_le_of_lt h (by decide)
          · exact lt_of_le_of_lt h (by decide)
          · exact lt_of_le_of_lt h (by decide)
        all_goals (subst h; decide)
      have := key hd.toNat hn (by rw [Char.ofNat_toNat]; exact h)
      rw [Char.ofNat_toNat] at this
      exact ⟨hn, this⟩
    · decide
  have hsp : C.space hd = false := by rw [C.space_ascii _ hlt.1]; exact hlt.2.1
  have hl : lstrip C.space (hd :: tl) = hd :: tl := by
    rw [lstrip, List.dropWhile_cons_of_neg (by simp [hsp])]
  have hr : ∃ t', strip C.space (hd :: tl) = hd :: t' := by
    rw [strip, hl, rstrip]
    induction tl using List.reverseRecOn with
    | nil => exact ⟨[], by rw [List.rdropWhile_singleton]; simp [hsp]⟩
    | append_singleton l c ih =>
      rw [← List.cons_append]
      by_cases hc : C.space c = true
      · rw [List.rdropWhile_concat_pos _ _ _ hc]
        exact ih (fun h => htl (by simp [h])) (by rw [lstrip, List.dropWhile_cons_of_neg (by simp [hsp])])
      · rw [List.rdropWhile_concat_neg _ _ _ hc]
        exact ⟨l ++ [c], by simp⟩
  obtain ⟨t', ht'⟩ := hr
  rw [keepLine, ht']
  simp [hlt.2.2]

/-- a text of items: every line begins with the text of an item -/
theorem lines_of_items (C : Classes) (items : List (Char × List Char))
    (h : ∀ x ∈ items, (x.1 = ' ' ∨ x.1 = '\n') ∧ '\n' ∉ x.2 ∧ ∃ c, x.2.head? = some c ∧ (shellSafe c = true ∨ c = '\''))
    (hd : Char) (hhd : shellSafe hd = true ∨ hd = '\'') (tl : List Char) (htl : '\n' ∉ tl) :
    ∀ l ∈ split '\n' (hd :: tl ++ (items.map (fun x => x.1 :: x.2)).flatten), keepLine C l = true := by
  have hdn : hd ≠ '\n' := by
    rcases hhd with h | rfl
    · rintro rfl; revert h; decide
    · decide
  induction items generalizing hd tl with
  | nil =>
    intro l hl
    rw [List.map_nil, List.flatten_nil, List.append_nil, split_of_not_mem (by simp [htl, Ne.symm hdn]), List.mem_singleton] at hl
    subst hl
    exact lines_keep C hd hhd tl htl
  | cons x items ih =>
    obtain ⟨hsep, hw, c, hc, hcs⟩ := h x (by simp)
    obtain ⟨w, hww⟩ : ∃ w, x.2 = c :: w := by
      cases hx : x.2 with
      | nil => rw [hx] at hc; simp at hc
      | cons a w => rw [hx] at hc; simp at hc; exact ⟨w, by rw [hc]⟩
    have hcn : c ≠ '\n' := by
      rcases hcs with h | rfl
      · rintro rfl; revert h; decide
      · decide
    rcases hsep with hs | hs
    · -- the same line goes on
      have e : hd :: tl ++ (List.map (fun x => x.1 :: x.2) (x :: items)).flatten =
          hd :: (tl ++ x.1 :: x.2) ++ (List.map (fun x => x.1 :: x.2) items).flatten := by simp
      rw [e]
      exact ih (fun y hy => h y (by simp [hy])) hd hhd (tl ++ x.1 :: x.2) (by simp [htl, hs, hw]) hdn
    · -- a new line
      have e : hd :: tl ++ (List.map (fun x => x.1 :: x.2) (x :: items)).flatten =
          (hd :: tl) ++ '\n' :: (c :: w ++ (List.map (fun x => x.1 :: x.2) items).flatten) := by simp [hs, hww]
      rw [e, split_append (by simp [htl, Ne.symm hdn])]
      intro l hl
      rcases List.mem_cons.1 hl with rfl | hl
      · exact lines_keep C hd hhd tl htl
      · exact ih (fun y hy => h y (by simp [hy])) c hcs w (by rw [hww] at hw; simp at hw; exact hw.2) hcn l hl

/-- **C39.** A saved command file yields, through `-i`, exactly the arguments of the command, provided no argument is empty or
has a line break and arguments looking like options hold no white space, quotes or backslashes. -/
theorem C39_replay_partial (C : Classes) (isdigit : Char → Bool) (hsp : isdigit ' ' = false) (args : List (List Char))
    (h : ∀ e ∈ args, Savable isdigit e) : ∃ s, csContent isdigit args = .ok s ∧ loadArgs C s = .ok args := by
  obtain ⟨items, h1, h2, h3⟩ := csItems_spec isdigit hsp args h
  refine ⟨_, by rw [csContent, h1]; rfl, ?_⟩
  cases items with
  | nil =>
    have : args = [] := by simpa using h2.symm
    subst this
    have hk : keepLine C [] = false := rfl
    simp only [List.map_nil, List.flatten_nil, List.drop_nil, loadArgs, split, List.filter_cons, hk, List.filter_nil]
    rfl
  | cons x items =>
    cases args with
    | nil => simp at h2
    | cons e args =>
      have hx := h3 0 x rfl
      obtain ⟨_, hw, ⟨c, hc, hcs⟩, _⟩ := hx
      obtain ⟨w, hww⟩ : ∃ w, x.2 = c :: w := by
        cases hx : x.2 with
        | nil => rw [hx] at hc; simp at hc
        | cons a w => rw [hx] at hc; simp at hc; exact ⟨w, by rw [hc]⟩
      have e1 : (List.map (fun x => x.1 :: x.2) (x :: items)).flatten.drop 1 =
          x.2 ++ (items.map (fun x => x.1 :: x.2)).flatten := by simp
      rw [e1, loadArgs, List.filter_eq_self.2, join_split]
      · exact lex_all x items e args (by simpa using h2) (fun i y hy => ⟨(h3 i y hy).1, (h3 i y hy).2.2.2⟩)
      · rw [hww]
        apply lines_of_items C items _ c hcs w (by rw [hww] at hw; simp at hw; exact hw.2)
        intro y hy
        obtain ⟨i, hi, rfl⟩ := List.getElem_of_mem hy
        have := h3 (i + 1) items[i] (by simp [hi])
        exact ⟨this.1, this.2.1, this.2.2.1⟩

/-- a command with a negative number, a quoted title and an apostrophe -/
example : csContent Char.isDigit ["-title".toList, "O'Brien # 1".toList, "-xrange".toList, "-3".toList, "2".toList] =
      .ok "-title 'O'\"'\"'Brien # 1'\n-xrange -3 2".toList ∧
    loadArgs .ascii "-title 'O'\"'\"'Brien # 1'\n-xrange -3 2".toList =
      .ok ["-title".toList, "O'Brien # 1".toList, "-xrange".toList, "-3".toList, "2".toList] := by decide +kernel

/-- **C39** fails for an empty argument: the command stops with an error. -/
theorem C39_empty_counterexample (isdigit : Char → Bool) : csContent isdigit ["-title".toList, []] = .error .index := by
  rw [csContent, List.mapM_cons, List.mapM_cons]
  cases h : csItem isdigit "-title".toList with
  | error e =>
    exfalso
    have : csItem isdigit "-title".toList = if '-' = '-' ∧ isdigit 't' = false then .ok ('\n' :: "-title".toList) else
      .ok (' ' :: shellQuote "-title".toList) := rfl
    rw [this] at h
    split at h <;> cases h
  | ok a => rfl

/-- **C39** fails for an option written with its value: the value is not quoted. -/
theorem C39_joined_counterexample : ∃ s, csContent Char.isDigit ["--out=my plot".toList] = .ok s ∧
    loadArgs .ascii s = .ok ["--out=my".toList, "plot".toList] := ⟨"--out=my plot".toList, by decide +kernel, by decide +kernel⟩

/-- **C39** fails for an argument with line breaks: a line beginning with `#` is dropped. -/
theorem C39_linebreak_counterexample : ∃ s, csContent Char.isDigit ["-title".toList, "a\n# b\nc".toList] = .ok s ∧
    loadArgs .ascii s = .ok ["-title".toList, "a\nc".toList] :=
  ⟨"-title 'a\n# b\nc'".toList, by decide +kernel, by decide +kernel⟩

end Verif.Props
