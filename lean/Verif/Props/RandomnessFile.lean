import Verif.Model.RandomnessFile
import Verif.Props.TextFile
import Verif.Props.TextStructure
import Verif.Props.Format

/-! Property C56: the randomness file is read back as it was written. -/

namespace Verif.Props

open Verif.Py Verif.Text Verif.Rand

/-! ### characters -/

/-- the characters of numbers -/
def NumChar (c : Char) : Prop := isDig c = true ∨ c ∈ ['.', 'e', 'E', '+', '-']

theorem numChar_sign {s : List Char} (h : ∀ c ∈ (takeSign s).2, NumChar c) : ∀ c ∈ s, NumChar c := by
  unfold takeSign at h
  split at h
  · intro c hc
    rcases List.mem_cons.1 hc with rfl | hc
    · exact Or.inr (by simp)
    · exact h c hc
  · intro c hc
    rcases List.mem_cons.1 hc with rfl | hc
    · exact Or.inr (by simp)
    · exact h c hc
  · exact h

theorem numChar_int {s : List Char} {z : ℤ} (h : intVal s = some z) : ∀ c ∈ s, NumChar c := by
  apply numChar_sign
  rw [intVal] at h
  split at h
  · rename_i hh
    intro c hc
    exact Or.inl (List.all_eq_true.1 hh.2 c hc)
  · cases h

theorem numChar_exp {v q : ℚ} {s : List Char} (h : expPart v s = some q) : ∀ c ∈ s, NumChar c := by
  cases s with
  | nil => simp
  | cons c t =>
    rw [expPart] at h
    split at h
    · rename_i hc
      intro d hd
      rcases List.mem_cons.1 hd with rfl | hd
      · rcases hc with rfl | rfl <;> exact Or.inr (by simp)
      · rw [Option.map_eq_some_iff] at h
        obtain ⟨e, he, _⟩ := h
        exact numChar_int he d hd
    · cases h

theorem numChar_frac {s : List Char} (h : ∀ c ∈ (fracPart s).2, NumChar c) : ∀ c ∈ s, NumChar c := by
  unfold fracPart at h
  split at h
  · rename_i t
    intro c hc
    rcases List.mem_cons.1 hc with rfl | hc
    · exact Or.inr (by simp)
    · rw [← List.takeWhile_append_dropWhile (p := isDig) (l := t), List.mem_append] at hc
      rcases hc with hc | hc
      · exact Or.inl (List.mem_takeWhile_imp hc)
      · exact h c hc
  · exact h

/-- a text which is a number consists of digits, points, exponent marks and signs -/
theorem decVal_chars {s : List Char} {q : ℚ} (h : decVal s = some q) : s ≠ [] ∧ ∀ c ∈ s, NumChar c := by
  constructor
  · rintro rfl
    cases h
  · apply numChar_sign
    rw [decVal] at h
    split at h
    · cases h
    · have h1 := numChar_frac (numChar_exp h)
      intro c hc
      rw [← List.takeWhile_append_dropWhile (p := isDig) (l := (takeSign s).2), List.mem_append] at hc
      rcases hc with hc | hc
      · exact Or.inl (List.mem_takeWhile_imp hc)
      · exact h1 c hc

/-- visible ASCII characters without a meaning in the file -/
def plainChars : List Char := "abcdefghijklmnopqrstuvwxyzABCDEFGHIJKLMNOPQRSTUVWXYZ0123456789.+-_".toList

theorem numChar_plain {c : Char} (h : NumChar c) : c ∈ plainChars := by
  rcases h with h | h
  · rw [isDig] at h
    simp only [Bool.and_eq_true, decide_eq_true_eq] at h
    have h1 : 48 ≤ c.toNat := h.1
    have h2 : c.toNat ≤ 57 := h.2
    have : c = Char.ofNat c.toNat := (Char.ofNat_toNat c).symm
    rw [this]
    generalize c.toNat = n at h1 h2
    interval_cases n <;> decide
  · have : ∀ c ∈ ['.', 'e', 'E', '+', '-'], c ∈ plainChars := by decide
    exact this c h

/-- visible texts made of these characters -/
def Plain (t : List Char) : Prop := t ≠ [] ∧ ∀ c ∈ t, c ∈ plainChars

theorem plain_num {t : List Char} {q : ℚ} (h : decVal t = some q) : Plain t :=
  ⟨(decVal_chars h).1, fun c hc => numChar_plain ((decVal_chars h).2 c hc)⟩

theorem plain_g (P : ℕ) (v : ℚ) : Plain (gStr P v) := plain_num (decVal_gStr P v)

theorem plain_nat (n : ℕ) : Plain (natStr n) := by
  refine ⟨natStr_ne_nil n, fun c hc => numChar_plain (Or.inl ?_)⟩
  exact fixDigits_isDig _ _ c hc

theorem plainChars_spec : ∀ c ∈ plainChars, c.toNat < 128 ∧ asciiSpace c = false ∧ c ∉ lineBreaks ∧
    c ∉ ['"', '\'', '\\', ';', '#', '{', '}', '=', ',', ' ', '\t', '\n', '[', '(', '*'] := by decide +kernel

theorem plain_space (C : Classes) {c : Char} (h : c ∈ plainChars) : C.space c = false :=
  not_space (plainChars_spec c h).1 (plainChars_spec c h).2.1

/-! ### rows -/

theorem fieldText_plain (C : Classes) {t : List Char} (h : Plain t) : FieldText C.space t t := by
  refine .plain t h.1 (fun c hc => plain_space C (h.2 c hc)) ?_ ?_
  · intro c hc
    have := (plainChars_spec c (h.2 c (List.mem_of_mem_head? hc))).2.2.2
    simp only [List.mem_cons, not_or] at this
    exact ⟨this.1, this.2.1⟩
  · intro a b
    have : '\\' ∉ t := fun hm => absurd (h.2 _ hm) (by decide +kernel)
    exact ⟨fun e => this (by rw [e]; simp), fun e => this (by rw [e]; simp)⟩

/-- a cell of a row: a tab, spaces, the text, spaces -/
def cell (x : List Char × ℕ × ℕ) : List Char := '\t' :: (List.replicate x.2.1 ' ' ++ x.1 ++ List.replicate x.2.2 ' ')

theorem space_tab (C : Classes) : C.space '\t' = true := by rw [C.space_ascii _ (by decide)]; decide

theorem replicate_space (C : Classes) (n : ℕ) : ∀ c ∈ List.replicate n ' ', C.space c = true := by
  intro c hc; rw [List.eq_of_mem_replicate hc]; exact space_space

theorem cells_head (C : Classes) (n : ℕ) (cells : List (List Char × ℕ × ℕ)) :
    ∀ c ∈ (List.replicate n ' ' ++ cells.flatMap cell).head?, C.space c = true := by
  intro c hc
  cases n with
  | zero =>
    cases cells with
    | nil => simp at hc
    | cons x cells =>
      rw [List.replicate_zero, List.nil_append, List.flatMap_cons, cell] at hc
      simp at hc
      subst hc
      exact space_tab C
  | succ n => rw [List.replicate_succ] at hc; simp at hc; subst hc; exact space_space

theorem fieldLine_cells (C : Classes) (cells : List (List Char × ℕ × ℕ)) (h : ∀ x ∈ cells, Plain x.1) (n : ℕ) :
    FieldLine C.space (List.replicate n ' ' ++ cells.flatMap cell) (cells.map Prod.fst) := by
  induction cells generalizing n with
  | nil => simpa using FieldLine.done _ (replicate_space C n)
  | cons x cells ih =>
    have := FieldLine.field (List.replicate n ' ' ++ '\t' :: List.replicate x.2.1 ' ') x.1
      (List.replicate x.2.2 ' ' ++ cells.flatMap cell) x.1 (cells.map Prod.fst) (by
        intro c hc
        rw [List.mem_append, List.mem_cons] at hc
        rcases hc with hc | rfl | hc
        exacts [replicate_space C _ c hc, space_tab C, replicate_space C _ c hc]) (fieldText_plain C (h x (by simp)))
      (cells_head C _ _) (ih (fun y hy => h y (by simp [hy])) _)
    simpa [cell] using this

/-- a row: a text followed by spaces, and cells -/
theorem fieldLine_row (C : Classes) {t : List Char} (ht : Plain t) (n : ℕ) (cells : List (List Char × ℕ × ℕ))
    (h : ∀ x ∈ cells, Plain x.1) :
    FieldLine C.space (t ++ (List.replicate n ' ' ++ cells.flatMap cell)) (t :: cells.map Prod.fst) := by
  have := FieldLine.field [] t (List.replicate n ' ' ++ cells.flatMap cell) t (cells.map Prod.fst) (by simp)
    (fieldText_plain C ht) (cells_head C _ _) (fieldLine_cells C cells h n)
  simpa using this

/-- the characters of a row -/
def RowChar (c : Char) : Prop := c ∈ plainChars ∨ c = ' ' ∨ c = '\t'

theorem row_chars {t : List Char} (ht : Plain t) (n : ℕ) (cells : List (List Char × ℕ × ℕ)) (h : ∀ x ∈ cells, Plain x.1) :
    ∀ c ∈ t ++ (List.replicate n ' ' ++ cells.flatMap cell), RowChar c := by
  intro c hc
  rw [List.mem_append, List.mem_append, List.mem_flatMap] at hc
  rcases hc with hc | hc | ⟨x, hx, hc⟩
  · exact Or.inl (ht.2 c hc)
  · exact Or.inr (Or.inl (List.eq_of_mem_replicate hc))
  · rw [cell, List.mem_cons, List.mem_append, List.mem_append] at hc
    rcases hc with hc | (hc | hc) | hc
    · exact Or.inr (Or.inr hc)
    · exact Or.inr (Or.inl (List.eq_of_mem_replicate hc))
    · exact Or.inl ((h x hx).2 c hc)
    · exact Or.inr (Or.inl (List.eq_of_mem_replicate hc))

theorem rowChar_spec : ∀ c ∈ ' ' :: '\t' :: plainChars, c ∉ lineBreaks ∧ c ∉ ['"', '\'', ';', '{', '}', '=', '\n'] := by
  decide +kernel

theorem rowChar_ok {c : Char} (h : RowChar c) : c ∉ lineBreaks ∧ c ∉ ['"', '\'', ';', '{', '}', '=', '\n'] := by
  apply rowChar_spec
  rcases h with h | rfl | rfl <;> simp [*]

/-! ### tables -/

/-- the first line of a table -/
def headerText (t : List Char) (ts : List (List Char)) : List Char := '{' :: (t ++ ts.flatMap (fun x => ',' :: ' ' :: x))

/-- the text of a table -/
def tableText (t : List Char) (ts rows : List (List Char)) : List Char := join ['\n'] (headerText t ts :: rows ++ [['}']])

theorem headerText_eq (t : List Char) (ts : List (List Char)) : headerText t ts =
    '{' :: join [','] ((0 :: ts.map (fun _ => 1)).zipWith (fun n t => List.replicate n ' ' ++ t) (t :: ts)) := by
  rw [headerText, List.zipWith_cons_cons, join_cons, List.zipWith_map_left, List.zipWith_self, List.flatMap_map]
  rfl

theorem join_append (a b : List (List Char)) (ha : a ≠ []) (hb : b ≠ []) :
    join ['\n'] (a ++ b) = join ['\n'] a ++ '\n' :: join ['\n'] b := by
  induction a with
  | nil => exact absurd rfl ha
  | cons x a ih =>
    cases a with
    | nil =>
      cases b with
      | nil => exact absurd rfl hb
      | cons y b => simp [join]
    | cons y a =>
      have := ih (by simp)
      rw [List.cons_append, List.cons_append, join, ← List.cons_append, this, join]
      simp

theorem plain_tag {t : List Char} (h : ∀ c ∈ t, c ∈ plainChars) : TagText t := by
  have hc : ∀ c ∈ t, c ≠ ',' ∧ c ∉ lineBreaks ∧ c ≠ ' ' ∧ c ≠ '{' := by
    intro c hc
    have := plainChars_spec c (h c hc)
    have h4 := this.2.2.2
    simp only [List.mem_cons, not_or] at h4
    exact ⟨by tauto, this.2.2.1, by tauto, by tauto⟩
  exact ⟨fun hm => (hc _ hm).1 rfl, fun c hm => (hc c hm).2.1, fun c hm => (hc c (List.mem_of_mem_head? hm)).2.2,
    fun c hm => (hc c (List.mem_of_getLast? hm)).2.2⟩

theorem mem_header {t : List Char} {ts : List (List Char)} (ht : Plain t) (hts : ∀ x ∈ ts, ∀ c ∈ x, c ∈ plainChars) :
    ∀ c ∈ t ++ ts.flatMap (fun x => ',' :: ' ' :: x), c ∈ ',' :: ' ' :: plainChars := by
  intro c hc
  rw [List.mem_append, List.mem_flatMap] at hc
  rcases hc with hc | ⟨x, hx, hc⟩
  · simp [ht.2 c hc]
  · simp only [List.mem_cons] at hc
    rcases hc with rfl | rfl | hc
    · simp
    · simp
    · simp [hts x hx c hc]

theorem headerChar_spec : ∀ c ∈ ',' :: ' ' :: plainChars, c ∉ lineBreaks ∧ c ∉ ['"', '\'', ';', '{', '}', '=', '\n'] := by
  decide +kernel

/-- the characters of a table after its first brace and before its last one -/
theorem mem_table {t : List Char} {ts rows : List (List Char)} (ht : Plain t) (hts : ∀ x ∈ ts, ∀ c ∈ x, c ∈ plainChars)
    (hrows : ∀ r ∈ rows, ∀ c ∈ r, RowChar c) : ∃ u, tableText t ts rows = '{' :: (t ++ u) ++ ['}'] ∧
      ∀ c ∈ u, c ≠ '{' ∧ c ≠ '}' ∧ c ≠ '=' := by
  have key : ∀ c ∈ join ['\n'] ((ts.flatMap (fun x => ',' :: ' ' :: x)) :: rows), c ≠ '{' ∧ c ≠ '}' ∧ c ≠ '=' := by
    intro c hc
    rw [join_cons, List.mem_append, List.mem_flatMap (l := rows)] at hc
    rcases hc with hc | ⟨r, hr, hc⟩
    · have := (headerChar_spec c (mem_header ht hts c (List.mem_append_right _ hc))).2
      simp only [List.mem_cons, not_or] at this
      exact ⟨by tauto, by tauto, by tauto⟩
    · rw [List.mem_append, List.mem_singleton] at hc
      rcases hc with rfl | hc
      · decide
      · have := (rowChar_ok (hrows r hr c hc)).2
        simp only [List.mem_cons, not_or] at this
        exact ⟨by tauto, by tauto, by tauto⟩
  refine ⟨join ['\n'] ((ts.flatMap (fun x => ',' :: ' ' :: x)) :: rows) ++ ['\n'], ?_, ?_⟩
  · rw [tableText, join_append _ _ (by simp) (by simp), headerText, join_cons, join_cons (fs := rows)]
    simp [join]
  · intro c hc
    rw [List.mem_append, List.mem_singleton] at hc
    rcases hc with hc | rfl
    · exact key c hc
    · decide

theorem table_valueText (C : Classes) {t : List Char} {ts rows : List (List Char)} (ht : Plain t) (hts : ∀ x ∈ ts, ∀ c ∈ x, c ∈ plainChars)
    (hrows : ∀ r ∈ rows, ∀ c ∈ r, RowChar c) : ValueText C (tableText t ts rows) := by
  obtain ⟨u, hu, hc⟩ := mem_table ht hts hrows
  rw [hu]
  obtain ⟨d, t', rfl⟩ := List.exists_cons_of_ne_nil ht.1
  refine ⟨by simp, ?_, ?_, ?_, ?_⟩
  · intro c hc; simp at hc; subst hc; exact not_space (by decide) (by decide)
  · intro c hc; rw [List.getLast?_concat] at hc; simp at hc; subst hc; exact not_space (by decide) (by decide)
  · intro c hc _; simp at hc; subst hc; exact ⟨d, t' ++ u ++ ['}'], by simp, plain_space C (ht.2 d (by simp))⟩
  · intro a b e
    refine Or.inl fun hb => ?_
    have hm : '=' ∈ '{' :: (d :: t' ++ u) ++ ['}'] := by rw [e]; simp [hb]
    rw [List.mem_append, List.mem_cons, List.mem_append, List.mem_singleton] at hm
    rcases hm with (hm | hm | hm) | hm
    · exact absurd hm (by decide)
    · exact absurd (ht.2 _ hm) (by decide +kernel)
    · exact (hc _ hm).2.2 rfl
    · exact absurd hm (by decide)

theorem table_inside {t : List Char} {ts rows : List (List Char)} (ht : Plain t) (ha : ∃ d ∈ t.head?, d.isAlpha = true)
    (hts : ∀ x ∈ ts, ∀ c ∈ x, c ∈ plainChars) (hrows : ∀ r ∈ rows, ∀ c ∈ r, RowChar c) {w : List Char} (hw : Inside w) :
    Inside (tableText t ts rows ++ w) := by
  obtain ⟨u, hu, hc⟩ := mem_table ht hts hrows
  obtain ⟨d, t', rfl⟩ := List.exists_cons_of_ne_nil ht.1
  have := Inside.table d (t' ++ u) w (by obtain ⟨d', hd, h⟩ := ha; simp at hd; subst hd; exact h) (by
    rw [List.mem_append, not_or]
    exact ⟨fun hm => absurd (ht.2 _ (List.mem_cons_of_mem _ hm)) (by decide +kernel), fun hm => (hc _ hm).2.1 rfl⟩) hw
  rw [hu]
  simpa using this

theorem table_value (C : Classes) {t : List Char} {ts : List (List Char)} {rows : List (List Char × List (List Char))} (ht : Plain t)
    (hts : ∀ x ∈ ts, ∀ c ∈ x, c ∈ plainChars) (hn : (t :: ts).Nodup) (hrows : ∀ r ∈ rows, (∀ c ∈ r.1, RowChar c) ∧ FieldLine C.space r.1 r.2 ∧
      r.2 ≠ [] ∧ r.2.head? ≠ some ['}']) :
    simpleValue C.space (tableText t ts (rows.map Prod.fst) ++ ['\n']) =
      .ok (columnsVal (tableColumns (t :: ts) (rows.map Prod.snd))) := by
  have hb : PlainLine ['}'] ∧ ∃ fs, FieldLine C.space ['}'] (['}'] :: fs) := by
    refine ⟨by unfold PlainLine; decide, [], ?_⟩
    have := FieldLine.field [] ['}'] [] ['}'] [] (sep := C.space) (by simp) (.plain _ (by simp) (by
      intro c hc; simp at hc; subst hc; exact not_space (by decide) (by decide)) (by simp) (by
      intro a b
      constructor <;> (intro e; have := congrArg List.length e; simp at this; omega))) (by simp) (.done [] (by simp))
    simpa using this
  have := C34_table_partial C (t :: ts) (0 :: ts.map (fun _ => 1)) (by simp) (by simp) (by
    intro x hx
    rcases List.mem_cons.1 hx with rfl | hx
    · exact plain_tag ht.2
    · exact plain_tag (hts x hx)) hn rows (fun r hr => ⟨fun c hc => (rowChar_ok ((hrows r hr).1 c hc)).1, (hrows r hr).2⟩) ['}'] hb [[]] (by
      intro l hl; simp at hl; subst hl; intro c hc; simp at hc)
  rw [← headerText_eq] at this
  rw [← this, tableText]
  congr 1
  have e : headerText t ts :: rows.map Prod.fst ++ ['}'] :: [[]] = (headerText t ts :: rows.map Prod.fst ++ [['}']]) ++ [[]] := by simp
  rw [e, join_append (headerText t ts :: rows.map Prod.fst ++ [['}']]) _ (by simp) (by simp)]
  rfl

/-! ### what is written -/

/-- Specification: a completed measure: distinct bins named by numbers, each with all trials. -/
structure Analysed (m : Measured) : Prop where
  nodup : (m.trials.map Prod.fst).Nodup
  numbers : ∀ b ∈ m.trials, ∃ q, decVal b.1 = some q
  complete : ∀ b ∈ m.trials, b.2.length = m.n

/-- Specification: an analysis with at least one completed measure, of a file whose name has no quotation mark or line break and
does not begin with white space; the version consists of letters, digits, points, signs and underscores. -/
structure AnalysisOk (C : Classes) (version filename : List Char) (A : List (List Char × Measured)) : Prop where
  some_measure : A ≠ []
  nodup : (A.map Prod.fst).Nodup
  names : ∀ x ∈ A, x.1 ∈ measureNames
  measures : ∀ x ∈ A, Analysed x.2
  version_ne : version ≠ []
  version_chars : ∀ c ∈ version, c ∈ plainChars
  file_line : PlainLine filename
  file_quote : '"' ∉ filename
  file_first : ∀ c ∈ filename.head?, C.space c = false

theorem mapM_eq {α β : Type} {f : α → Except Exc β} {g : α → β} {l : List α} (h : ∀ x ∈ l, f x = .ok (g x)) :
    l.mapM f = .ok (l.map g) := by
  induction l with
  | nil => rfl
  | cons x l ih =>
    rw [List.mapM_cons, h x (by simp), ih (fun y hy => h y (by simp [hy]))]
    rfl

/-- the cells of a row of trials -/
def trialCells (m : Measured) (t : ℕ) : List (List Char × ℕ × ℕ) :=
  m.trials.map (fun b => (gStr 6 (b.2.getD t 0), 0, 12 - (gStr 6 (b.2.getD t 0)).length))

/-- a row of trials -/
def trialLine (m : Measured) (t : ℕ) : List Char :=
  natStr t ++ (List.replicate (12 - (natStr t).length) ' ' ++ (trialCells m t).flatMap cell)

theorem trialRow_eq {m : Measured} (hm : Analysed m) {t : ℕ} (ht : t < m.n) : trialRow m t = .ok (trialLine m t) := by
  rw [trialRow, mapM_eq (g := fun b : List Char × List ℚ => ljust 12 (gStr 6 (b.2.getD t 0))), ok_bind, join_cons, trialLine, trialCells,
    List.flatMap_map, List.flatMap_map]
  · simp [ljust, cell]
  · intro b hb
    have hl : t < b.2.length := by rw [hm.complete b hb]; exact ht
    simp [hl]

theorem trialLine_ok (C : Classes) (m : Measured) (t : ℕ) : (∀ c ∈ trialLine m t, RowChar c) ∧
    FieldLine C.space (trialLine m t) (natStr t :: m.trials.map (fun b => gStr 6 (b.2.getD t 0))) := by
  have h : ∀ x ∈ trialCells m t, Plain x.1 := by
    intro x hx
    rw [trialCells, List.mem_map] at hx
    obtain ⟨b, _, rfl⟩ := hx
    exact plain_g 6 _
  refine ⟨row_chars (plain_nat t) _ _ h, ?_⟩
  have := fieldLine_row C (plain_nat t) (12 - (natStr t).length) (trialCells m t) h
  have e : (trialCells m t).map Prod.fst = m.trials.map (fun b => gStr 6 (b.2.getD t 0)) := by
    rw [trialCells, List.map_map]; rfl
  rw [e] at this
  exact this

/-- the names of the bins -/
def binNames (m : Measured) : List (List Char) := m.trials.map Prod.fst

/-- the tags after `index`: the names of the bins, or an empty name -/
def headNames (m : Measured) : List (List Char) := if m.trials = [] then [[]] else binNames m

theorem plain_heads {m : Measured} (hm : Analysed m) : ∀ b ∈ headNames m, ∀ c ∈ b, c ∈ plainChars := by
  intro b hb
  rw [headNames] at hb
  split at hb
  · simp at hb
    subst hb
    simp
  · rw [binNames, List.mem_map] at hb
    obtain ⟨x, hx, rfl⟩ := hb
    obtain ⟨q, hq⟩ := hm.numbers x hx
    exact (plain_num hq).2

/-- the rows of trials -/
def trialLines (m : Measured) : List (List Char) := (List.range m.n).map (trialLine m)

/-- the lines of a measure without the number sign before them -/
def blockLines (x : List Char × Measured) : List (List Char) :=
  [x.1 ++ " = {".toList, "n_trials = ".toList ++ natStr x.2.n, "trials  = ".toList ++ headerText "index".toList (headNames x.2)] ++
    trialLines x.2 ++ [['}'], ['}']]

theorem measureLines_eq {x : List Char × Measured} (hx : Analysed x.2) : measureLines x = .ok (['#'] :: blockLines x) := by
  rw [measureLines, mapM_eq (g := trialLine x.2) (fun t ht => trialRow_eq hx (List.mem_range.1 ht)), ok_bind]
  have e : "trials  = {index, ".toList ++ join ", ".toList (x.2.trials.map Prod.fst) =
      "trials  = ".toList ++ headerText "index".toList (headNames x.2) := by
    cases hb : x.2.trials with
    | nil => rw [headNames, if_pos hb]; rfl
    | cons b bs =>
      rw [headNames, if_neg (by rw [hb]; simp), headerText, binNames, hb, List.map_cons, join_cons]
      rfl
  rw [e]
  rfl

/-- the text within a measure -/
def innerText (m : Measured) : List Char :=
  "n_trials".toList ++ (" ".toList ++ '=' :: (" ".toList ++ (natStr m.n ++ '\n' :: ([] ++ ("trials".toList ++ ("  ".toList ++ '=' ::
    (" ".toList ++ (tableText "index".toList (headNames m) (trialLines m) ++ '\n' :: []))))))))

theorem join_prefix (p l : List Char) (ls : List (List Char)) : join ['\n'] ((p ++ l) :: ls) = p ++ join ['\n'] (l :: ls) := by
  rw [join_cons, join_cons, List.append_assoc]

theorem block_join (k p1 p2 n h : List Char) (rows : List (List Char)) :
    join ['\n'] ([k ++ [' ', '=', ' ', '{'], (p1 ++ [' ', '=', ' ']) ++ n, (p2 ++ [' ', ' ', '=', ' ']) ++ h] ++ rows ++ [['}'], ['}']]) =
    [] ++ (k ++ ([' '] ++ '=' :: ([' '] ++ ('{' :: (['\n'] ++ ((p1 ++ ([' '] ++ '=' :: ([' '] ++ (n ++ '\n' :: ([] ++ (p2 ++
      ([' ', ' '] ++ '=' :: ([' '] ++ (join ['\n'] (h :: rows ++ [['}']]) ++ '\n' :: []))))))))) ++ ([] ++ '}' :: []))))))) := by
  have e : [k ++ [' ', '=', ' ', '{'], (p1 ++ [' ', '=', ' ']) ++ n, (p2 ++ [' ', ' ', '=', ' ']) ++ h] ++ rows ++ [['}'], ['}']] =
      [k ++ [' ', '=', ' ', '{'], (p1 ++ [' ', '=', ' ']) ++ n] ++ (((((p2 ++ [' ', ' ', '=', ' ']) ++ h) :: (rows ++ [['}']]))) ++ [['}']]) := by
    simp
  rw [e, join_append [_, _] _ (by simp) (by simp),
    join_append (((p2 ++ [' ', ' ', '=', ' ']) ++ h) :: (rows ++ [['}']])) [['}']] (List.cons_ne_nil _ _) (List.cons_ne_nil _ _),
    join_prefix (p2 ++ [' ', ' ', '=', ' ']) h]
  simp [join]

theorem blockText_eq (x : List Char × Measured) : join ['\n'] (blockLines x) =
    [] ++ (x.1 ++ (" ".toList ++ '=' :: (" ".toList ++ ('{' :: ("\n".toList ++ (innerText x.2 ++ ([] ++ '}' :: []))))))) :=
  block_join x.1 "n_trials".toList "trials".toList (natStr x.2.n) (headerText "index".toList (headNames x.2)) (trialLines x.2)

/-! ### its definitions -/

def asciiHead (C : Classes) (k s g : List Char) (h : k ≠ [] ∧ ∀ c ∈ k, c.toNat < 128 ∧ (c.isAlphanum || c == '_') = true)
    (hs : ∀ c ∈ s, c = ' ') (hg : ∀ c ∈ g, c = ' ') : Heading C :=
  ⟨[], k, s, g, by simp, ⟨k, h.1, fun c hc => Or.inl (by rw [C.word_ascii c (h.2 c hc).1]; exact (h.2 c hc).2), Or.inl rfl⟩, hs,
    fun c hc => by rw [hg c hc]; exact ⟨space_space, by decide⟩⟩

theorem plain_valueText (C : Classes) {t : List Char} (h : Plain t) : ValueText C t := by
  have hc : ∀ c ∈ t, c ≠ '{' ∧ c ≠ '"' ∧ c ≠ '\n' := by
    intro c hc
    have h4 := (plainChars_spec c (h.2 c hc)).2.2.2
    simp only [List.mem_cons, not_or] at h4
    exact ⟨by tauto, by tauto, by tauto⟩
  refine ⟨h.1, fun c hm => plain_space C (h.2 c (List.mem_of_mem_head? hm)), fun c hm => plain_space C (h.2 c (List.mem_of_getLast? hm)),
    ?_, ?_⟩
  · intro c hm he
    have := hc c (List.mem_of_mem_head? hm)
    rcases he with he | he
    · exact absurd he this.1
    · exact absurd he this.2.1
  · intro a b e
    exact absurd rfl (hc '\n' (by rw [e]; simp)).2.2

theorem plain_simpleValue (C : Classes) {t : List Char} (h : Plain t) : simpleValue C.space (t ++ ['\n']) = .ok (.str t) := by
  have hc : ∀ c ∈ t, c ∉ ['"', '\'', '\\', ';', '#', '{', '}', '=', ',', ' ', '\t', '\n', '[', '(', '*'] := fun c hc =>
    (plainChars_spec c (h.2 c hc)).2.2.2
  obtain ⟨d, t', rfl⟩ := List.exists_cons_of_ne_nil h.1
  have hd := hc d (by simp)
  simp only [List.mem_cons, List.not_mem_nil, not_or, or_false] at hd
  have hs : strip (fun c => c == ' ' || c == '\n') ([] ++ (d :: t') ++ ['\n']) = d :: t' := by
    apply strip_eq
    · simp
    · intro c hm; simp at hm; subst hm; rfl
    · intro c hm; simp at hm; subst hm; simp [hd]
    · intro c hm
      have := hc c (List.mem_of_getLast? hm)
      simp only [List.mem_cons, List.not_mem_nil, not_or, or_false] at this
      simp [this]
  have hq : stripQuotes (d :: t') = d :: t' := by
    cases t' with
    | nil => rfl
    | cons e t' =>
      rw [stripQuotes, if_neg]
      rintro ⟨_, h | h⟩
      · exact hd.1 h
      · exact hd.2.1 h
  rw [List.cons_append, simpleValue]
  · rw [plainValue]
    · rw [← List.cons_append]
      rw [List.nil_append] at hs
      rw [hs, hq]
    · intro x hx; injection hx with h1; exact hd.2.2.2.2.2.2.2.2.2.2.2.2.1 h1
    · intro x hx; injection hx with h1; exact hd.2.2.2.2.2.2.2.2.2.2.2.2.2.1 h1
    · intro x hx; injection hx with h1; exact hd.2.2.2.2.2.1 h1
  · intro x hx; injection hx with h1; exact hd.2.2.2.2.2.2.2.2.2.2.2.2.2.2 h1

/-- the fields of the trials -/
def trialFields (m : Measured) : List (List (List Char)) :=
  (List.range m.n).map (fun t => natStr t :: m.trials.map (fun b => gStr 6 (b.2.getD t 0)))

/-- the table of trials as read -/
def trialTable (m : Measured) : TVal := columnsVal (tableColumns ("index".toList :: headNames m) (trialFields m))

/-- the definitions within a measure -/
def innerDefs (m : Measured) : List (List Char × TVal) :=
  [("n_trials".toList, .str (natStr m.n)), ("trials".toList, trialTable m)]

theorem plain_index : Plain "index".toList := ⟨by decide, by decide +kernel⟩

theorem index_bins {m : Measured} (hm : Analysed m) : ("index".toList :: headNames m).Nodup := by
  rw [headNames]
  split
  · decide
  rw [List.nodup_cons]
  refine ⟨?_, hm.nodup⟩
  intro h
  rw [binNames, List.mem_map] at h
  obtain ⟨b, hb, e⟩ := h
  obtain ⟨q, hq⟩ := hm.numbers b hb
  have h0 : decVal "index".toList = none := by decide +kernel
  rw [e, h0] at hq
  cases hq

theorem trialTable_value (C : Classes) {m : Measured} (hm : Analysed m) :
    simpleValue C.space (tableText "index".toList (headNames m) (trialLines m) ++ ['\n']) = .ok (trialTable m) := by
  have := table_value C (rows := (List.range m.n).map (fun t => (trialLine m t, natStr t :: m.trials.map (fun b => gStr 6 (b.2.getD t 0)))))
    plain_index (plain_heads hm) (index_bins hm) (by
      intro r hr
      rw [List.mem_map] at hr
      obtain ⟨t, _, rfl⟩ := hr
      refine ⟨(trialLine_ok C m t).1, (trialLine_ok C m t).2, by simp, ?_⟩
      simp only [List.head?_cons, ne_eq, Option.some.injEq]
      intro e
      have := (plain_nat t).2 '}' (by rw [e]; simp)
      exact absurd this (by decide +kernel))
  rw [List.map_map, List.map_map] at this
  exact this

theorem trialLines_chars (m : Measured) : ∀ r ∈ trialLines m, ∀ c ∈ r, RowChar c := by
  intro r hr
  rw [trialLines, List.mem_map] at hr
  obtain ⟨t, _, rfl⟩ := hr
  exact (trialLine_ok .ascii m t).1

theorem inner_definitions (C : Classes) {m : Measured} (hm : Analysed m) : Definitions C (innerText m) (innerDefs m) :=
  Definitions.simple (asciiHead C "n_trials".toList " ".toList " ".toList ⟨by decide, by decide⟩ (by decide) (by decide)) (natStr m.n) _ _ _
    (plain_valueText C (plain_nat _)) (plain_simpleValue C (plain_nat _))
    (Definitions.simple (asciiHead C "trials".toList "  ".toList " ".toList ⟨by decide, by decide⟩ (by decide) (by decide))
      (tableText "index".toList (headNames m) (trialLines m)) _ [] []
      (table_valueText C plain_index (plain_heads hm) (trialLines_chars m)) (trialTable_value C hm) (.nil [] (by simp)))

theorem inside_plain {a b : List Char} (h : ∀ c ∈ a, c ≠ '{' ∧ c ≠ '}') (hb : Inside b) : Inside (a ++ b) := by
  induction a with
  | nil => exact hb
  | cons c a ih => exact .char c _ (h c (by simp)).1 (h c (by simp)).2 (ih (fun d hd => h d (by simp [hd])))

theorem inner_inside {m : Measured} (hm : Analysed m) : Inside (innerText m) := by
  have h1 : Inside ("trials".toList ++ ("  ".toList ++ '=' ::
      (" ".toList ++ (tableText "index".toList (headNames m) (trialLines m) ++ '\n' :: [])))) :=
    inside_plain (by decide) (inside_plain (by decide) (.char _ _ (by decide) (by decide) (inside_plain (by decide)
      (table_inside plain_index ⟨'i', by decide, by decide⟩ (plain_heads hm) (trialLines_chars m)
        (.char _ _ (by decide) (by decide) .nil)))))
  exact inside_plain (by decide) (inside_plain (by decide) (.char _ _ (by decide) (by decide) (inside_plain (by decide)
    (inside_plain (fun c hc => by
      have h4 := (plainChars_spec c ((plain_nat _).2 c hc)).2.2.2
      simp only [List.mem_cons, not_or] at h4
      exact ⟨by tauto, by tauto⟩) (.char _ _ (by decide) (by decide) h1)))))

theorem ends_gen (p2 s1 n p1 s2 t : List Char) : p2 ++ (s1 ++ '=' :: (s1 ++ (n ++ '\n' :: ([] ++ (p1 ++ (s2 ++ '=' ::
    (s1 ++ ((t ++ ['}']) ++ '\n' :: [])))))))) = (p2 ++ (s1 ++ '=' :: (s1 ++ (n ++ '\n' :: (p1 ++ (s2 ++ '=' :: (s1 ++ t))))))) ++
      ['}', '\n'] := by simp

theorem starts_gen {p w : List Char} {c : Char} (h : p = c :: w) (r : List Char) : ∃ w', p ++ r = c :: w' := ⟨w ++ r, by rw [h]; rfl⟩

theorem inner_ends {m : Measured} (hm : Analysed m) : (∃ w, innerText m = 'n' :: w) ∧ ∃ w, innerText m = w ++ ['}', '\n'] := by
  refine ⟨starts_gen (show "n_trials".toList = 'n' :: "_trials".toList from rfl) _, ?_⟩
  obtain ⟨u, hu, _⟩ := mem_table (rows := trialLines m) plain_index (plain_heads hm) (trialLines_chars m)
  delta innerText
  rw [hu]
  exact ⟨_, ends_gen _ _ _ _ _ _⟩

theorem name_ok {k : List Char} (h : k ∈ measureNames) : (k ≠ [] ∧ ∀ c ∈ k, c.toNat < 128 ∧ (c.isAlphanum || c == '_') = true) ∧
    keyName k = k ∧ k ∉ ["version".toList, "source".toList, "n_sigma".toList] ∧ Plain k := by
  have : ∀ k ∈ measureNames, (k ≠ [] ∧ ∀ c ∈ k, c.toNat < 128 ∧ (c.isAlphanum || c == '_') = true) ∧
    keyName k = k ∧ k ∉ ["version".toList, "source".toList, "n_sigma".toList] ∧ k ≠ [] ∧ ∀ c ∈ k, c ∈ plainChars := by decide +kernel
  exact this k h

/-- the value of a measure as read -/
def measureVal (m : Measured) : TVal := mergeAll (innerDefs m)

theorem blocks_definitions (C : Classes) (A : List (List Char × Measured)) (hne : A ≠ []) (hn : ∀ x ∈ A, x.1 ∈ measureNames)
    (hA : ∀ x ∈ A, Analysed x.2) :
    Definitions C (join ['\n'] (A.flatMap blockLines)) (A.map (fun x => (x.1, measureVal x.2))) := by
  induction A with
  | nil => exact absurd rfl hne
  | cons x A ih =>
    obtain ⟨hk, hkn, _, _⟩ := name_ok (hn x (by simp))
    have hx := hA x (by simp)
    obtain ⟨⟨w1, e1⟩, ⟨w2, e2⟩⟩ := inner_ends hx
    cases A with
    | nil =>
      have := Definitions.structLast (asciiHead C x.1 " ".toList " ".toList hk (by decide) (by decide)) "\n".toList (innerText x.2) [] []
        'n' w1 w2 '}' _ (by decide) (by intro c hc; simp at hc; subst hc; exact space_newline) e1
        (not_space (by decide) (by decide)) e2 (not_space (by decide) (by decide)) (inner_inside hx) (inner_definitions C hx) (by simp) (by simp)
      rw [List.flatMap_cons, List.flatMap_nil, List.append_nil, blockText_eq]
      rw [show (asciiHead C x.1 " ".toList " ".toList hk (by decide) (by decide)).key = x.1 from rfl, hkn] at this
      exact this
    | cons y A =>
      have := Definitions.struct (asciiHead C x.1 " ".toList " ".toList hk (by decide) (by decide)) "\n".toList (innerText x.2) [] []
        (join ['\n'] ((y :: A).flatMap blockLines)) 'n' w1 w2 '}' _ _ (by decide)
        (by intro c hc; simp at hc; subst hc; exact space_newline) e1
        (not_space (by decide) (by decide)) e2 (not_space (by decide) (by decide)) (inner_inside hx) (inner_definitions C hx) (by simp) (by simp)
        (ih (by simp) (fun z hz => hn z (by simp [hz])) (fun z hz => hA z (by simp [hz])))
      rw [List.flatMap_cons, join_append _ _ (by simp [blockLines]) (by simp [blockLines]), blockText_eq]
      rw [show (asciiHead C x.1 " ".toList " ".toList hk (by decide) (by decide)).key = x.1 from rfl, hkn] at this
      have e : ∀ (r : List Char), [] ++ (x.1 ++ (" ".toList ++ '=' :: (" ".toList ++ ('{' :: ("\n".toList ++ (innerText x.2 ++
          ([] ++ '}' :: []))))))) ++ r = [] ++ (x.1 ++ (" ".toList ++ '=' :: (" ".toList ++ ('{' :: ("\n".toList ++ (innerText x.2 ++
          ([] ++ '}' :: ([] ++ r)))))))) := by
        intro r
        generalize innerText x.2 = p
        simp
      rw [e]
      exact this

/-! ### the table of standard deviations -/

def sigmaText (x : Option ℚ) : List Char := match x with | some v => gStr 3 v | none => "nan".toList

theorem plain_sigma (x : Option ℚ) : Plain (sigmaText x) := by
  cases x with
  | none => exact ⟨by decide, by decide +kernel⟩
  | some v => exact plain_g 3 v

def sigmaCells (A : List (List Char × Measured)) (bin : List Char) : List (List Char × ℕ × ℕ) :=
  A.map (fun m => let t := if bin ∈ m.2.trials.map Prod.fst then sigmaText (m.2.sigma bin) else ['-']
    (t, 9 - t.length, 0))

theorem sigmaRow_eq (A : List (List Char × Measured)) (bin : List Char) :
    sigmaRow A bin = bin ++ (List.replicate (12 - bin.length) ' ' ++ (sigmaCells A bin).flatMap cell) := by
  rw [sigmaRow, sigmaCells, List.flatMap_map, ljust, List.append_assoc]
  congr 2
  apply List.flatMap_congr
  intro m _
  simp only [cell, List.replicate_zero, List.append_nil]
  split
  · rfl
  · rfl

theorem sigmaCells_plain (A : List (List Char × Measured)) (bin : List Char) : ∀ x ∈ sigmaCells A bin, Plain x.1 := by
  intro x hx
  rw [sigmaCells, List.mem_map] at hx
  obtain ⟨m, _, rfl⟩ := hx
  simp only
  split
  · exact plain_sigma _
  · exact ⟨by decide, by decide +kernel⟩

theorem mem_allBins {A : List (List Char × Measured)} {b : List Char} : b ∈ allBins A ↔ ∃ x ∈ A, b ∈ binNames x.2 := by
  rw [allBins, List.mem_insertionSort, List.mem_dedup, List.mem_flatMap]
  rfl

theorem allBins_number {A : List (List Char × Measured)} (hA : ∀ x ∈ A, Analysed x.2) {b : List Char} (hb : b ∈ allBins A) :
    ∃ q, decVal b = some q := by
  obtain ⟨x, hx, hb⟩ := mem_allBins.1 hb
  rw [binNames, List.mem_map] at hb
  obtain ⟨y, hy, rfl⟩ := hb
  exact (hA x hx).numbers y hy

def sigmaRows (A : List (List Char × Measured)) : List (List Char) := (allBins A).map (sigmaRow A)

theorem sigmaRow_ok (C : Classes) {A : List (List Char × Measured)} {b : List Char} (hb : Plain b) :
    (∀ c ∈ sigmaRow A b, RowChar c) ∧ FieldLine C.space (sigmaRow A b) (b :: (sigmaCells A b).map Prod.fst) := by
  rw [sigmaRow_eq]
  exact ⟨row_chars hb _ _ (sigmaCells_plain A b), fieldLine_row C hb _ _ (sigmaCells_plain A b)⟩

theorem sigmaRows_chars {A : List (List Char × Measured)} (hA : ∀ x ∈ A, Analysed x.2) : ∀ r ∈ sigmaRows A, ∀ c ∈ r, RowChar c := by
  intro r hr
  rw [sigmaRows, List.mem_map] at hr
  obtain ⟨b, hb, rfl⟩ := hr
  obtain ⟨q, hq⟩ := allBins_number hA hb
  exact (sigmaRow_ok .ascii (plain_num hq)).1

theorem plain_bin : Plain "bin".toList := ⟨by decide, by decide +kernel⟩

/-- the table of numbers of standard deviations as read -/
def sigmaTable (A : List (List Char × Measured)) : TVal :=
  columnsVal (tableColumns ("bin".toList :: A.map Prod.fst) ((allBins A).map (fun b => b :: (sigmaCells A b).map Prod.fst)))

theorem sigma_value (C : Classes) {A : List (List Char × Measured)} (hA : ∀ x ∈ A, Analysed x.2) (hn : ∀ x ∈ A, x.1 ∈ measureNames)
    (hnd : (A.map Prod.fst).Nodup) :
    simpleValue C.space (tableText "bin".toList (A.map Prod.fst) (sigmaRows A) ++ ['\n']) = .ok (sigmaTable A) := by
  have := table_value C (t := "bin".toList) (ts := A.map Prod.fst)
    (rows := (allBins A).map (fun b => (sigmaRow A b, b :: (sigmaCells A b).map Prod.fst))) plain_bin (by
      intro k hk
      rw [List.mem_map] at hk
      obtain ⟨x, hx, rfl⟩ := hk
      exact (name_ok (hn x hx)).2.2.2.2) (by
      rw [List.nodup_cons]
      refine ⟨?_, hnd⟩
      intro hk
      rw [List.mem_map] at hk
      obtain ⟨x, hx, e⟩ := hk
      have := hn x hx
      rw [e] at this
      exact absurd this (by decide +kernel)) (by
      intro r hr
      rw [List.mem_map] at hr
      obtain ⟨b, hb, rfl⟩ := hr
      obtain ⟨q, hq⟩ := allBins_number hA hb
      refine ⟨(sigmaRow_ok C (plain_num hq)).1, (sigmaRow_ok C (plain_num hq)).2, by simp, ?_⟩
      simp only [List.head?_cons, ne_eq, Option.some.injEq]
      intro e
      have := (plain_num hq).2 '}' (by rw [e]; simp)
      exact absurd this (by decide +kernel))
  rw [List.map_map, List.map_map] at this
  exact this

/-! ### the file -/

/-- the lines with definitions -/
def keptLines (version filename : List Char) (A : List (List Char × Measured)) : List (List Char) :=
  ["version = ".toList ++ version, "source = ".toList ++ ('"' :: filename ++ ['"']),
    "n_sigma = ".toList ++ headerText "bin".toList (A.map Prod.fst)] ++ (sigmaRows A ++ [['}']]) ++ A.flatMap blockLines

theorem raLines_eq {C : Classes} {version filename : List Char} {A : List (List Char × Measured)} (h : AnalysisOk C version filename A) :
    raLines version filename A = .ok ("# Randomness analysis".toList :: ("version = ".toList ++ version) ::
      ("source = ".toList ++ ('"' :: filename ++ ['"'])) :: ['#'] :: ("n_sigma = ".toList ++ headerText "bin".toList (A.map Prod.fst)) ::
        ((sigmaRows A ++ [['}']]) ++ A.flatMap (fun x => ['#'] :: blockLines x))) := by
  rw [raLines, if_pos, mapM_eq (g := fun x => ['#'] :: blockLines x) (fun x hx => measureLines_eq (h.measures x hx)), ok_bind,
    sigmaLines, ← List.flatMap_def]
  · have e : ("n_sigma = {bin".toList ++ A.flatMap (fun m => ", ".toList ++ m.1)) =
        "n_sigma = ".toList ++ headerText "bin".toList (A.map Prod.fst) := by
      rw [headerText, List.flatMap_map]
      rfl
    rw [e]
    have e2 : "source = \"".toList ++ filename ++ ['"'] = "source = ".toList ++ ('"' :: filename ++ ['"']) := by
      rw [show "source = \"".toList = "source = ".toList ++ ['"'] from rfl]
      simp
    rw [e2]
    simp [sigmaRows]
  · rw [List.all_eq_true]
    intro b hb
    obtain ⟨q, hq⟩ := allBins_number h.measures hb
    rw [hq]; rfl

/-- the characters of all lines but the source line -/
def safeChars : List Char := ",{}= \t".toList ++ plainChars

theorem safe_spec : ∀ c ∈ safeChars, c ∉ lineBreaks ∧ c ≠ ';' ∧ c ≠ '\'' ∧ c ≠ '"' := by decide +kernel

/-- a line which is kept as it is -/
def KeptLine (C : Classes) (l : List Char) : Prop := PlainLine l ∧ (lstrip C.space l).head? ≠ some '#' ∧ stripComment l = l

theorem kept_line (C : Classes) {l : List Char} (h : ∃ d ∈ l.head?, d.toNat < 128 ∧ asciiSpace d = false ∧ d ≠ '#')
    (hp : PlainLine l) (hc : Closed l) : KeptLine C l := by
  refine ⟨hp, ?_, (C32_unchanged_partial l).1 hc⟩
  obtain ⟨d, hd, h1, h2, h3⟩ := h
  cases l with
  | nil => simp at hd
  | cons e l =>
    simp at hd
    subst hd
    rw [lstrip, List.dropWhile_cons_of_neg (by rw [not_space h1 h2]; simp)]
    simpa using h3

theorem kept_safe (C : Classes) {l : List Char} (h : ∃ d ∈ l.head?, d.toNat < 128 ∧ asciiSpace d = false ∧ d ≠ '#')
    (hs : ∀ c ∈ l, c ∈ safeChars) : KeptLine C l :=
  kept_line C h (fun c hc => (safe_spec c (hs c hc)).1) (closed_of_ordinary (fun c hc => (safe_spec c (hs c hc)).2))

theorem plain_first {t r : List Char} (h : Plain t) : ∃ d ∈ (t ++ r).head?, d.toNat < 128 ∧ asciiSpace d = false ∧ d ≠ '#' := by
  obtain ⟨d, t', rfl⟩ := List.exists_cons_of_ne_nil h.1
  have := plainChars_spec d (h.2 d (by simp))
  refine ⟨d, by simp, this.1, this.2.1, ?_⟩
  intro e
  exact this.2.2.2 (by rw [e]; decide)

theorem first_of {p : List Char} (r : List Char) (h : ∃ d ∈ p.head?, d.toNat < 128 ∧ asciiSpace d = false ∧ d ≠ '#') :
    ∃ d ∈ (p ++ r).head?, d.toNat < 128 ∧ asciiSpace d = false ∧ d ≠ '#' := by
  obtain ⟨d, hd, h⟩ := h
  cases p with
  | nil => simp at hd
  | cons e p => exact ⟨d, hd, h⟩

theorem plain_safe {c : Char} (h : c ∈ plainChars) : c ∈ safeChars := List.mem_append_right _ h

theorem rowChar_safe {c : Char} (h : RowChar c) : c ∈ safeChars := by
  rcases h with h | rfl | rfl
  · exact plain_safe h
  · decide +kernel
  · decide +kernel

theorem header_safe {t : List Char} {ts : List (List Char)} (ht : Plain t) (hts : ∀ x ∈ ts, ∀ c ∈ x, c ∈ plainChars) : ∀ c ∈ headerText t ts, c ∈ safeChars := by
  intro c hc
  rw [headerText, List.mem_cons] at hc
  rcases hc with rfl | hc
  · decide +kernel
  · have := mem_header ht hts c hc
    simp only [List.mem_cons] at this
    rcases this with rfl | rfl | h
    · decide +kernel
    · decide +kernel
    · exact plain_safe h

theorem append_safe {a b : List Char} (ha : ∀ c ∈ a, c ∈ safeChars) (hb : ∀ c ∈ b, c ∈ safeChars) : ∀ c ∈ a ++ b, c ∈ safeChars := by
  intro c hc
  rcases List.mem_append.1 hc with hc | hc
  exacts [ha c hc, hb c hc]

theorem kept_close (C : Classes) : KeptLine C ['}'] := kept_safe C ⟨'}', by decide⟩ (by decide +kernel)

theorem kept_block (C : Classes) {x : List Char × Measured} (hn : x.1 ∈ measureNames) (hx : Analysed x.2) :
    ∀ l ∈ blockLines x, KeptLine C l := by
  intro l hl
  rw [blockLines, List.mem_append, List.mem_append] at hl
  simp only [List.mem_cons, List.not_mem_nil, or_false] at hl
  have hp := (name_ok hn).2.2.2
  rcases hl with ((rfl | rfl | rfl) | hl) | (rfl | rfl)
  · exact kept_safe C (plain_first hp) (append_safe (fun c hc => plain_safe (hp.2 c hc)) (by decide +kernel))
  · exact kept_safe C (first_of _ ⟨'n', by decide⟩) (append_safe (by decide +kernel) (fun c hc => plain_safe ((plain_nat _).2 c hc)))
  · exact kept_safe C (first_of _ ⟨'t', by decide⟩) (append_safe (by decide +kernel) (header_safe plain_index (plain_heads hx)))
  · have h := trialLines_chars _ l hl
    rw [trialLines, List.mem_map] at hl
    obtain ⟨t, _, rfl⟩ := hl
    exact kept_safe C (plain_first (plain_nat t)) (fun c hc => rowChar_safe (h c hc))
  · exact kept_close C
  · exact kept_close C

theorem kept_kept {C : Classes} {version filename : List Char} {A : List (List Char × Measured)} (h : AnalysisOk C version filename A) :
    ∀ l ∈ keptLines version filename A, KeptLine C l := by
  intro l hl
  rw [keptLines, List.mem_append, List.mem_append, List.mem_append, List.mem_flatMap] at hl
  simp only [List.mem_cons, List.not_mem_nil, or_false] at hl
  rcases hl with ((rfl | rfl | rfl) | hl | rfl) | ⟨x, hx, hl⟩
  · exact kept_safe C (first_of _ ⟨'v', by decide⟩) (append_safe (by decide +kernel) (fun c hc => plain_safe (h.version_chars c hc)))
  · refine kept_line C (first_of _ ⟨'s', by decide⟩) ?_ ?_
    · intro c hc
      rw [List.mem_append, List.mem_append, List.mem_cons, List.mem_singleton] at hc
      rcases hc with hc | (rfl | hc) | rfl
      · have : ∀ c ∈ "source = ".toList, c ∉ lineBreaks := by decide +kernel
        exact this c hc
      · decide
      · exact h.file_line c hc
      · decide
    · exact (closed_of_ordinary (by decide)).append (.quote '"' filename [] (Or.inr rfl) h.file_quote .nil)
  · refine kept_safe C (first_of _ ⟨'n', by decide⟩) (append_safe (by decide +kernel) (header_safe plain_bin ?_))
    intro k hk
    rw [List.mem_map] at hk
    obtain ⟨x, hx, rfl⟩ := hk
    exact (name_ok (h.names x hx)).2.2.2.2
  · have hc := sigmaRows_chars h.measures l hl
    rw [sigmaRows, List.mem_map] at hl
    obtain ⟨b, hb, rfl⟩ := hl
    obtain ⟨q, hq⟩ := allBins_number h.measures hb
    rw [sigmaRow_eq] at hc ⊢
    exact kept_safe C (plain_first (plain_num hq)) (fun c hm => rowChar_safe (hc c hm))
  · exact kept_close C
  · exact kept_block C (h.names x hx) (h.measures x hx) l hl

/-- the lines read from the file written -/
theorem read_kept {C : Classes} {version filename : List Char} {A : List (List Char × Measured)} (h : AnalysisOk C version filename A)
    (sep : List Char) (hsep : sep = ['\n'] ∨ sep = ['\r', '\n']) : ∃ file, raWrite sep version filename A = .ok file ∧
      readTextfile C none false true true file = keptLines version filename A := by
  rw [raWrite, raLines_eq h, ok_bind]
  refine ⟨_, rfl, ?_⟩
  have hk := kept_kept h
  obtain ⟨p, hp⟩ : ∃ p : List Char → Bool, p = fun e => (lstrip C.space e).head? != some '#' := ⟨_, rfl⟩
  have hkeep : ∀ l, KeptLine C l → p l = true := by
    intro l hl; rw [hp]; simpa using hl.2.1
  have hdrop : ∀ r, p ('#' :: r) = false := by
    intro r
    rw [hp]
    have : C.space '#' = false := not_space (by decide) (by decide)
    simp [lstrip, this]
  set raw := "# Randomness analysis".toList :: ("version = ".toList ++ version) ::
      ("source = ".toList ++ ('"' :: filename ++ ['"'])) :: ['#'] :: ("n_sigma = ".toList ++ headerText "bin".toList (A.map Prod.fst)) ::
        ((sigmaRows A ++ [['}']]) ++ A.flatMap (fun x => ['#'] :: blockLines x)) with hraw
  have k1 := hk ("version = ".toList ++ version) (by simp [keptLines])
  have k2 := hk ("source = ".toList ++ ('"' :: filename ++ ['"'])) (by simp [keptLines])
  have k3 := hk ("n_sigma = ".toList ++ headerText "bin".toList (A.map Prod.fst)) (by simp [keptLines])
  have k4 : ∀ l ∈ sigmaRows A ++ [['}']], KeptLine C l := fun l hl =>
    hk l (List.mem_append_left _ (List.mem_append_right _ hl))
  have k5 : ∀ x ∈ A, ∀ l ∈ blockLines x, KeptLine C l := fun x hx => kept_block C (h.names x hx) (h.measures x hx)
  have hplain : ∀ l ∈ raw, PlainLine l := by
    intro l hl
    rw [hraw] at hl
    simp only [List.mem_cons] at hl
    rw [List.mem_append, List.mem_flatMap] at hl
    rcases hl with rfl | rfl | rfl | rfl | rfl | hl | ⟨x, hx, hl⟩
    · unfold PlainLine; decide +kernel
    · exact k1.1
    · exact k2.1
    · unfold PlainLine; decide +kernel
    · exact k3.1
    · exact (k4 l hl).1
    · rcases List.mem_cons.1 hl with rfl | hl
      · unfold PlainLine; decide +kernel
      · exact (k5 x hx l hl).1
  have hlines : fileLines C none (writeTextfile sep false raw) = raw := by
    have := C31_roundtrip_partial C sep hsep false raw hplain (by rw [hraw]; simp) (Or.inr (by
      intro l hl
      rw [hraw] at hl
      simp only [List.head?_cons, Option.mem_def, Option.some.injEq] at hl
      subst hl
      decide))
    exact this
  have hfilter : raw.filter p = keptLines version filename A := by
    have f1 : (sigmaRows A ++ [['}']]).filter p = sigmaRows A ++ [['}']] :=
      List.filter_eq_self.2 (fun l hl => hkeep l (k4 l hl))
    have f2 : (A.flatMap (fun x => ['#'] :: blockLines x)).filter p = A.flatMap blockLines := by
      rw [List.filter_flatMap]
      apply List.flatMap_congr
      intro x hx
      rw [List.filter_cons_of_neg (by rw [hdrop]; simp)]
      exact List.filter_eq_self.2 (fun l hl => hkeep l (k5 x hx l hl))
    rw [hraw, List.filter_cons_of_neg (by
        rw [show "# Randomness analysis".toList = '#' :: " Randomness analysis".toList from rfl, hdrop]; simp),
      List.filter_cons_of_pos (hkeep _ k1), List.filter_cons_of_pos (hkeep _ k2),
      List.filter_cons_of_neg (by rw [hdrop]; simp), List.filter_cons_of_pos (hkeep _ k3), List.filter_append, f1, f2]
    simp [keptLines]
  rw [readTextfile, hlines]
  simp only [Bool.false_eq_true, if_false, if_true]
  rw [← hp, hfilter]
  conv_rhs => rw [← List.map_id (keptLines version filename A)]
  exact List.map_congr_left (fun l hl => (hk l hl).2.2)

theorem top_join (p1 v p2 src p3 h : List Char) (rows bl : List (List Char)) (hbl : bl ≠ []) :
    join ['\n'] ([(p1 ++ [' ', '=', ' ']) ++ v, (p2 ++ [' ', '=', ' ']) ++ src, (p3 ++ [' ', '=', ' ']) ++ h] ++ (rows ++ [['}']]) ++ bl) =
    [] ++ (p1 ++ ([' '] ++ '=' :: ([' '] ++ (v ++ '\n' :: ([] ++ (p2 ++ ([' '] ++ '=' :: ([' '] ++ (src ++ '\n' :: ([] ++ (p3 ++ ([' '] ++
      '=' :: ([' '] ++ (join ['\n'] (h :: rows ++ [['}']]) ++ '\n' :: join ['\n'] bl)))))))))))))) := by
  have e : [(p1 ++ [' ', '=', ' ']) ++ v, (p2 ++ [' ', '=', ' ']) ++ src, (p3 ++ [' ', '=', ' ']) ++ h] ++ (rows ++ [['}']]) ++ bl =
      [(p1 ++ [' ', '=', ' ']) ++ v, (p2 ++ [' ', '=', ' ']) ++ src] ++ ((((p3 ++ [' ', '=', ' ']) ++ h) :: (rows ++ [['}']])) ++ bl) := by
    simp
  rw [e, join_append [_, _] _ (by simp) (by simp),
    join_append (((p3 ++ [' ', '=', ' ']) ++ h) :: (rows ++ [['}']])) bl (by simp) hbl, join_prefix (p3 ++ [' ', '=', ' ']) h]
  simp [join]

theorem source_value (C : Classes) (filename : List Char) :
    ∃ x, simpleValue C.space (('"' :: filename ++ ['"']) ++ ['\n']) = .ok x := ⟨_, rfl⟩

theorem source_valueText {C : Classes} {filename : List Char} (h1 : PlainLine filename) (h2 : ∀ c ∈ filename.head?, C.space c = false) :
    ValueText C ('"' :: filename ++ ['"']) := by
  have hq : C.space '"' = false := not_space (by decide) (by decide)
  refine ⟨by simp, ?_, ?_, ?_, ?_⟩
  · intro c hc; simp at hc; subst hc; exact hq
  · intro c hc; rw [List.getLast?_concat] at hc; simp at hc; subst hc; exact hq
  · intro c hc _
    simp at hc
    subst hc
    cases filename with
    | nil => exact ⟨'"', [], rfl, hq⟩
    | cons d f => exact ⟨d, f ++ ['"'], rfl, h2 d (by simp)⟩
  · intro a b e
    have hm : '\n' ∈ '"' :: filename ++ ['"'] := by rw [e]; simp
    rw [List.mem_append, List.mem_cons, List.mem_singleton] at hm
    rcases hm with (hm | hm) | hm
    · exact absurd hm (by decide)
    · exact absurd (by decide) (h1 _ hm)
    · exact absurd hm (by decide)

theorem kept_definitions {C : Classes} {version filename : List Char} {A : List (List Char × Measured)}
    (h : AnalysisOk C version filename A) : ∃ x y, Definitions C (join ['\n'] (keptLines version filename A))
      (("version".toList, x) :: ("source".toList, y) :: ("n_sigma".toList, sigmaTable A) :: A.map (fun x => (x.1, measureVal x.2))) := by
  obtain ⟨y, hy⟩ := source_value C filename
  have hz := sigma_value C h.measures h.names h.nodup
  have hv : Plain version := ⟨h.version_ne, h.version_chars⟩
  have hblocks : A.flatMap blockLines ≠ [] := by
    obtain ⟨x, A', rfl⟩ := List.exists_cons_of_ne_nil h.some_measure
    simp [blockLines]
  refine ⟨.str version, y, ?_⟩
  have key := Definitions.simple (asciiHead C "version".toList " ".toList " ".toList ⟨by decide, by decide⟩ (by decide) (by decide)) version _ _ _
    (plain_valueText C hv) (plain_simpleValue C hv)
    (Definitions.simple (asciiHead C "source".toList " ".toList " ".toList ⟨by decide, by decide⟩ (by decide) (by decide))
      ('"' :: filename ++ ['"']) _ _ _ (source_valueText h.file_line h.file_first) hy
      (Definitions.simple (asciiHead C "n_sigma".toList " ".toList " ".toList ⟨by decide, by decide⟩ (by decide) (by decide))
        (tableText "bin".toList (A.map Prod.fst) (sigmaRows A)) _ _ _
        (table_valueText C plain_bin (by
          intro k hk
          rw [List.mem_map] at hk
          obtain ⟨x, hx, rfl⟩ := hk
          exact (name_ok (h.names x hx)).2.2.2.2) (sigmaRows_chars h.measures)) hz
        (blocks_definitions C A h.some_measure h.names h.measures)))
  have e := top_join "version".toList version "source".toList ('"' :: filename ++ ['"']) "n_sigma".toList
    (headerText "bin".toList (A.map Prod.fst)) (sigmaRows A) (A.flatMap blockLines) hblocks
  have e' : join ['\n'] (keptLines version filename A) = _ := e
  rw [e']
  exact key

/-! ### reading -/

theorem mergeAll_two {k1 k2 : List Char} (h : k1 ≠ k2) (v w : TVal) : mergeAll [(k1, v), (k2, w)] = .dict [(k2, w), (k1, v)] := by
  simp [mergeAll, mergeVal, dictGet, dictSet, h.symm]

theorem dictGet_of_mem {α : Type} {d : List (List Char × α)} (hn : (d.map Prod.fst).Nodup) {k : List Char} {v : α} (h : (k, v) ∈ d) :
    dictGet d k = some v := by
  obtain ⟨a, b, rfl⟩ := List.append_of_mem h
  apply dictGet_middle
  rw [List.map_append, List.nodup_append] at hn
  intro hk
  exact hn.2.2 k hk k (by simp) rfl

theorem dictGet_map {α β : Type} (f : α → β) (d : List (List Char × α)) (k : List Char) :
    dictGet (d.map (fun x => (x.1, f x.2))) k = (dictGet d k).map f := by
  induction d with
  | nil => rfl
  | cons x d ih =>
    obtain ⟨j, v⟩ := x
    by_cases hj : j = k
    · simp [dictGet, hj]
    · simpa [dictGet, hj] using ih

/-- the column of a bin -/
theorem column_get {m : Measured} (hm : Analysed m) {b : List Char × List ℚ} (hb : b ∈ m.trials) :
    dictGet (tableColumns ("index".toList :: headNames m) (trialFields m)) b.1 = some (b.2.map (gStr 6)) := by
  have hne : m.trials ≠ [] := List.ne_nil_of_mem hb
  apply dictGet_of_mem
  · rw [tableColumns_fst]; exact index_bins hm
  · obtain ⟨i, hi, rfl⟩ := List.mem_iff_getElem.1 hb
    rw [tableColumns, List.mem_map]
    refine ⟨(m.trials[i].1, i + 1), ?_, ?_⟩
    · rw [List.mem_zipIdx_iff_getElem?]
      simp [headNames, hne, binNames, hi]
    · simp only [Prod.mk.injEq, true_and]
      rw [trialFields, List.map_map]
      apply List.ext_getElem
      · simp [hm.complete _ hb]
      · intro t h1 h2
        simp only [List.getElem_map, List.getElem_range, Function.comp]
        simp at h2
        simp [hi, h2]

/-- the values as read -/
def readValues (m : Measured) : List (List Char × List ℚ) := m.trials.map (fun b => (b.1, b.2.map (sciSigned 6)))

theorem mapM_map' {α β γ : Type} (f : β → Except Exc γ) (g : α → β) (l : List α) : (l.map g).mapM f = l.mapM (fun x => f (g x)) := by
  induction l with
  | nil => rfl
  | cons x l ih => rw [List.map_cons, List.mapM_cons, List.mapM_cons, ih]

theorem tget_two {k1 k2 : List Char} (h : k1 ≠ k2) (v w : TVal) :
    tget (.dict [(k2, w), (k1, v)]) k1 = .ok v ∧ tget (.dict [(k2, w), (k1, v)]) k2 = .ok w := by
  simp [tget, dictGet, h.symm]

theorem tint_nat (n : ℕ) : tint (.str (natStr n)) = .ok (n : ℤ) := by
  have := intVal_intStr (n : ℤ)
  have e : intStr (n : ℤ) = natStr n := by rw [intStr, if_neg (by omega)]; rfl
  rw [e] at this
  rw [tint, this]

theorem readMeasure_parts (m : Measured) : tget (measureVal m) "n_trials".toList = .ok (.str (natStr m.n)) ∧
    tget (measureVal m) "trials".toList = .ok (trialTable m) ∧ tkeys (trialTable m) = .ok ("index".toList :: headNames m) := by
  have e : measureVal m = .dict [("trials".toList, trialTable m), ("n_trials".toList, .str (natStr m.n))] :=
    mergeAll_two (by decide) _ _
  refine ⟨by rw [e]; exact (tget_two (by decide) _ _).1, by rw [e]; exact (tget_two (by decide) _ _).2, ?_⟩
  rw [trialTable, columnsVal, tkeys, List.map_map]
  congr 1
  exact tableColumns_fst _ _

theorem readMeasure_eq {m : Measured} (hm : Analysed m) (hne : m.trials ≠ []) : readMeasure (measureVal m) = .ok ((m.n : ℤ), readValues m) := by
  obtain ⟨g1, g2, g4⟩ := readMeasure_parts m
  rw [readMeasure, g1, ok_bind, tint_nat, ok_bind, g2, ok_bind, g4, ok_bind, List.drop_one, List.tail_cons, headNames, if_neg hne, binNames, mapM_map',
    mapM_eq (g := fun b : List Char × List ℚ => (b.1, b.2.map (sciSigned 6)))]
  · rfl
  · intro b hb
    have h1 : tget (trialTable m) b.1 = .ok (.list ((b.2.map (gStr 6)).map .str)) := by
      have := dictGet_map (fun l : List (List Char) => TVal.list (l.map .str)) (tableColumns ("index".toList :: headNames m) (trialFields m)) b.1
      rw [column_get hm hb] at this
      rw [trialTable, columnsVal, tget, this]
      rfl
    rw [h1, ok_bind]
    show (Except.ok _ >>= _) = _
    rw [ok_bind, List.map_map, mapM_map', mapM_eq (g := sciSigned 6)]
    · rfl
    · intro v _
      show tfloat (.str (gStr 6 v)) = _
      rw [tfloat, decVal_gStr]

theorem occurrences_map {A : List (List Char × Measured)} (hn : (A.map Prod.fst).Nodup) (k : List Char) :
    occurrences (A.map (fun x => (x.1, measureVal x.2))) k = ((dictGet A k).map measureVal).toList := by
  induction A with
  | nil => rfl
  | cons x A ih =>
    obtain ⟨j, m⟩ := x
    rw [List.map_cons, List.nodup_cons] at hn
    have ih := ih hn.2
    by_cases hj : j = k
    · subst hj
      have h0 : dictGet A j = none := by
        cases h : dictGet A j with
        | none => rfl
        | some v =>
          obtain ⟨y, hy, e⟩ : ∃ y ∈ A, y.1 = j := by
            rw [dictGet, Option.map_eq_some_iff] at h
            obtain ⟨y, hy, _⟩ := h
            exact ⟨y, List.mem_of_find?_eq_some hy, by simpa using List.find?_some hy⟩
          exact absurd (List.mem_map.2 ⟨y, hy, e⟩) hn.1
      rw [h0] at ih
      simp only [occurrences, Option.map_none, Option.toList_none, List.map_eq_nil_iff] at ih
      simp [occurrences, dictGet, ih]
    · simpa [occurrences, dictGet, hj] using ih

theorem readMeasures_eq {c : TVal} {d : List (List Char × TVal)} (hc : c = .dict d) {A : List (List Char × Measured)}
    (hA : ∀ x ∈ A, Analysed x.2) (hb : ∀ x ∈ A, x.2.trials ≠ []) (names : List (List Char)) (h : ∀ k ∈ names, dictGet d k = (dictGet A k).map measureVal) :
    readMeasures c names = .ok (names.filterMap (fun k => (dictGet A k).map (fun m => (k, ((m.n : ℤ), readValues m))))) := by
  subst hc
  induction names with
  | nil => rfl
  | cons k names ih =>
    have ih := ih (fun j hj => h j (by simp [hj]))
    rw [readMeasures, h k (by simp)]
    cases hk : dictGet A k with
    | none =>
      rw [List.filterMap_cons_none (by rw [hk]; rfl)]
      exact ih
    | some m =>
      have hm : Analysed m ∧ m.trials ≠ [] := by
        rw [dictGet, Option.map_eq_some_iff] at hk
        obtain ⟨y, hy, rfl⟩ := hk
        exact ⟨hA y (List.mem_of_find?_eq_some hy), hb y (List.mem_of_find?_eq_some hy)⟩
      rw [List.filterMap_cons_some (by rw [hk]; rfl)]
      simp only [Option.map_some]
      rw [readMeasure_eq hm.1 hm.2, ok_bind, ih, ok_bind]

theorem dictGet_filterMap {α : Type} (f : List Char → Option α) (names : List (List Char)) (k : List Char) :
    dictGet (names.filterMap (fun j => (f j).map (fun m => (j, m)))) k = if k ∈ names then f k else none := by
  induction names with
  | nil => rfl
  | cons j names ih =>
    cases hj : f j with
    | none =>
      rw [List.filterMap_cons_none (by rw [hj]; rfl), ih]
      by_cases h : k = j
      · subst h; simp [hj]
      · simp [h]
    | some m =>
      rw [List.filterMap_cons_some (by rw [hj]; rfl)]
      by_cases h : k = j
      · subst h; simp [hj, dictGet]
      · have h' : ¬ j = k := fun e => h e.symm
        have : dictGet ((j, m) :: names.filterMap (fun j => (f j).map (fun m => (j, m)))) k =
            dictGet (names.filterMap (fun j => (f j).map (fun m => (j, m)))) k := by simp [dictGet, h']
        rw [this, ih]
        simp [h]

/-- what is found in the file written -/
theorem read_written {C : Classes} {version filename : List Char} {A : List (List Char × Measured)} (h : AnalysisOk C version filename A)
    (sep : List Char) (hsep : sep = ['\n'] ∨ sep = ['\r', '\n']) : ∃ file d, raWrite sep version filename A = .ok file ∧
      readStructureFile C file = .ok (.dict d) ∧ (∀ k ∈ measureNames, dictGet d k = (dictGet A k).map measureVal) ∧
      dictGet d "n_sigma".toList = some (sigmaTable A) := by
  obtain ⟨file, hw, hr⟩ := read_kept h sep hsep
  obtain ⟨x, y, hd⟩ := kept_definitions h
  have hval := C33_value_partial hd
  set ds := ("version".toList, x) :: ("source".toList, y) :: ("n_sigma".toList, sigmaTable A) :: A.map (fun x => (x.1, measureVal x.2)) with hds
  obtain ⟨d, hmd, _⟩ := mergeAll_get ds (by rw [hds]; simp) []
  refine ⟨file, d, hw, by rw [readStructureFile, hr, hval, hmd], ?_, ?_⟩
  swap
  · obtain ⟨d', hmd', hg⟩ := mergeAll_get ds (by rw [hds]; simp) "n_sigma".toList
    rw [hmd] at hmd'
    injection hmd' with hmd'
    subst hmd'
    have hno : dictGet A "n_sigma".toList = none := by
      rw [dictGet, List.find?_eq_none.2]
      · rfl
      · intro a ha hk
        have := h.names a ha
        rw [show a.1 = "n_sigma".toList by simpa using hk] at this
        exact absurd this (by decide +kernel)
    have e : occurrences ds "n_sigma".toList = sigmaTable A :: occurrences (A.map (fun x => (x.1, measureVal x.2))) "n_sigma".toList := by
      rw [hds]
      simp [occurrences]
    rw [hg, e, occurrences_map h.nodup, hno]
    rfl
  intro k hk
  obtain ⟨d', hmd', hg⟩ := mergeAll_get ds (by rw [hds]; simp) k
  rw [hmd] at hmd'
  injection hmd' with hmd'
  subst hmd'
  have hno := (name_ok hk).2.2.1
  simp only [List.mem_cons, List.not_mem_nil, or_false, not_or] at hno
  have e : occurrences ds k = occurrences (A.map (fun x => (x.1, measureVal x.2))) k := by
    have h1 : ∀ (a : List Char) (v : TVal) (l : List (List Char × TVal)), k ≠ a → occurrences ((a, v) :: l) k = occurrences l k := by
      intro a v l ha
      simp [occurrences, Ne.symm ha]
    rw [hds, h1 _ _ _ hno.1, h1 _ _ _ hno.2.1, h1 _ _ _ hno.2.2]
  rw [hg, e, occurrences_map h.nodup]
  cases dictGet A k with
  | none => rfl
  | some m => rfl

/-- **C56 (partial).** The file of an analysis with at least one completed measure, each with at least one bin, can be written, and
reading it back — through the line reader, the comment stripper and the reader of structured text, for any system's line ending —
gives exactly the measures of the analysis, each with its number of trials and its bins in the same order, and for each bin the list
of values rounded to seven significant digits.  Missing: measures without bins (see `C56_no_bins_counterexample`), sources with
quotation marks or line breaks in their names, and values which are not finite. -/
theorem C56_roundtrip_partial (C : Classes) (sep : List Char) (hsep : sep = ['\n'] ∨ sep = ['\r', '\n']) (version filename : List Char)
    (A : List (List Char × Measured)) (h : AnalysisOk C version filename A) (hb : ∀ x ∈ A, x.2.trials ≠ []) :
    ∃ file R, raWrite sep version filename A = .ok file ∧ raRead C (some file) = .ok R ∧
      (∀ x ∈ A, ∃ cols, dictGet R x.1 = some ((x.2.n : ℤ), cols) ∧
        List.Forall₂ (fun b c => c.1 = b.1 ∧ List.Forall₂ (IsRounded 7) b.2 c.2) x.2.trials cols) ∧
      ∀ k, k ∉ A.map Prod.fst → dictGet R k = none := by
  obtain ⟨file, d, hw, hr, hget, _⟩ := read_written h sep hsep
  refine ⟨file, measureNames.filterMap (fun k => (dictGet A k).map (fun m => (k, ((m.n : ℤ), readValues m)))), hw, ?_, ?_, ?_⟩
  · rw [raRead, hr, ok_bind]
    exact readMeasures_eq rfl h.measures hb measureNames hget
  · intro x hx
    refine ⟨readValues x.2, ?_, ?_⟩
    · have := dictGet_filterMap (fun k => (dictGet A k).map (fun m => ((m.n : ℤ), readValues m))) measureNames x.1
      simp only [Option.map_map] at this
      rw [if_pos (h.names x hx), dictGet_of_mem h.nodup (show (x.1, x.2) ∈ A from hx)] at this
      exact this
    · rw [readValues, List.forall₂_map_right_iff]
      apply List.forall₂_same.2
      intro b _
      refine ⟨rfl, ?_⟩
      rw [List.forall₂_map_right_iff]
      exact List.forall₂_same.2 (fun v _ => isRounded_sci 6 v)
  · intro k hk
    have := dictGet_filterMap (fun k => (dictGet A k).map (fun m => ((m.n : ℤ), readValues m))) measureNames k
    simp only [Option.map_map] at this
    have h0 : dictGet A k = none := by
      cases hg : dictGet A k with
      | none => rfl
      | some v =>
        rw [dictGet, Option.map_eq_some_iff] at hg
        obtain ⟨y, hy, _⟩ := hg
        exact absurd (List.mem_map.2 ⟨y, List.mem_of_find?_eq_some hy, by simpa using List.find?_some hy⟩) hk
    rw [h0] at this
    simp only [Option.map_none, ite_self] at this
    exact this

/-- **C56 fails for a measure without bins**: the file written makes every later reading end with a ValueError. -/
theorem C56_no_bins_counterexample (C : Classes) (sep : List Char) (hsep : sep = ['\n'] ∨ sep = ['\r', '\n']) (version filename : List Char)
    (A : List (List Char × Measured)) (h : AnalysisOk C version filename A) (x : List Char × Measured) (hx : x ∈ A) (h0 : x.2.trials = [])
    (hn : x.2.n ≠ 0) : ∃ file, raWrite sep version filename A = .ok file ∧ raRead C (some file) = .error .value := by
  obtain ⟨file, d, hw, hr, hget, _⟩ := read_written h sep hsep
  refine ⟨file, hw, ?_⟩
  rw [raRead, hr, ok_bind]
  have hempty : ∀ m : Measured, m.trials = [] → (m.n ≠ 0 → readMeasure (measureVal m) = .error .value) ∧
      (m.n = 0 → ∃ r, readMeasure (measureVal m) = .ok r) := by
    intro m hm
    obtain ⟨e1, e2, e3⟩ := readMeasure_parts m
    rw [readMeasure, e1, ok_bind, tint_nat, ok_bind, e2, ok_bind, e3, ok_bind, headNames, if_pos hm]
    have hcol : tget (trialTable m) [] = .ok (.list ((List.replicate m.n ([] : List Char)).map .str)) := by
      have hg := dictGet_map (fun l : List (List Char) => TVal.list (l.map .str)) (tableColumns ("index".toList :: headNames m) (trialFields m)) []
      have : dictGet (tableColumns ("index".toList :: headNames m) (trialFields m)) [] = some (List.replicate m.n []) := by
        apply dictGet_of_mem
        · rw [tableColumns_fst, headNames, if_pos hm]; decide
        · rw [tableColumns, List.mem_map]
          refine ⟨([], 1), by rw [headNames, if_pos hm]; decide, ?_⟩
          simp only [Prod.mk.injEq, true_and]
          rw [trialFields, List.map_map, hm]
          apply List.ext_getElem
          · simp
          · intro t h1 h2
            simp
      rw [this] at hg
      rw [trialTable, columnsVal, tget, hg]
      rfl
    rw [List.drop_one, List.tail_cons, List.mapM_cons, hcol, ok_bind]
    constructor
    · intro hn
      obtain ⟨k, hk⟩ := Nat.exists_eq_succ_of_ne_zero hn
      show ((Except.ok _ >>= _) >>= _) >>= _ = _
      rw [ok_bind, hk, List.replicate_succ, List.map_cons, List.mapM_cons]
      rfl
    · intro hn
      rw [hn]
      exact ⟨_, rfl⟩
  have hread : ∀ y ∈ A, readMeasure (measureVal y.2) = .error .value ∨ ∃ r, readMeasure (measureVal y.2) = .ok r := by
    intro y hy
    by_cases hb : y.2.trials = []
    · by_cases hn : y.2.n = 0
      · exact Or.inr ((hempty y.2 hb).2 hn)
      · exact Or.inl ((hempty y.2 hb).1 hn)
    · exact Or.inr ⟨_, readMeasure_eq (h.measures y hy) hb⟩
  have hgx : dictGet A x.1 = some x.2 := dictGet_of_mem h.nodup hx
  have key : ∀ names : List (List Char), (∀ k ∈ names, k ∈ measureNames) → x.1 ∈ names →
      readMeasures (.dict d) names = .error .value := by
    intro names
    induction names with
    | nil => intro _ hm; simp at hm
    | cons k names ih =>
      intro hnames hmem
      rw [readMeasures, hget k (hnames k (by simp))]
      cases hk : dictGet A k with
      | none =>
        simp only [Option.map_none]
        refine ih (fun j hj => hnames j (by simp [hj])) ?_
        rcases List.mem_cons.1 hmem with e | hm
        · rw [← e, hgx] at hk; cases hk
        · exact hm
      | some m =>
        simp only [Option.map_some]
        obtain ⟨y, hy, e⟩ : ∃ y ∈ A, y.2 = m := by
          rw [dictGet, Option.map_eq_some_iff] at hk
          obtain ⟨y, hy, e⟩ := hk
          exact ⟨y, List.mem_of_find?_eq_some hy, e⟩
        rcases hread y hy with hr | ⟨r, hr⟩
        · rw [e] at hr
          rw [hr]; rfl
        · rw [e] at hr
          rw [hr, ok_bind, ih (fun j hj => hnames j (by simp [hj])) ?_]
          · rfl
          · rcases List.mem_cons.1 hmem with e' | hm
            · rw [← e', hgx] at hk
              injection hk with hk
              rw [← hk, (hempty x.2 h0).1 hn] at hr
              cases hr
            · exact hm
  exact key measureNames (fun k hk => hk) (h.names x hx)

/-- a text written is a beginning of the text with more lines -/
theorem write_prefix (sep a b : List Char) (ls : List (List Char)) : writeTextfile sep false [a, b] <+: writeTextfile sep false (a :: b :: ls) := by
  have e : ∀ l : List (List Char), writeTextfile sep false l = (join ['\n'] l).flatMap (fun c => if c = '\n' then sep else [c]) := by
    intro l; rw [writeTextfile, writeNewlines]; simp
  rw [e, e]
  cases ls with
  | nil => exact List.prefix_refl _
  | cons c ls =>
    refine ⟨(['\n'] ++ join ['\n'] (c :: ls)).flatMap (fun c => if c = '\n' then sep else [c]), ?_⟩
    rw [← List.flatMap_append]
    congr 1
    simp [join]

theorem readMeasures_none {d : List (List Char × TVal)} (names : List (List Char)) (h : ∀ k ∈ names, dictGet d k = none) :
    readMeasures (.dict d) names = .ok [] := by
  induction names with
  | nil => rfl
  | cons k names ih =>
    rw [readMeasures, h k (by simp)]
    exact ih (fun j hj => h j (by simp [hj]))

/-- **C54 fails when the program is stopped while it writes the file**: the file is replaced in place, so a beginning of it may be all
that is left.  If nothing was written yet, every later run ends with a TypeError; if the first two lines were written, the next run
finds no measures at all, and all trials completed before are lost. -/
theorem C54_write_counterexample (C : Classes) (sep : List Char) (hsep : sep = ['\n'] ∨ sep = ['\r', '\n']) (version filename : List Char)
    (A : List (List Char × Measured)) (h : AnalysisOk C version filename A) :
    ∃ file, raWrite sep version filename A = .ok file ∧
      (∃ k, raRead C (some (file.take k)) = .error .type) ∧ ∃ k, raRead C (some (file.take k)) = .ok [] := by
  rw [raWrite, raLines_eq h, ok_bind]
  refine ⟨_, rfl, ⟨0, ?_⟩, ?_⟩
  · rw [List.take_zero, raRead]
    have hv : readStructureFile C [] = .ok .none := C33_value_partial (Definitions.nil [] (by simp))
    rw [hv]
    rfl
  · obtain ⟨t, ht⟩ := write_prefix sep "# Randomness analysis".toList ("version = ".toList ++ version)
      (("source = ".toList ++ ('"' :: filename ++ ['"'])) :: ['#'] :: ("n_sigma = ".toList ++ headerText "bin".toList (A.map Prod.fst)) ::
        ((sigmaRows A ++ [['}']]) ++ A.flatMap (fun x => ['#'] :: blockLines x)))
    refine ⟨(writeTextfile sep false ["# Randomness analysis".toList, "version = ".toList ++ version]).length, ?_⟩
    rw [← ht, List.take_left]
    have k1 := kept_kept h ("version = ".toList ++ version) (by simp [keptLines])
    have hv : Plain version := ⟨h.version_ne, h.version_chars⟩
    have hread : readTextfile C none false true true (writeTextfile sep false ["# Randomness analysis".toList, "version = ".toList ++ version]) =
        ["version = ".toList ++ version] := by
      have hlines := C31_roundtrip_partial C sep hsep false ["# Randomness analysis".toList, "version = ".toList ++ version] (by
        intro l hl
        rw [List.mem_cons, List.mem_singleton] at hl
        rcases hl with rfl | rfl
        · unfold PlainLine; decide +kernel
        · exact k1.1) (by simp) (Or.inr (by
          intro l hl
          simp only [List.head?_cons, Option.mem_def, Option.some.injEq] at hl
          subst hl
          decide))
      change fileLines C none _ = _ at hlines
      obtain ⟨p, hp⟩ : ∃ p : List Char → Bool, p = fun e => (lstrip C.space e).head? != some '#' := ⟨_, rfl⟩
      rw [readTextfile, hlines]
      simp only [Bool.false_eq_true, if_false, if_true]
      have : C.space '#' = false := not_space (by decide) (by decide)
      rw [← hp, List.filter_cons_of_neg (by
        rw [show "# Randomness analysis".toList = '#' :: " Randomness analysis".toList from rfl, hp]; simp [lstrip, this]),
        List.filter_cons_of_pos (by rw [hp]; simpa using k1.2.1), List.filter_nil, List.map_cons, k1.2.2, List.map_nil]
    have hd : Definitions C ("version = ".toList ++ version) [("version".toList, .str version)] :=
      Definitions.last (asciiHead C "version".toList " ".toList " ".toList ⟨by decide, by decide⟩ (by decide) (by decide)) version _
        (plain_valueText C hv) (plain_simpleValue C hv)
    have hval := C33_value_partial hd
    rw [raRead, readStructureFile, hread]
    change (readStructure C ("version = ".toList ++ version) >>= _) = _
    rw [hval, ok_bind]
    exact readMeasures_none (d := [("version".toList, .str version)]) measureNames (by
      intro k hk
      have hne : ∀ k ∈ measureNames, decide ("version".toList = k) = false := by decide +kernel
      have := hne k hk
      rw [dictGet, List.find?_cons, this]
      rfl)

/-! ### examples -/

/-- two measures, one with two bins and two trials, one with one bin -/
def sampleAnalysis : List (List Char × Measured) :=
  [("m2cnd".toList, ⟨2, [("-1.5".toList, [123 / 1000, 4567891234]), ("0".toList, [-2 / 3, 0])], fun _ => some (5 / 2)⟩),
   ("sdaa".toList, ⟨1, [("0".toList, [1 / 7])], fun _ => none⟩)]

theorem sample_ok : AnalysisOk .ascii "3.6.2".toList "my data/a.scc".toList sampleAnalysis := by
  refine ⟨by simp [sampleAnalysis], by decide, by decide, ?_, by decide, by decide, by unfold PlainLine; decide, by decide, by decide⟩
  intro x hx
  simp only [sampleAnalysis, List.mem_cons, List.not_mem_nil, or_false] at hx
  rcases hx with rfl | rfl
  · refine ⟨by decide, ?_, ?_⟩
    · intro b hb
      simp only [List.mem_cons, List.not_mem_nil, or_false] at hb
      rcases hb with rfl | rfl
      · exact ⟨-3 / 2, by decide +kernel⟩
      · exact ⟨0, by decide +kernel⟩
    · intro b hb
      simp only [List.mem_cons, List.not_mem_nil, or_false] at hb
      rcases hb with rfl | rfl <;> rfl
  · refine ⟨by decide, ?_, ?_⟩
    · intro b hb
      simp only [List.mem_cons, List.not_mem_nil, or_false] at hb
      subst hb
      exact ⟨0, by decide +kernel⟩
    · intro b hb
      simp only [List.mem_cons, List.not_mem_nil, or_false] at hb
      subst hb; rfl

example : AnalysisOk .ascii "3.6.2".toList "my data/a.scc".toList sampleAnalysis ∧ (∀ x ∈ sampleAnalysis, x.2.trials ≠ []) :=
  ⟨sample_ok, by simp [sampleAnalysis]⟩

/-- the lines written -/
example : raLines "3.6.2".toList "my data/a.scc".toList sampleAnalysis = .ok (["# Randomness analysis", "version = 3.6.2",
    "source = \"my data/a.scc\"", "#", "n_sigma = {bin, m2cnd, sdaa", "-1.5        \t      2.5\t        -", "0           \t      2.5\t      nan", "}",
    "#", "m2cnd = {", "n_trials = 2", "trials  = {index, -1.5, 0", "0           \t0.123       \t-0.6666667  ",
    "1           \t4.567891e+09\t0           ", "}", "}", "#", "sdaa = {", "n_trials = 1", "trials  = {index, 0", "0           \t0.1428571   ",
    "}", "}"].map String.toList) := by decide +kernel

/-- a measure without bins -/
example : AnalysisOk .ascii "3.6.2".toList "a.scc".toList [("sdaa".toList, ⟨300, [], fun _ => none⟩)] :=
  ⟨by simp, by decide, by decide, by intro x hx; simp at hx; subst hx; exact ⟨by simp, by simp, by simp⟩, by decide, by decide,
    by unfold PlainLine; decide, by decide, by decide⟩

end Verif.Props
