import Verif.Model.TextFile
import Verif.Py.RegexStar

/-! Properties C31 (text files) and C32 (comments). -/

namespace Verif.Props

open Verif.Py Verif.Text

/-- Specification: a line without line boundaries. -/
def PlainLine (l : List Char) : Prop := ∀ c ∈ l, c ∉ lineBreaks

theorem readNewlines_write (sep : List Char) (hsep : sep = ['\n'] ∨ sep = ['\r', '\n']) (s : List Char) (h : '\r' ∉ s) :
    readNewlines (writeNewlines sep s) = s := by
  induction s with
  | nil => rfl
  | cons c s ih =>
    rw [List.mem_cons, not_or] at h
    have e : writeNewlines sep (c :: s) = (if c = '\n' then sep else [c]) ++ writeNewlines sep s := by
      rw [writeNewlines, List.flatMap_cons]; rfl
    rw [e]
    by_cases hc : c = '\n'
    · subst hc
      rw [if_pos rfl]
      rcases hsep with rfl | rfl
      · rw [List.singleton_append, readNewlines, if_neg (by decide), ih h.2]
      · rw [List.cons_append, List.singleton_append, readNewlines, if_pos rfl, List.head?_cons, if_pos rfl, readNewlines,
          if_neg (by decide), ih h.2]
    · rw [if_neg hc, List.singleton_append, readNewlines, if_neg (Ne.symm h.1), ih h.2]

theorem splitLines_line {l : List Char} (h : PlainLine l) (s : List Char) :
    splitLines (l ++ '\n' :: s) = l :: splitLines s := by
  induction l with
  | nil =>
    rw [List.nil_append, splitLines, if_neg (fun h => absurd h.1 (by decide)), if_pos (by decide)]
  | cons c l ih =>
    have hc := h c (by simp)
    rw [List.cons_append, splitLines, if_neg, if_neg hc, ih (fun d hd => h d (by simp [hd]))]
    rintro ⟨rfl, _⟩
    exact hc (by decide)

theorem splitLines_last {l : List Char} (h : PlainLine l) (hne : l ≠ []) : splitLines l = [l] := by
  induction l with
  | nil => exact absurd rfl hne
  | cons c l ih =>
    have hc := h c (by simp)
    rw [splitLines, if_neg, if_neg hc]
    · cases l with
      | nil => rfl
      | cons d l => rw [ih (fun d hd => h d (by simp [hd])) (by simp)]
    · rintro ⟨rfl, _⟩
      exact hc (by decide)

/-- the lines of a joined list -/
theorem splitLines_join (ls : List (List Char)) (h : ∀ l ∈ ls, PlainLine l) (hne : ls ≠ [[]]) :
    splitLines (join ['\n'] ls) ++ (if (join ['\n'] ls).getLast? = some '\n' then [[]] else []) = ls := by
  induction ls with
  | nil => rfl
  | cons l ls ih =>
    have hl := h l (by simp)
    have hnl : '\n' ∉ l := fun hm => hl '\n' hm (by decide)
    cases ls with
    | nil =>
      have : l ≠ [] := fun e => hne (by rw [e])
      rw [join, splitLines_last hl this, if_neg]
      · rfl
      · intro hg
        exact hnl (List.mem_of_getLast? hg)
    | cons g ls =>
      rw [join, List.append_assoc, List.singleton_append, splitLines_line hl]
      by_cases hg : g :: ls = [[]]
      · rw [hg]
        simp [join, splitLines]
      · have := ih (fun x hx => h x (by simp [hx])) hg
        have hj : join ['\n'] (g :: ls) ≠ [] := by
          intro e
          rw [e] at this
          simp [splitLines] at this
        rw [List.cons_append]
        congr 1
        have e : (l ++ '\n' :: join ['\n'] (g :: ls)).getLast? = (join ['\n'] (g :: ls)).getLast? := by
          rw [List.getLast?_append, List.getLast?_cons_of_ne_nil hj]
          cases hx : (join ['\n'] (g :: ls)).getLast? with
          | none => exact absurd (List.getLast?_eq_none_iff.1 hx) hj
          | some x => rfl
        rw [e]
        exact this

theorem mem_join {c : Char} (ls : List (List Char)) (h : c ∈ join ['\n'] ls) : c = '\n' ∨ ∃ l ∈ ls, c ∈ l := by
  induction ls with
  | nil => simp [join] at h
  | cons l ls ih =>
    cases ls with
    | nil => exact Or.inr ⟨l, by simp, h⟩
    | cons g ls =>
      rw [join, List.mem_append, List.mem_append, List.mem_singleton] at h
      rcases h with (h | h) | h
      · exact Or.inr ⟨l, by simp, h⟩
      · exact Or.inl h
      · rcases ih h with h | ⟨x, hx, hc⟩
        · exact Or.inl h
        · exact Or.inr ⟨x, by simp [hx], hc⟩

/-- the text of a written file -/
theorem fileText_write (sep : List Char) (hsep : sep = ['\n'] ∨ sep = ['\r', '\n']) (bom : Bool) (ls : List (List Char))
    (h : ∀ l ∈ ls, PlainLine l) (hb : bom = true ∨ ∀ l ∈ ls.head?, l.head? ≠ some bomChar) :
    fileText (writeTextfile sep bom ls) = join ['\n'] ls := by
  have hr : '\r' ∉ join ['\n'] ls := by
    intro hm
    rcases mem_join ls hm with hc | ⟨l, hl, hc⟩
    · exact absurd hc (by decide)
    · exact h l hl _ hc (by decide)
  have hw := readNewlines_write sep hsep _ hr
  rw [fileText, writeTextfile]
  by_cases hcond : bom = true ∧ writeNewlines sep (join ['\n'] ls) ≠ []
  · rw [if_pos hcond, dropBom, if_pos rfl, hw]
  · rw [if_neg hcond]
    suffices hd : dropBom (writeNewlines sep (join ['\n'] ls)) = writeNewlines sep (join ['\n'] ls) by rw [hd, hw]
    by_cases hnil : writeNewlines sep (join ['\n'] ls) = []
    · rw [hnil]; rfl
    · have hb' : ∀ l ∈ ls.head?, l.head? ≠ some bomChar := by
        rcases hb with hb | hb
        · exact absurd ⟨hb, hnil⟩ hcond
        · exact hb
      have key : (writeNewlines sep (join ['\n'] ls)).head? ≠ some bomChar := by
        have hsepb : sep.head? ≠ some bomChar ∧ sep ≠ [] := by rcases hsep with rfl | rfl <;> decide
        intro hx
        cases hj : join ['\n'] ls with
        | nil => rw [hj] at hx; simp [writeNewlines] at hx
        | cons c t =>
          rw [hj, writeNewlines, List.flatMap_cons] at hx
          by_cases hc : c = '\n'
          · rw [if_pos hc, List.head?_append_of_ne_nil _ hsepb.2] at hx
            exact hsepb.1 hx
          · rw [if_neg hc] at hx
            have hcb : c = bomChar := by simpa using hx
            cases ls with
            | nil => simp [join] at hj
            | cons l ls =>
              rw [join_cons] at hj
              cases l with
              | nil =>
                cases ls with
                | nil => simp at hj
                | cons g ls =>
                  simp at hj
                  exact hc hj.1.symm
              | cons d l =>
                simp at hj
                exact hb' (d :: l) rfl (by rw [hj.1, hcb]; rfl)
      cases hx : writeNewlines sep (join ['\n'] ls) with
      | nil => rfl
      | cons c t =>
        rw [hx] at key
        rw [dropBom, if_neg (by simpa using key)]

/-- **C31.** Lines without line boundaries are read back as they were written, whatever the line ending of the system and with
or without a byte order mark; the list must not be the single empty line and, without a mark, the first line must not begin
with one. -/
theorem C31_roundtrip_partial (C : Classes) (sep : List Char) (hsep : sep = ['\n'] ∨ sep = ['\r', '\n']) (bom : Bool)
    (ls : List (List Char)) (h : ∀ l ∈ ls, PlainLine l) (hne : ls ≠ [[]])
    (hb : bom = true ∨ ∀ l ∈ ls.head?, l.head? ≠ some bomChar) :
    readTextfile C none false false false (writeTextfile sep bom ls) = ls := by
  show fileLines C none (writeTextfile sep bom ls) = ls
  rw [fileLines, fileText_write sep hsep bom ls h hb]
  exact splitLines_join ls h hne

/-- empty lines at the start, in the middle and at the end -/
example : (∀ l ∈ [[], "a b".toList, [], "c".toList, [], []], PlainLine l) ∧
    readTextfile .ascii none false false false (writeTextfile ['\r', '\n'] false [[], "a b".toList, [], "c".toList, [], []]) =
      [[], "a b".toList, [], "c".toList, [], []] := ⟨by unfold PlainLine; decide +kernel, by decide +kernel⟩

/-- **C31** fails for one empty line, which is read as no line. -/
theorem C31_empty_counterexample (C : Classes) (sep : List Char) (bom : Bool) :
    readTextfile C none false false false (writeTextfile sep bom [[]]) = [] ∧
    readTextfile C none false false false (writeTextfile sep bom []) = [] := by
  cases bom <;> exact ⟨rfl, rfl⟩

/-- **C31** fails for a first line beginning with a byte order mark, which is lost. -/
theorem C31_mark_counterexample (C : Classes) :
    readTextfile C none false false false (writeTextfile ['\n'] false [[bomChar, 'a']]) = ["a".toList] := by
  show fileLines C none _ = _
  rw [fileLines]
  decide +kernel

/-- **C31** (reading options): the first `n` lines come without surrounding white space, empty strings beyond the end; blank lines
and lines whose first visible character is `#` are left out in turn, all others are kept in order. -/
theorem C31_options (C : Classes) (sep : List Char) (hsep : sep = ['\n'] ∨ sep = ['\r', '\n']) (bom : Bool)
    (ls : List (List Char)) (h : ∀ l ∈ ls, PlainLine l) (hb : bom = true ∨ ∀ l ∈ ls.head?, l.head? ≠ some bomChar) :
    (∀ n, readTextfile C (some n) false false false (writeTextfile sep bom ls) =
      (List.range n).map (fun i => strip C.space (ls.getD i []))) ∧
    (ls ≠ [[]] → readTextfile C none true false false (writeTextfile sep bom ls) = ls.filter (fun l => decide (l ≠ [])) ∧
      readTextfile C none true true false (writeTextfile sep bom ls) =
        ls.filter (fun l => decide (l ≠ [] ∧ (l.dropWhile C.space).head? ≠ some '#'))) := by
  constructor
  · intro n
    show fileLines C (some n) _ = _
    rw [fileLines, fileText_write sep hsep bom ls h hb]
    cases ls with
    | nil =>
      apply List.map_congr_left
      intro i _
      cases i <;> rfl
    | cons l ls =>
      rw [split_join (by simp) (fun f hf hm => h f hf _ hm (by decide))]
  · intro hne
    have h0 : fileLines C none (writeTextfile sep bom ls) = ls := C31_roundtrip_partial C sep hsep bom ls h hne hb
    constructor
    · simp only [readTextfile, h0, if_true, Bool.false_eq_true, if_false]
      apply List.filter_congr
      intro x _
      cases x <;> simp
    · simp only [readTextfile, h0, if_true, Bool.false_eq_true, if_false, List.filter_filter]
      apply List.filter_congr
      intro x _
      rw [Bool.eq_iff_iff]
      simp only [Bool.and_eq_true, bne_iff_ne, decide_eq_true_eq, lstrip]
      tauto

/-- Specification: text in which every quotation mark belongs to a closed quotation and no semicolon stands outside one. -/
inductive Closed : List Char → Prop
  | nil : Closed []
  | char (c : Char) (w : List Char) : c ≠ ';' → c ≠ '\'' → c ≠ '"' → Closed w → Closed (c :: w)
  | quote (q : Char) (u w : List Char) : q = '\'' ∨ q = '"' → q ∉ u → Closed w → Closed (q :: u ++ q :: w)

/-- Specification: where the content of a line ends: at its end, at a semicolon, or at a quotation which is not closed. -/
def Stops (s : List Char) : Prop := s = [] ∨ (∃ t, s = ';' :: t) ∨ ∃ q t, (q = '\'' ∨ q = '"') ∧ q ∉ t ∧ s = q :: t

theorem Closed.append {a b : List Char} (ha : Closed a) (hb : Closed b) : Closed (a ++ b) := by
  induction ha with
  | nil => exact hb
  | char c w h1 h2 h3 _ ih => exact .char c _ h1 h2 h3 ih
  | quote q u w hq hu _ ih =>
    have := Closed.quote q u (w ++ b) hq hu ih
    simpa using this

theorem closed_of_ordinary {w : List Char} (h : ∀ c ∈ w, c ≠ ';' ∧ c ≠ '\'' ∧ c ≠ '"') : Closed w := by
  induction w with
  | nil => exact .nil
  | cons c w ih =>
    obtain ⟨h1, h2, h3⟩ := h c (by simp)
    exact .char c w h1 h2 h3 (ih (fun d hd => h d (by simp [hd])))

/-- the content is determined by these two conditions -/
theorem closed_unique {a b s t : List Char} (ha : Closed a) (hb : Closed b) (hs : Stops s) (ht : Stops t)
    (h : a ++ s = b ++ t) : a = b := by
  induction ha generalizing b with
  | nil =>
    cases hb with
    | nil => rfl
    | char c w h1 h2 h3 hw =>
      rw [List.nil_append] at h
      rcases hs with rfl | ⟨x, rfl⟩ | ⟨q, x, hq, hx, rfl⟩
      · simp at h
      · simp at h; exact absurd h.1.symm h1
      · simp at h
        rcases hq with rfl | rfl
        · exact absurd h.1.symm h2
        · exact absurd h.1.symm h3
    | quote q u w hq hu hw =>
      rw [List.nil_append] at h
      rcases hs with rfl | ⟨x, rfl⟩ | ⟨q', x, hq', hx, rfl⟩
      · simp at h
      · simp at h
        rcases hq with rfl | rfl
        · exact absurd h.1 (by decide)
        · exact absurd h.1 (by decide)
      · simp at h
        obtain ⟨rfl, h⟩ := h
        exact absurd (by rw [h]; simp) hx
  | char c w h1 h2 h3 hw ih =>
    cases hb with
    | nil =>
      rw [List.nil_append] at h
      rcases ht with rfl | ⟨x, rfl⟩ | ⟨q, x, hq, hx, rfl⟩
      · simp at h
      · simp at h; exact absurd h.1 h1
      · simp at h
        rcases hq with rfl | rfl
        · exact absurd h.1 h2
        · exact absurd h.1 h3
    | char c' w' h1' h2' h3' hw' =>
      simp at h
      rw [h.1, ih hw' h.2]
    | quote q u w' hq hu hw' =>
      simp at h
      rcases hq with rfl | rfl
      · exact absurd h.1 h2
      · exact absurd h.1 h3
  | quote q u w hq hu hw ih =>
    cases hb with
    | nil =>
      rw [List.nil_append] at h
      rcases ht with rfl | ⟨x, rfl⟩ | ⟨q', x, hq', hx, rfl⟩
      · simp at h
      · simp at h
        rcases hq with rfl | rfl
        · exact absurd h.1 (by decide)
        · exact absurd h.1 (by decide)
      · simp at h
        obtain ⟨rfl, h⟩ := h
        exact absurd (by rw [← h]; simp) hx
    | char c' w' h1' h2' h3' hw' =>
      simp at h
      rcases hq with rfl | rfl
      · exact absurd h.1.symm h2'
      · exact absurd h.1.symm h3'
    | quote q' u' w' hq' hu' hw' =>
      simp at h
      obtain ⟨rfl, h⟩ := h
      have hsplit : u = u' ∧ w ++ s = w' ++ t := by
        clear ih
        induction u generalizing u' with
        | nil =>
          cases u' with
          | nil => simpa using h
          | cons x u' => simp at h; exact absurd (by rw [h.1]; simp) hu'
        | cons x u ihu =>
          cases u' with
          | nil => simp at h; exact absurd (by rw [← h.1]; simp) hu
          | cons y u' =>
            simp at h
            have := ihu (fun hm => hu (by simp [hm])) u' (fun hm => hu' (by simp [hm])) h.2
            exact ⟨by rw [h.1, this.1], this.2⟩
      rw [hsplit.1, ih hw' hsplit.2]

/-- a quotation as an expression -/
def quoteRe (q : Char) : Re := .seq (.lit q) (.seq (.lazy (.chr (fun c => c != q))) (.lit q))

/-- the body of the repetition -/
def commentBody : Re :=
  .grp 1 (.alt (.grp 2 (quoteRe '"')) (.alt (.grp 3 (quoteRe '\'')) (.many (.chr (fun c => c != ';' && c != '\'' && c != '"')))))

theorem commentRe_eq : commentRe = .many commentBody := rfl

theorem quoteRe_mem {q : Char} {s t : St} (h : t ∈ (quoteRe q).run s) :
    ∃ u, q ∉ u ∧ s.rest = q :: u ++ q :: t.rest ∧ t.pre = (q :: u ++ [q]).reverse ++ s.pre := by
  rw [quoteRe, run_seq, List.mem_flatMap] at h
  obtain ⟨a, ha, h⟩ := h
  rw [run_seq, List.mem_flatMap] at h
  obtain ⟨b, hb, h⟩ := h
  obtain ⟨c, h1, h2, _, h4⟩ := mem_chr ha
  obtain ⟨w, g1, g2, _, g4⟩ := mem_lazy hb
  obtain ⟨d, k1, k2, _, k4⟩ := mem_chr h
  have hc : c = q := by simpa using h4
  have hd : d = q := by simpa using k4
  subst hc
  subst hd
  refine ⟨w, fun hm => by simpa using g4 _ hm, by rw [h1, g1, k1]; simp, by rw [k2, g2, h2]; simp⟩

theorem quoteRe_exists (q : Char) (s : St) (u t : List Char) (hu : q ∉ u) (h : s.rest = q :: u ++ q :: t) :
    ∃ x ∈ (quoteRe q).run s, x.rest = t := by
  obtain ⟨pre, rest, caps⟩ := s
  simp only at h
  subst h
  refine ⟨⟨q :: (u.reverse ++ q :: pre), t, caps⟩, ?_, rfl⟩
  rw [quoteRe, run_seq, List.mem_flatMap]
  refine ⟨⟨q :: pre, u ++ q :: t, caps⟩, ?_, ?_⟩
  · show _ ∈ (Re.chr _).run _
    rw [List.cons_append, run_chr_cons]; simp
  · rw [run_seq, List.mem_flatMap]
    refine ⟨⟨u.reverse ++ q :: pre, q :: t, caps⟩, ?_, ?_⟩
    · rw [Re.lazy, run_star_chr_lazy, List.mem_map]
      have hall : ∀ c ∈ u, (fun c => c != q) c = true := by
        intro c hc
        have : c ≠ q := fun e => hu (e ▸ hc)
        simp [this]
      refine ⟨u.length, ?_, by simp [St.adv]⟩
      rw [List.mem_range]
      show u.length < runLen _ (u ++ q :: t) + 1
      rw [runLen_append hall]
      omega
    · show _ ∈ (Re.chr _).run _
      rw [run_chr_cons]; simp

/-- every way through the body passes over closed text -/
theorem commentBody_mem {s t : St} (h : t ∈ commentBody.run s) :
    ∃ w, Closed w ∧ s.rest = w ++ t.rest ∧ t.pre = w.reverse ++ s.pre := by
  obtain ⟨u, hu, e1, e2⟩ := mem_grp h
  rw [← e1, ← e2]
  rw [run_alt, List.mem_append, run_alt, List.mem_append] at hu
  rcases hu with hu | hu | hu
  · obtain ⟨v, hv, e3, e4⟩ := mem_grp hu
    obtain ⟨w, h1, h2, h3⟩ := quoteRe_mem hv
    rw [← e3, ← e4]
    exact ⟨'"' :: w ++ ['"'], .quote _ w [] (Or.inr rfl) h1 .nil, by rw [h2]; simp, h3⟩
  · obtain ⟨v, hv, e3, e4⟩ := mem_grp hu
    obtain ⟨w, h1, h2, h3⟩ := quoteRe_mem hv
    rw [← e3, ← e4]
    exact ⟨'\'' :: w ++ ['\''], .quote _ w [] (Or.inl rfl) h1 .nil, by rw [h2]; simp, h3⟩
  · obtain ⟨w, h1, h2, _, h4⟩ := mem_many hu
    refine ⟨w, closed_of_ordinary ?_, h1, h2⟩
    intro c hc
    have := h4 c hc
    simp only [Bool.and_eq_true, bne_iff_ne] at this
    exact ⟨this.1.1, this.1.2, this.2⟩

/-- if the content does not end here, the body moves on -/
theorem commentBody_exists {s : St} (h : ¬ Stops s.rest) : ∃ t ∈ commentBody.run s, t.rest.length < s.rest.length := by
  have pass : ∀ u ∈ (Re.alt (.grp 2 (quoteRe '"')) (.alt (.grp 3 (quoteRe '\'')) (.many (.chr (fun c => c != ';' && c != '\'' && c != '"'))))).run s,
      u.rest.length < s.rest.length → ∃ t ∈ commentBody.run s, t.rest.length < s.rest.length := by
    intro u hu hlt
    obtain ⟨t, ht, _, e⟩ := grp_mem (n := 1) hu
    exact ⟨t, ht, by rw [← e]; exact hlt⟩
  cases hr : s.rest with
  | nil => exact absurd (Or.inl hr) h
  | cons c l =>
    rw [hr] at h
    rw [← hr]
    have hsemi : c ≠ ';' := fun e => h (Or.inr (Or.inl ⟨l, by rw [e]⟩))
    by_cases hq : c = '\'' ∨ c = '"'
    · have hin : c ∈ l := by
        by_contra hn
        exact h (Or.inr (Or.inr ⟨c, l, hq, hn, rfl⟩))
      obtain ⟨u, t, hu, hl⟩ : ∃ u t, c ∉ u ∧ l = u ++ c :: t := by
        clear h hr
        induction l with
        | nil => simp at hin
        | cons d l ih =>
          by_cases hd : d = c
          · exact ⟨[], l, by simp, by rw [hd]; rfl⟩
          · obtain ⟨u, t, h1, h2⟩ := ih (by
              rcases List.mem_cons.1 hin with e | e
              · exact absurd e.symm hd
              · exact e)
            exact ⟨d :: u, t, by simp [h1, Ne.symm hd], by rw [h2]; rfl⟩
      obtain ⟨x, hx, hxr⟩ := quoteRe_exists c s u t hu (by rw [hr, hl]; rfl)
      have hlt : x.rest.length < s.rest.length := by rw [hxr, hr, hl]; simp; omega
      rcases hq with rfl | rfl
      · obtain ⟨y, hy, _, e⟩ := grp_mem (n := 3) hx
        exact pass y (by rw [run_alt, List.mem_append, run_alt, List.mem_append]; exact Or.inr (Or.inl hy)) (by rw [← e]; exact hlt)
      · obtain ⟨y, hy, _, e⟩ := grp_mem (n := 2) hx
        exact pass y (by rw [run_alt, List.mem_append]; exact Or.inl hy) (by rw [← e]; exact hlt)
    · rw [not_or] at hq
      have hrun : 1 ≤ runLen (fun c => c != ';' && c != '\'' && c != '"') s.rest := by
        rw [hr, runLen_cons_pos (by simp [hsemi, hq.1, hq.2])]
        omega
      refine pass (s.adv 1) ?_ (by rw [adv_rest, hr]; simp)
      rw [run_alt, List.mem_append, run_alt, List.mem_append]
      refine Or.inr (Or.inr ?_)
      rw [Re.many, run_star_chr_greedy, List.mem_map]
      exact ⟨1, by rw [List.mem_reverse, List.mem_range]; omega, rfl⟩

theorem comment_run (n : ℕ) (s : St) (hn : s.rest.length ≤ n) :
    ∃ t w, (starRun commentBody.run true n s).head? = some t ∧ Closed w ∧ Stops t.rest ∧ s.rest = w ++ t.rest ∧
      t.pre = w.reverse ++ s.pre := by
  induction n generalizing s with
  | zero =>
    have : s.rest = [] := List.length_eq_zero_iff.1 (by omega)
    exact ⟨s, [], rfl, .nil, Or.inl this, by simp, by simp⟩
  | succ n ih =>
    rw [starRun_head]
    cases h : ((commentBody.run s).filter (fun t => decide (t.rest.length < s.rest.length))).head? with
    | none =>
      refine ⟨s, [], rfl, .nil, ?_, by simp, by simp⟩
      by_contra hs
      obtain ⟨t, ht, hlt⟩ := commentBody_exists hs
      rw [List.head?_eq_none_iff, List.filter_eq_nil_iff] at h
      exact h t ht (by simpa using hlt)
    | some t =>
      have hm := List.mem_of_head? h
      rw [List.mem_filter, decide_eq_true_eq] at hm
      obtain ⟨w, h1, h2, h3⟩ := commentBody_mem hm.1
      obtain ⟨x, v, g1, g2, g3, g4, g5⟩ := ih t (by omega)
      exact ⟨x, w ++ v, g1, h1.append g2, g3, by rw [h2, g4]; simp, by rw [g5, h3]; simp⟩

/-- **C32.** Every line is its content followed by a rest: in the content all quotations are closed and no semicolon stands
outside them; the rest is empty, or begins with a semicolon, or with a quotation which is never closed.  Stripping returns the
content. -/
theorem C32_content (e : List Char) : ∃ rest, e = stripComment e ++ rest ∧ Closed (stripComment e) ∧ Stops rest := by
  obtain ⟨t, w, h1, h2, h3, h4, h5⟩ := comment_run e.length ⟨[], e, []⟩ le_rfl
  have hm : commentRe.match_ e = some t := h1
  have hs : stripComment e = w := by
    rw [stripComment, hm]
    exact matched_step h5
  rw [hs]
  exact ⟨t.rest, h4, h2, h3⟩

/-- how to find the content of a line -/
theorem stripComment_eq {a r : List Char} (ha : Closed a) (hr : Stops r) : stripComment (a ++ r) = a := by
  obtain ⟨rest, h1, h2, h3⟩ := C32_content (a ++ r)
  exact (closed_unique ha h2 hr h3 h1).symm

/-- **C32.** Everything from the first semicolon outside quotations is removed. -/
theorem C32_comment (a b : List Char) (ha : Closed a) : stripComment (a ++ ';' :: b) = a :=
  stripComment_eq ha (Or.inr (Or.inl ⟨b, rfl⟩))

/-- **C32.** A line whose quotations are closed, without a semicolon outside them, is unchanged; so is in particular a line
without semicolons and quotation marks. -/
theorem C32_unchanged_partial (a : List Char) : (Closed a → stripComment a = a) ∧
    ((∀ c ∈ a, c ≠ ';' ∧ c ≠ '\'' ∧ c ≠ '"') → stripComment a = a) := by
  have h : Closed a → stripComment a = a := fun ha => by simpa using stripComment_eq ha (Or.inl rfl)
  exact ⟨h, fun ha => h (closed_of_ordinary ha)⟩

/-- **C32.** Stripping twice is the same as once. -/
theorem C32_idempotent (e : List Char) : stripComment (stripComment e) = stripComment e := by
  obtain ⟨_, _, h, _⟩ := C32_content e
  exact (C32_unchanged_partial _).1 h

/-- a semicolon within quotations, another quotation mark within quotations, and a comment -/
example : Closed "a = 'x;\"y' ".toList ∧ stripComment "a = 'x;\"y' ;b 'c".toList = "a = 'x;\"y' ".toList := by
  refine ⟨?_, by decide +kernel⟩
  have h : Closed ("a = ".toList ++ ('\'' :: "x;\"y".toList ++ '\'' :: " ".toList)) :=
    (closed_of_ordinary (by decide)).append (.quote _ _ _ (Or.inl rfl) (by decide) (closed_of_ordinary (by decide)))
  exact h

/-- **C32** fails for an apostrophe: the line loses its end although it has no semicolon. -/
theorem C32_apostrophe_counterexample : stripComment "name = O'Brien".toList = "name = O".toList := by decide +kernel

end Verif.Props
