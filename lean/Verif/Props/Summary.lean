import Verif.Model.Summary
import Verif.Props.RandomnessFile

/-! C48, C76: the summary table. -/

namespace Verif.Props
open Verif.Py Verif.Text Verif.Summary

/-! ### ranks -/

/-- `i` is listed before `j`: older, or of the same age and earlier -/
def Before (t : ℕ → ℚ) (i j : ℕ) : Prop := t j < t i ∨ t j = t i ∧ i < j

instance (t : ℕ → ℚ) (i j : ℕ) : Decidable (Before t i j) := by unfold Before; infer_instance

theorem before_trans {t : ℕ → ℚ} {i j k : ℕ} (h1 : Before t i j) (h2 : Before t j k) : Before t i k := by
  rcases h1 with h1 | ⟨h1, h1'⟩ <;> rcases h2 with h2 | ⟨h2, h2'⟩
  · exact Or.inl (h2.trans h1)
  · exact Or.inl (h2 ▸ h1)
  · exact Or.inl (h1 ▸ h2)
  · exact Or.inr ⟨h2.trans h1, h1'.trans h2'⟩

theorem before_asymm {t : ℕ → ℚ} {i j : ℕ} (h1 : Before t i j) (h2 : Before t j i) : False := by
  rcases h1 with h1 | ⟨h1, h1'⟩ <;> rcases h2 with h2 | ⟨h2, h2'⟩
  · exact absurd h1 (not_lt.2 h2.le)
  · exact absurd h2 (ne_of_gt h1)
  · exact absurd h1 (ne_of_gt h2)
  · omega

/-- sorting keeps the order of equal ages -/
theorem insertion_stable (t : ℕ → ℚ) (l : List ℕ) (hl : l.Pairwise (· < ·)) :
    (l.insertionSort (fun i j => t j ≤ t i)).Pairwise (Before t) := by
  induction l with
  | nil => exact List.Pairwise.nil
  | cons a l ih =>
    obtain ⟨ha, hl⟩ := List.pairwise_cons.1 hl
    rw [List.insertionSort_cons]
    have hmem : ∀ x ∈ l.insertionSort (fun i j => t j ≤ t i), a < x := by
      intro x hx
      exact ha x ((List.mem_insertionSort _).1 hx)
    have hs := ih hl
    revert hmem hs
    generalize l.insertionSort (fun i j => t j ≤ t i) = m
    intro hmem hs
    induction m with
    | nil => simp
    | cons b m ihm =>
      obtain ⟨hb, hm⟩ := List.pairwise_cons.1 hs
      rw [List.orderedInsert_cons]
      split
      · rename_i hle
        rw [List.pairwise_cons]
        refine ⟨?_, hs⟩
        have hab : Before t a b := by
          rcases hle.lt_or_eq with h | h
          · exact Or.inl h
          · exact Or.inr ⟨h, hmem b (by simp)⟩
        intro x hx
        rcases List.mem_cons.1 hx with rfl | hx
        · exact hab
        · exact before_trans hab (hb x hx)
      · rename_i hle
        rw [List.pairwise_cons]
        refine ⟨?_, ihm (fun x hx => hmem x (by simp [hx])) hm⟩
        intro x hx
        rw [List.mem_orderedInsert] at hx
        rcases hx with rfl | hx
        · exact Or.inl (not_le.1 hle)
        · exact hb x hx

theorem idxOf_sorted (t : ℕ → ℚ) (l : List ℕ) (hl : l.Pairwise (Before t)) (i : ℕ) (hi : i ∈ l) :
    l.idxOf i = (l.filter (fun j => Before t j i)).length := by
  induction l with
  | nil => cases hi
  | cons a l ih =>
    obtain ⟨ha, hl⟩ := List.pairwise_cons.1 hl
    by_cases e : a = i
    · subst e
      rw [List.idxOf_cons_self, List.filter_cons_of_neg (by simpa using fun h => before_asymm h h), List.filter_eq_nil_iff.2]
      · rfl
      · intro x hx
        simpa using fun h => before_asymm h (ha x hx)
    · have hm : i ∈ l := by rcases List.mem_cons.1 hi with h | h; exact absurd h.symm e; exact h
      rw [List.idxOf_cons_ne _ e, ih hl hm, List.filter_cons_of_pos (by simpa using ha i hm), List.length_cons]

/-- Specification: the number of rows which are older, or of the same age and earlier in the table. -/
def rankOf (ages : List ℚ) (i : ℕ) : ℕ :=
  ((List.range ages.length).filter (fun j => ages.getD i 0 < ages.getD j 0 ∨ ages.getD j 0 = ages.getD i 0 ∧ j < i)).length

theorem sortOrder_eq (rows : List Plot) (i : ℕ) (hi : i < rows.length) : sortOrder rows i = rankOf (rows.map Plot.age) i := by
  obtain ⟨t, ht⟩ : ∃ t : ℕ → ℚ, t = fun i => (rows[i]?.map Plot.age).getD 0 := ⟨_, rfl⟩
  have e : ageOrder rows = (List.range rows.length).insertionSort (fun i j => t j ≤ t i) := by rw [ht]; rfl
  have hp := List.perm_insertionSort (fun i j => t j ≤ t i) (List.range rows.length)
  rw [sortOrder, e, idxOf_sorted t _ (insertion_stable t _ List.pairwise_lt_range) i
    ((List.mem_insertionSort _).2 (List.mem_range.2 hi)), rankOf, List.length_map, (hp.filter _).length_eq]
  congr 1
  apply List.filter_congr
  intro j _
  have hg : ∀ k, (rows.map Plot.age).getD k 0 = t k := by
    intro k; rw [ht, List.getD_eq_getElem?_getD, List.getElem?_map]
  rw [hg, hg, decide_eq_decide, Before]
  simp only [eq_comm]

/-! ### the table -/

/-- Specification: the fields of a row in the order of the headings, with the range to be listed, its text and the rank. -/
def rowFields (d : Plot) (r : List Char × List Char × List Char) (rank : ℕ) : List (List Char) :=
  [if d.name = [] then d.sourceName else d.name, d.area, d.binning, r.1, r.2.1, d.type, d.resurf, d.n, d.nEvent, natStr rank,
    d.ageText.1, d.ageText.2.1, d.ageText.2.2, d.a0Text.1, d.a0Text.2.1, d.a0Text.2.2,
    d.densityText.1, d.densityText.2.1, d.densityText.2.2, d.source, " ".toList, r.2.2, d.mathML.1, d.mathML.2, d.latex.1, d.latex.2]

/-- Specification: the headings. -/
def headings (lbl : List Char) : List (List Char) :=
  ["Name", "Area", "Binning", "d_min", "d_max", "Method", "Resurf", "N", "N_event", "Sort_order", "Age", "Age-", "Age+", "a0", "a0-",
    "a0+"].map String.toList ++ [lbl, lbl ++ ['-'], lbl ++ ['+']] ++ ["Source", " ", "Range", "Age"].map String.toList ++ [lbl] ++
    ["Age".toList] ++ [lbl]

/-- Specification: the range listed: that of the bins used if the *last* age of the table is a fit without resurfacing correction,
otherwise the range requested. -/
def listedRange (last d : Plot) : Option (List Char × List Char × List Char) :=
  if last.fit && !last.resurf1 then d.binRange else some d.range

theorem value_columns (last d : Plot) (rank : ℕ) :
    (listedRange last d = none → rowText (columns last) d rank = .error .type) ∧
    ∀ r, listedRange last d = some r → rowText (columns last) d rank = .ok (join [','] (rowFields d r rank ++ ["\" \"".toList])) := by
  rw [listedRange, rowText]
  cases hc : (last.fit && !last.resurf1) with
  | true =>
    have e : columns last = [.name, .area, .binning, .binRange, .type, .resurf, .n, .nEvent, .sortOrder, .t, .a0, .nd,
        .source, .blank, .rangeText, .mathML, .latex] := by rw [columns, hc]; rfl
    rw [e]
    simp only [if_true]
    constructor
    · intro h
      simp only [List.getD_cons_succ, List.getD_cons_zero, List.mapM_cons, Col.value, h]
      rfl
    · intro r h
      simp only [List.getD_cons_succ, List.getD_cons_zero, List.mapM_cons, List.mapM_nil, Col.value, h]
      show Except.ok _ = _
      congr 1
      simp [rowFields, join, three]
  | false =>
    have e : columns last = [.name, .area, .binning, .range, .type, .resurf, .n, .nEvent, .sortOrder, .t, .a0, .nd,
        .source, .blank, .rangeText, .mathML, .latex] := by rw [columns, hc]; rfl
    rw [e]
    simp only [Bool.false_eq_true, if_false]
    constructor
    · intro h; cases h
    · intro r h
      injection h with h
      subst h
      simp only [List.getD_cons_succ, List.getD_cons_zero, List.mapM_cons, List.mapM_nil, Col.value]
      show Except.ok _ = _
      congr 1
      simp [rowFields, join, three]

theorem header_columns (lbl : List Char) (last : Plot) : (columns last).flatMap (Col.header lbl) = headings lbl := by
  rw [columns]
  cases (last.fit && !last.resurf1) <;> rfl

theorem mapM_error {α β : Type*} (f : α → Except Exc β) (e : Exc) (l : List α)
    (hall : ∀ a ∈ l, f a = .error e ∨ ∃ b, f a = .ok b) (hex : ∃ a ∈ l, f a = .error e) : l.mapM f = .error e := by
  induction l with
  | nil => obtain ⟨a, ha, _⟩ := hex; cases ha
  | cons a l ih =>
    rw [List.mapM_cons]
    rcases hall a (by simp) with h | ⟨b, h⟩
    · rw [h]; rfl
    · rw [h, ih (fun x hx => hall x (by simp [hx]))]
      · rfl
      · obtain ⟨x, hx, hxe⟩ := hex
        rcases List.mem_cons.1 hx with rfl | hx
        · rw [h] at hxe; cases hxe
        · exact ⟨x, hx, hxe⟩

theorem mapM_ok_map {α β : Type*} (f : α → Except Exc β) (g : α → β) (l : List α) (h : ∀ a ∈ l, f a = .ok (g a)) :
    l.mapM f = .ok (l.map g) := by
  induction l with
  | nil => rfl
  | cons a l ih =>
    rw [List.mapM_cons, h a (by simp), ih (fun x hx => h x (by simp [hx]))]
    rfl

/-- Specification: the texts of a row which come from outside the program or from number formats. -/
def plainRow (d : Plot) : Prop :=
  ∀ f ∈ [d.name, d.sourceName, d.area, d.binning, d.type, d.resurf, d.n, d.nEvent, d.ageText.1, d.ageText.2.1, d.ageText.2.2,
    d.a0Text.1, d.a0Text.2.1, d.a0Text.2.2, d.densityText.1, d.densityText.2.1, d.densityText.2.2, d.source, d.range.1, d.range.2.1,
    d.range.2.2, (d.binRange.getD ([], [], [])).1, (d.binRange.getD ([], [], [])).2.1, (d.binRange.getD ([], [], [])).2.2,
    d.mathML.1, d.mathML.2, d.latex.1, d.latex.2], ',' ∉ f ∧ '\n' ∉ f

theorem natStr_plain (n : ℕ) : ',' ∉ natStr n ∧ '\n' ∉ natStr n := by
  have h := fun c hc => fixDigits_isDig (Nat.log 10 n + 1) n c hc
  constructor
  · intro hc; exact absurd (h _ hc) (by decide)
  · intro hc; exact absurd (h _ hc) (by decide)

theorem rowFields_plain (last d : Plot) (hp : plainRow d) (r) (hr : listedRange last d = some r) (rank : ℕ) :
    ∀ f ∈ rowFields d r rank ++ ["\" \"".toList], ',' ∉ f ∧ '\n' ∉ f := by
  have hr1 : (',' ∉ r.1 ∧ '\n' ∉ r.1) ∧ (',' ∉ r.2.1 ∧ '\n' ∉ r.2.1) ∧ (',' ∉ r.2.2 ∧ '\n' ∉ r.2.2) := by
    rw [listedRange] at hr
    split at hr
    · have e : d.binRange.getD ([], [], []) = r := by rw [hr]; rfl
      subst e
      exact ⟨hp _ (by simp), hp _ (by simp), hp _ (by simp)⟩
    · injection hr with e
      subst e
      exact ⟨hp _ (by simp), hp _ (by simp), hp _ (by simp)⟩
  have hn := natStr_plain rank
  simp only [plainRow, List.forall_mem_cons] at hp
  simp only [rowFields, List.cons_append, List.nil_append, List.forall_mem_cons]
  refine ⟨?_, ?_⟩
  · split
    · exact hp.2.1
    · exact hp.1
  · have h1 : ',' ∉ " ".toList ∧ '\n' ∉ " ".toList := by decide
    have h2 : ',' ∉ "\" \"".toList ∧ '\n' ∉ "\" \"".toList := by decide
    tauto

theorem join_not_mem (x : Char) (sep : List Char) (fs : List (List Char)) (hs : x ∉ sep) (h : ∀ f ∈ fs, x ∉ f) : x ∉ join sep fs := by
  induction fs with
  | nil => simp [join]
  | cons f fs ih =>
    cases fs with
    | nil => simpa [join] using h f (by simp)
    | cons g gs =>
      rw [join]
      have h1 := h f (by simp)
      have h2 := ih (fun a ha => h a (by simp [ha]))
      · simp only [List.mem_append, not_or]
        exact ⟨⟨h1, hs⟩, h2⟩
      all_goals simp

theorem headings_plain (lbl : List Char) (hlbl : ',' ∉ lbl ∧ '\n' ∉ lbl) :
    ∀ f ∈ headings lbl, ',' ∉ f ∧ '\n' ∉ f := by
  have h1 : ∀ x : Char, x ∉ lbl → x ≠ '-' → x ≠ '+' → x ∉ lbl ++ ['-'] ∧ x ∉ lbl ++ ['+'] := by
    intro x hx h1 h2
    simp [hx, h1, h2]
  have a := h1 ',' hlbl.1 (by decide) (by decide)
  have b := h1 '\n' hlbl.2 (by decide) (by decide)
  intro f hf
  simp only [headings, List.mem_append, List.mem_cons, List.not_mem_nil, or_false] at hf
  rcases hf with (((((hf | hf) | hf) | hf) | hf) | hf)
  · revert f; decide +kernel
  · rcases hf with rfl | rfl | rfl
    · exact hlbl
    · exact ⟨a.1, b.1⟩
    · exact ⟨a.2, b.2⟩
  · revert f; decide +kernel
  · exact hf ▸ hlbl
  · rw [hf]; decide +kernel
  · exact hf ▸ hlbl

/-- **C48.** For texts without commas and line breaks, and if the range chosen from the last age exists for every age (for instance if
all are fits, or all are Poisson ages, or the last is a Poisson age), the table has two caption lines, the headings and one row for
each age in the order of the plots; each row has its fields in the order of the headings, with the number of older ages (and earlier
ages of the same value) as sort order, and one more field `" "`.  If some age has no such range there is a TypeError; without ages there
is no table.  The full property, for every mixture and every name, is false (see the counterexamples). -/
theorem C48_table_partial (lbl : List Char) (hlbl : ',' ∉ lbl ∧ '\n' ∉ lbl) (plots : List Plot) (ages : List Plot)
    (hages : ages = plots.filter (fun p => p.data = false)) :
    (ages = [] → summaryTable lbl plots = .ok none) ∧
    ∀ last, ages.getLast? = some last →
      ((∃ d ∈ ages, listedRange last d = none) → summaryTable lbl plots = .error .type) ∧
      ((∀ d ∈ ages, (listedRange last d).isSome) → (∀ d ∈ ages, plainRow d) →
        ∃ st, summaryTable lbl plots = .ok (some st) ∧
          (split '\n' st).length = 3 + ages.length ∧
          (∀ h, (split '\n' st)[2]? = some h → split ',' h = headings lbl) ∧
          ∀ i d row, ages[i]? = some d → (split '\n' st)[3 + i]? = some row →
            ∃ r, listedRange last d = some r ∧
              split ',' row = rowFields d r (rankOf (ages.map Plot.age) i) ++ ["\" \"".toList]) := by
  have ea : ageRows plots = ages := by
    rw [hages, ageRows]
    apply List.filter_congr
    intro p _
    cases p.data <;> rfl
  refine ⟨?_, ?_⟩
  · intro h
    rw [summaryTable, ea, h]
    rfl
  · intro last hl
    have hS : summaryTable lbl plots = (do
        let rows ← (ages.mapIdx (fun i p => (i, p))).mapM (fun x => rowText (columns last) x.2 (sortOrder ages x.1))
        .ok (some (join ['\n'] (captions ++ [join [','] ((columns last).flatMap (Col.header lbl))] ++ rows)))) := by
      rw [summaryTable, ea]
      simp only [hl]
    refine ⟨?_, ?_⟩
    · rintro ⟨d, hd, hn⟩
      rw [hS, mapM_error _ .type]
      · rfl
      · intro x _
        cases hx : listedRange last x.2 with
        | none => exact Or.inl ((value_columns last x.2 _).1 hx)
        | some r => exact Or.inr ⟨_, (value_columns last x.2 _).2 r hx⟩
      · obtain ⟨i, hi, e⟩ := List.getElem_of_mem hd
        refine ⟨(i, d), ?_, (value_columns last d _).1 hn⟩
        rw [List.mem_mapIdx]
        exact ⟨i, hi, by rw [e]⟩
    · intro hr hp
      obtain ⟨R, hR⟩ : ∃ R : Plot → List Char × List Char × List Char, R = fun d => (listedRange last d).getD ([], [], []) := ⟨_, rfl⟩
      have hRs : ∀ d ∈ ages, listedRange last d = some (R d) := by
        intro d hd
        have := hr d hd
        rw [hR]
        show listedRange last d = some ((listedRange last d).getD ([], [], []))
        revert this
        cases listedRange last d with
        | none => intro this; cases this
        | some r => intro _; rfl
      obtain ⟨F, hF⟩ : ∃ F : ℕ × Plot → List (List Char),
          F = fun x => rowFields x.2 (R x.2) (rankOf (ages.map Plot.age) x.1) ++ ["\" \"".toList] := ⟨_, rfl⟩
      have hmem : ∀ x ∈ ages.mapIdx (fun i p => (i, p)), x.1 < ages.length ∧ x.2 ∈ ages := by
        intro x hx
        rw [List.mem_mapIdx] at hx
        obtain ⟨i, hi, e⟩ := hx
        subst e
        exact ⟨hi, List.getElem_mem hi⟩
      have hFp : ∀ x ∈ ages.mapIdx (fun i p => (i, p)), ∀ f ∈ F x, ',' ∉ f ∧ '\n' ∉ f := by
        intro x hx
        rw [hF]
        exact rowFields_plain last x.2 (hp _ (hmem x hx).2) _ (hRs _ (hmem x hx).2) _
      have hrows : (ages.mapIdx (fun i p => (i, p))).mapM (fun x => rowText (columns last) x.2 (sortOrder ages x.1))
          = .ok ((ages.mapIdx (fun i p => (i, p))).map (fun x => join [','] (F x))) := by
        apply mapM_ok_map
        intro x hx
        rw [sortOrder_eq ages x.1 (hmem x hx).1, (value_columns last x.2 _).2 _ (hRs _ (hmem x hx).2), hF]
      have hH := headings_plain lbl hlbl
      obtain ⟨L, hL⟩ : ∃ L : List (List Char), L = captions ++ [join [','] (headings lbl)] ++
          (ages.mapIdx (fun i p => (i, p))).map (fun x => join [','] (F x)) := ⟨_, rfl⟩
      have hst : summaryTable lbl plots = .ok (some (join ['\n'] L)) := by
        rw [hS, hrows, header_columns, hL]
        rfl
      have hcl : captions.length = 2 := rfl
      have hsp : split '\n' (join ['\n'] L) = L := by
        apply split_join
        · rw [hL]; simp
        · intro f hf
          rw [hL, List.mem_append, List.mem_append] at hf
          rcases hf with (hf | hf) | hf
          · revert f; decide +kernel
          · rw [List.mem_singleton] at hf
            rw [hf]
            exact join_not_mem _ _ _ (by decide) (fun g hg => (hH g hg).2)
          · obtain ⟨x, hx, e⟩ := List.mem_map.1 hf
            rw [← e]
            exact join_not_mem _ _ _ (by decide) (fun g hg => (hFp x hx g hg).2)
      refine ⟨_, hst, ?_, ?_, ?_⟩
      · rw [hsp, hL]
        simp [hcl]
        omega
      · intro h hh
        rw [hsp, hL, List.getElem?_append_left (by simp [hcl]), List.getElem?_append_right (by simp [hcl]), hcl] at hh
        injection hh with hh
        rw [← hh]
        exact split_join (by simp [headings]) (fun f hf => (hH f hf).1)
      · intro i d row hd hrow
        have hi : i < ages.length := by
          rw [List.getElem?_eq_some_iff] at hd
          exact hd.1
        have hm : (i, d) ∈ ages.mapIdx (fun i p => (i, p)) := by
          rw [List.mem_mapIdx]
          rw [List.getElem?_eq_some_iff] at hd
          exact ⟨i, hi, by rw [hd.2]⟩
        refine ⟨R d, hRs d (hmem _ hm).2, ?_⟩
        rw [hsp, hL, List.getElem?_append_right (by simp [hcl])] at hrow
        have e : 3 + i - (captions ++ [join [','] (headings lbl)]).length = i := by simp [hcl]
        rw [e, List.getElem?_map, List.getElem?_mapIdx, hd] at hrow
        injection hrow with hrow
        rw [← hrow]
        simp only
        rw [split_join (by rw [hF]; simp) (fun f hf => (hFp _ hm f hf).1), hF]

/-- Specification: a Poisson age and a fit -/
def poissonAge (name : String) (t : ℚ) : Plot :=
  { data := false, fit := false, type := "poisson".toList, name := name.toList, sourceName := "a".toList, source := "a.scc".toList,
    binning := "none".toList, area := "100".toList, resurf1 := false, resurf := "0".toList, n := "12".toList, nEvent := "12".toList,
    range := ("1".toList, "5".toList, "1-5 km".toList), binRange := none, age := t, ageText := ("3".toList, "2.9".toList, "3.1".toList),
    a0Text := ("-2.5".toList, "-2.6".toList, "-2.4".toList), densityText := ("3e-3".toList, "2e-3".toList, "4e-3".toList),
    mathML := ("m".toList, "m".toList), latex := ("l".toList, "l".toList) }

def fitAge (name : String) (t : ℚ) : Plot :=
  { poissonAge name t with fit := true, type := "c-fit".toList, binRange := some ("1".toList, "4".toList, "1-4 km".toList) }

def dataSeries : Plot := { poissonAge "data" 0 with data := true, type := "data".toList }

/-- the hypotheses of `C48_table_partial` are met by a data series and ages of both kinds, the last a Poisson age -/
example : (∀ d ∈ [fitAge "f" 3, poissonAge "p" 4], (listedRange (poissonAge "p" 4) d).isSome ∧ plainRow d) ∧
    rankOf [3, 4, 3, 5] 0 = 2 ∧ rankOf [3, 4, 3, 5] 2 = 3 ∧ rankOf [3, 4, 3, 5] 3 = 0 := by
  refine ⟨?_, by decide +kernel, by decide +kernel, by decide +kernel⟩
  unfold plainRow
  decide +kernel

/-- the number of headings: each row has one field more -/
example : (headings "N(1)".toList).length = 26 ∧ (rowFields dataSeries dataSeries.range 0).length = 26 := by decide +kernel

/-- **C48, counterexample.** A Poisson age followed by a fit gives a TypeError instead of a table; in the other order there is a table. -/
theorem C48_mixture_counterexample (lbl : List Char) :
    summaryTable lbl [poissonAge "p" 4, fitAge "f" 3] = .error .type ∧
    ∃ st, summaryTable lbl [fitAge "f" 3, poissonAge "p" 4] = .ok (some st) := by
  refine ⟨rfl, ?_⟩
  exact ⟨_, rfl⟩

/-- **C48, counterexample.** A comma in a name adds a field to its row. -/
theorem C48_comma_counterexample : ∃ st row,
    summaryTable "N(1)".toList [poissonAge "Mare, north" 4] = .ok (some st) ∧ (split '\n' st)[3]? = some row ∧
      (split ',' row).length = 28 ∧ (split ',' row)[1]? = some " north".toList := by
  have h : (match summaryTable "N(1)".toList [poissonAge "Mare, north" 4] with
      | .ok (some st) => ((split '\n' st)[3]?).map (fun row => ((split ',' row).length, (split ',' row)[1]?))
      | _ => none) = some (28, some " north".toList) := by decide +kernel
  revert h
  generalize summaryTable "N(1)".toList [poissonAge "Mare, north" 4] = o
  intro h
  match o, h with
  | .ok (some st), h =>
    simp only [Option.map_eq_some_iff, Prod.mk.injEq] at h
    obtain ⟨row, h1, h2, h3⟩ := h
    exact ⟨st, row, rfl, h1, h2, h3⟩

theorem split_lines (a b c : List Char) (ha : '\n' ∉ a) (hb : '\n' ∉ b) (hc : '\n' ∉ c) (rows : List (List Char)) :
    (split '\n' (join ['\n'] ([a, b] ++ [c] ++ rows)))[1]? = some b ∧
    (split '\n' (join ['\n'] ([a, b] ++ [c] ++ rows)))[2]? = some c := by
  cases rows with
  | nil =>
    rw [List.append_nil, split_join (by simp) (by simpa using ⟨ha, hb, hc⟩)]
    exact ⟨rfl, rfl⟩
  | cons r rows =>
    have e : join ['\n'] ([a, b] ++ [c] ++ r :: rows) = a ++ '\n' :: (b ++ '\n' :: (c ++ '\n' :: join ['\n'] (r :: rows))) := by
      simp [join]
    rw [e, split_append ha, split_append hb, split_append hc]
    exact ⟨rfl, rfl⟩

/-- **C76, counterexample.** In every table the caption `MathML` stands over the column `Range` and the caption `Latex` over the second
MathML column: each is one column to the left of the first column it describes. -/
theorem C76_captions_counterexample (lbl : List Char) (hlbl : ',' ∉ lbl ∧ '\n' ∉ lbl) (plots : List Plot) (st : List Char)
    (hst : summaryTable lbl plots = .ok (some st)) :
    ∃ cap head, (split '\n' st)[1]? = some cap ∧ (split '\n' st)[2]? = some head ∧
      (split ',' cap)[21]? = some "MathML".toList ∧ (split ',' head)[21]? = some "Range".toList ∧
      (split ',' cap)[23]? = some "Latex".toList ∧ (split ',' head)[23]? = some lbl ∧ (split ',' head)[24]? = some "Age".toList := by
  have hH := headings_plain lbl hlbl
  have hs : split ',' (join [','] (headings lbl)) = headings lbl := split_join (by simp [headings]) (fun f hf => (hH f hf).1)
  have hn : '\n' ∉ join [','] (headings lbl) := join_not_mem _ _ _ (by decide) (fun g hg => (hH g hg).2)
  rw [summaryTable] at hst
  cases hl : (ageRows plots).getLast? with
  | none => simp only [hl] at hst; cases hst
  | some d =>
    simp only [hl, header_columns] at hst
    revert hst
    generalize List.mapM (m := Except Exc) _ _ = o
    intro hst
    match o, hst with
    | .ok rows, hst =>
      have e : join ['\n'] (captions ++ [join [','] (headings lbl)] ++ rows) = st := Option.some.inj (Except.ok.inj hst)
      rw [← e]
      have h := split_lines (captions.getD 0 []) (captions.getD 1 []) _ (by decide +kernel) (by decide +kernel) hn rows
      refine ⟨_, _, h.1, h.2, by decide +kernel, ?_⟩
      rw [hs]
      exact ⟨rfl, by decide +kernel, rfl, rfl⟩

/-- the hypotheses are met -/
example : ∃ st, summaryTable "N(1)".toList [fitAge "f" 3, dataSeries, poissonAge "p" 4] = .ok (some st) := ⟨_, rfl⟩

end Verif.Props
