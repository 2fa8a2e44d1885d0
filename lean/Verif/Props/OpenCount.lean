import Verif.Props.MergedFile
import Verif.Props.StructureText

/-!
C103: crater files as texts: tables with any columns in any order, comments, reference areas; and files which cannot be read.
-/

namespace Verif.Props

open Verif.Py Verif.Text Verif.Rand Verif.Scc Verif.CountFile

/-- Specification: the table has a column of this name with these numbers -/
def NumberColumn (cols : List (List Char × TVal)) (name : String) (qs : List ℚ) : Prop :=
  ∃ ts : List (List Char), dictGet cols name.toList = some (.list (ts.map TVal.str)) ∧ List.Forall₂ (fun t q => decVal t = some q) ts qs

/-- Specification: lines of a file which are comments, or are kept as they are -/
def FileLines (C : Classes) (lines : List (List Char)) : Prop :=
  (∀ l ∈ lines, (PlainLine l ∧ l.head? = some '#') ∨ KeptLine C l) ∧ lines ≠ [[]] ∧ ∀ l ∈ lines.head?, l.head? ≠ some bomChar

/-- Specification: the lines without the comments -/
def uncommented (lines : List (List Char)) : List Char := join ['\n'] (lines.filter (fun l => decide (l.head? ≠ some '#')))

theorem floats_column {cols : List (List Char × TVal)} {name : String} {qs : List ℚ} (h : NumberColumn cols name qs) :
    floats (.dict cols) name.toList = .ok qs ∧ has (.dict cols) name.toList = true := by
  obtain ⟨ts, h1, h2⟩ := h
  constructor
  · rw [floats, tget_dict h1, ok_bind, telems, ok_bind]
    induction h2 generalizing cols with
    | nil => rfl
    | cons h _ ih =>
      rename_i t q ts qs _
      rw [List.map_cons, List.mapM_cons, tfloat, h]
      have ih' := ih (cols := [(name.toList, .list (ts.map TVal.str))]) (by simp [dictGet])
      simp only [ok_bind]
      rw [ih']
      rfl
  · simp [has, h1]

/-- what the reader of .diam files gets from a file -/
theorem diam_fields (C : Classes) (sep : List Char) (hsep : sep = ['\n'] ∨ sep = ['\r', '\n']) (lines : List (List Char)) (hf : FileLines C lines)
    (ds : List (List Char × TVal)) (h : TextOf C (uncommented lines) ds) (hl : NoLastArray ds) (cols : List (List Char × TVal))
    (hcr : occurrences ds "crater".toList = [.dict cols]) :
    (readStructureFile C (writeTextfile sep false lines) >>= diamFields) = diamFields (.dict (dictOf ds)) := by
  have hne : ds ≠ [] := by
    rintro rfl
    simp [occurrences] at hcr
  rw [readStructureFile, read_lines C sep hsep lines hf.1 hf.2.1 hf.2.2]
  have := (C33_read_partial C _ ds h hne hl).1
  unfold uncommented at this
  rw [this, ok_bind]

noncomputable section

theorem open_diam (C : Classes) (shp : Except Exc Reading.Count) (file : List Char) (f : DiamFields) (c : Reading.Count)
    (h : (readStructureFile C file >>= diamFields) = .ok f) (hc : Reading.readDiam f.toFile = .ok c) :
    openCount C shp ".diam".toList file = .ok (.craters c) := by
  unfold openCount
  rw [if_neg (by decide), if_pos rfl, h]
  show (match Reading.readDiam f.toFile with | .ok c => _ | .error _ => _) = _
  rw [hc]

/-- **C103, craters with fractions.** A .diam file with an area and a table of craters, among any other definitions, columns and comments,
is opened with exactly its craters, each with its fraction (1 if there is no such column), in descending order, and the area. -/
theorem C103_diam_partial (C : Classes) (shp : Except Exc Reading.Count) (sep : List Char) (hsep : sep = ['\n'] ∨ sep = ['\r', '\n'])
    (lines : List (List Char)) (hf : FileLines C lines) (ds : List (List Char × TVal)) (h : TextOf C (uncommented lines) ds)
    (hl : NoLastArray ds) (cols : List (List Char × TVal)) (hcr : occurrences ds "crater".toList = [.dict cols])
    (diam frac : List ℚ) (hd : NumberColumn cols "diameter" diam) (hne : diam ≠ []) (hr : dictGet cols "reference_area".toList = none)
    (hfr : NumberColumn cols "fraction" frac ∧ frac.length = diam.length ∨
      dictGet cols "fraction".toList = none ∧ frac = diam.map (fun _ => 1))
    (ra : List Char) (a : ℚ) (ha : occurrences ds "area".toList = [.str ra]) (hra : decVal ra = some a) :
    ∃ c, openCount C shp ".diam".toList (writeTextfile sep false lines) = .ok (.craters c) ∧
      c.craters.Perm ((diam.zip frac).map (fun x => ((x.1 : ℝ), (x.2 : ℝ)))) ∧ c.craters.Pairwise (fun x y => y.1 ≤ x.1) ∧
      c.area = (a : ℝ) ∧ c.buffered = false ∧ c.prebinned = false := by
  have hg := dictOf_get ds
  have hcr' : dictGet (dictOf ds) "crater".toList = some (.dict cols) := by rw [hg, hcr]; rfl
  have har : dictGet (dictOf ds) "area".toList = some (.str ra) := by rw [hg, ha]; rfl
  obtain ⟨d1, _⟩ := floats_column hd
  have hhas : has (.dict cols) "reference_area".toList = false := by unfold has; dsimp only; rw [hr]; rfl
  have ht : tfloat (.str ra) = .ok a := by rw [tfloat, hra]
  have key : ∃ fo : Option (List ℚ), diamFields (.dict (dictOf ds)) = .ok ⟨diam, none, fo, some a⟩ ∧
      (∀ w, fo = some w → w.length = diam.length) ∧ (fo.map reals).getD ((reals diam).map fun _ => 1) = reals frac := by
    rw [diamFields, tget_dict hcr', ok_bind, d1, ok_bind, hhas, if_neg (by decide), tget_dict har, ok_bind, ht, ok_bind]
    rcases hfr with ⟨hfr, hlen⟩ | ⟨hfr, rfl⟩
    · obtain ⟨f1, f2⟩ := floats_column hfr
      rw [f2, if_pos rfl, f1]
      exact ⟨some frac, rfl, by rintro w ⟨⟩; exact hlen, rfl⟩
    · have : has (.dict cols) "fraction".toList = false := by unfold has; dsimp only; rw [hfr]; rfl
      rw [this, if_neg (by decide)]
      refine ⟨none, rfl, by simp, ?_⟩
      simp [reals, Function.comp_def]
  obtain ⟨fo, e, hlen, hw⟩ := key
  obtain ⟨c, hc⟩ := C12_diam_accepted (DiamFields.toFile ⟨diam, none, fo, some a⟩) rfl a rfl
    (by show reals diam ≠ []; rw [reals]; simpa using hne)
    (by
      intro w hw
      have hw' : fo.map reals = some w := hw
      rw [Option.map_eq_some_iff] at hw'
      obtain ⟨q, hq, rfl⟩ := hw'
      show (reals q).length = (reals diam).length
      simp [reals, hlen q hq])
  obtain ⟨h1, h2, h3, h4, h5, _⟩ := C12_diam _ c rfl hc
  refine ⟨c, open_diam C shp _ _ c ((diam_fields C sep hsep lines hf ds h hl cols hcr).trans e) hc, ?_, h2, ?_, h4, h5⟩
  · have e1 : List.zip (DiamFields.toFile ⟨diam, none, fo, some a⟩).diameter
        ((DiamFields.toFile ⟨diam, none, fo, some a⟩).fraction.getD ((DiamFields.toFile ⟨diam, none, fo, some a⟩).diameter.map fun _ => 1)) =
        (diam.zip frac).map (fun x => ((x.1 : ℝ), (x.2 : ℝ))) := by
      show List.zip (reals diam) ((fo.map reals).getD ((reals diam).map fun _ => 1)) = _
      rw [hw, reals, reals, List.zip_map]
      rfl
    rw [← e1]
    exact h1
  · have : some (a : ℝ) = some c.area := h3
    injection this with this
    exact this.symm

/-- **C103, reference areas.** A .diam file with a column of reference areas is opened as a buffered count: each crater weighted by the
reciprocal of its reference area, nominal area 1; whether or not there is an area or a fraction besides. -/
theorem C103_reference_partial (C : Classes) (shp : Except Exc Reading.Count) (sep : List Char) (hsep : sep = ['\n'] ∨ sep = ['\r', '\n'])
    (lines : List (List Char)) (hf : FileLines C lines) (ds : List (List Char × TVal)) (h : TextOf C (uncommented lines) ds)
    (hl : NoLastArray ds) (cols : List (List Char × TVal)) (hcr : occurrences ds "crater".toList = [.dict cols])
    (diam ref : List ℚ) (hd : NumberColumn cols "diameter" diam) (hne : diam ≠ []) (hr : NumberColumn cols "reference_area" ref)
    (hlen : ref.length = diam.length) (hz : ∀ r ∈ ref, r ≠ 0) :
    ∃ c, openCount C shp ".diam".toList (writeTextfile sep false lines) = .ok (.craters c) ∧
      c.craters.Perm ((diam.zip ref).map (fun x => ((x.1 : ℝ), 1 / (x.2 : ℝ)))) ∧ c.craters.Pairwise (fun x y => y.1 ≤ x.1) ∧
      c.area = 1 ∧ c.buffered = true := by
  have hg := dictOf_get ds
  have hcr' : dictGet (dictOf ds) "crater".toList = some (.dict cols) := by rw [hg, hcr]; rfl
  obtain ⟨d1, _⟩ := floats_column hd
  obtain ⟨r1, r2⟩ := floats_column hr
  have e : diamFields (.dict (dictOf ds)) = .ok ⟨diam, some ref, none, none⟩ := by
    rw [diamFields, tget_dict hcr', ok_bind, d1, ok_bind, r2, if_pos rfl, r1]
    rfl
  have hrec : Reading.reciprocals (reals ref) = .ok ((reals ref).map (fun e => 1 / e)) := by
    have key : ∀ l : List ℚ, (∀ r ∈ l, r ≠ 0) → Reading.reciprocals (reals l) = .ok ((reals l).map (fun e => 1 / e)) := by
      intro l
      induction l with
      | nil => intro _; rfl
      | cons q l ih =>
        intro hz
        have hq : ((q : ℚ) : ℝ) ≠ 0 := by exact_mod_cast hz q (by simp)
        have ih' := ih (fun r hr => hz r (by simp [hr]))
        unfold Reading.reciprocals at ih' ⊢
        simp only [reals, List.map_cons, List.mapM_cons] at ih' ⊢
        rw [show Cratercount.fdiv 1 ((q : ℚ) : ℝ) = .ok (1 / ((q : ℚ) : ℝ)) from by simp [Cratercount.fdiv, hq], ih']
        rfl
    exact key ref hz
  have hc : ∃ c, Reading.readDiam (DiamFields.toFile ⟨diam, some ref, none, none⟩) = .ok c := by
    have hpos : 0 < diam.length := List.length_pos_iff.2 hne
    unfold Reading.readDiam
    have e1 : (DiamFields.toFile ⟨diam, some ref, none, none⟩).referenceArea = some (reals ref) := rfl
    have e2 : (DiamFields.toFile ⟨diam, some ref, none, none⟩).diameter = reals diam := rfl
    rw [e1, e2]
    simp only [hrec, except_ok_bind]
    have h1 : (reals ref).map (fun e => 1 / e) ≠ [] := by
      intro h0
      have := congrArg List.length h0
      simp [reals] at this
      rw [this] at hlen
      simp at hlen
      omega
    have h2 : (List.zip (reals diam) ((reals ref).map (fun e => 1 / e))).mergeSort (fun p q => Cratercount.craterLe q p) ≠ [] := by
      intro h0
      have := congrArg List.length h0
      rw [List.length_mergeSort] at this
      simp [reals] at this
      rcases this with h | h
      · exact hne h
      · rw [h] at hlen; simp at hlen; omega
    rw [if_neg h1, if_neg h2]
    exact ⟨_, rfl⟩
  obtain ⟨c, hc⟩ := hc
  obtain ⟨h1, _, h2, h3, h4, _⟩ := C12_diam_buffered _ c (reals ref) rfl hc
  refine ⟨c, open_diam C shp _ _ c ((diam_fields C sep hsep lines hf ds h hl cols hcr).trans e) hc, ?_, h2, h3, h4⟩
  have e1 : List.zip (DiamFields.toFile ⟨diam, some ref, none, none⟩).diameter ((reals ref).map (fun e => 1 / e)) =
      (diam.zip ref).map (fun x => ((x.1 : ℝ), 1 / (x.2 : ℝ))) := by
    show List.zip (reals diam) ((reals ref).map (fun e => 1 / e)) = _
    rw [reals, reals, List.map_map, List.zip_map]
    rfl
  rw [← e1]
  exact h1

/-- **C103, unreadable files.** Whatever the file, opening it either gives a count or ends the program with a message: no other exception
leaves the reader; and a file with an extension which is not known gives no count. -/
theorem C103_unreadable (C : Classes) (shp : Except Exc Reading.Count) (ext file : List Char) :
    ((∃ c, openCount C shp ext file = .ok c) ∨ openCount C shp ext file = .error .system) ∧
    (ext ∉ [".stat", ".diam", ".scc", ".shp"].map String.toList → openCount C shp ext file = .error .system) := by
  constructor
  · unfold openCount
    split_ifs
    · cases statFields C file with
      | error e => exact Or.inr rfl
      | ok rows =>
        dsimp only
        cases Cratercount.readStat (rows.map StatFields.toRow) with
        | error e => exact Or.inr rfl
        | ok x => exact Or.inl ⟨_, rfl⟩
    · cases (readStructureFile C file >>= diamFields) with
      | error e => exact Or.inr rfl
      | ok f =>
        dsimp only
        cases Reading.readDiam f.toFile with
        | error e => exact Or.inr rfl
        | ok x => exact Or.inl ⟨_, rfl⟩
    · cases (readStructureFile C file >>= sccFields C) with
      | error e => exact Or.inr rfl
      | ok f =>
        dsimp only
        cases Reading.readScc f.toFile with
        | error e => exact Or.inr rfl
        | ok x => exact Or.inl ⟨_, rfl⟩
    · cases shp with
      | error e => exact Or.inr rfl
      | ok f => exact Or.inl ⟨_, rfl⟩
    · exact Or.inr rfl
  · intro h
    simp only [List.map_cons, List.map_nil, List.mem_cons, List.not_mem_nil, or_false, not_or] at h
    unfold openCount
    rw [if_neg h.1, if_neg h.2.1, if_neg h.2.2.1, if_neg h.2.2.2]

/-- a file with a comment and a table with reference areas -/
example (C : Classes) : ∃ c, openCount C (.error .system) ".diam".toList (writeTextfile ['\n'] false
      (["# my craters".toList, "crater = ".toList ++ headerText "diameter".toList ["reference_area".toList]] ++
        [(3, 10), (1, 20)].map mergedRow ++ [['}']])) = .ok (.craters c) ∧ c.area = 1 := by
  have hrow : ∀ x : ℚ × ℚ, KeptLine C (mergedRow x) := by
    intro x
    refine kept_safe C (by rw [mergedRow_eq]; exact plain_first (plain_g 5 x.1)) ?_
    intro c hc
    rcases mergedRow_chars x c hc with h | rfl | rfl
    · exact List.mem_append_right _ h
    · decide +kernel
    · decide +kernel
  have hclose : ∃ fs, FieldLine C.space ['}'] (['}'] :: fs) := by
    refine ⟨[], ?_⟩
    have := FieldLine.field [] ['}'] [] ['}'] [] (sep := C.space) (by simp) (.plain _ (by simp) (by
      intro c hc; simp at hc; subst hc; exact not_space (by decide) (by decide)) (by simp) (by
      intro a b
      constructor <;> (intro e; have := congrArg List.length e; simp at this; omega))) (by simp) (.done [] (by simp))
    simpa using this
  have hv : ValueOf C (tableText "diameter".toList ["reference_area".toList] ([(3, 10), (1, 20)].map mergedRow))
      (.dict [("diameter".toList, .list [.str (gStr 5 3), .str (gStr 5 1)]), ("reference_area".toList, .list [.str (gStr 5 10), .str (gStr 5 20)])]) := by
    refine .plain _ _ (by rw [tableText]; decide +kernel) ?_
    have := PlainOf.table (C := C) ["diameter".toList, "reference_area".toList] [0, 1]
      ([(3, 10), (1, 20)].map (fun x => (mergedRow x, mergedFields x))) ['}'] [] (by simp) rfl (by
        intro t ht
        refine plain_tag ?_
        revert t
        decide +kernel) (by decide +kernel) (by
        intro r hr
        rw [List.mem_map] at hr
        obtain ⟨x, _, rfl⟩ := hr
        exact ⟨(hrow x).1, mergedRow_fields C x, by simp [mergedFields], plain_head_close (plain_g 5 x.1) _⟩)
      (by unfold PlainLine; decide) hclose (by simp)
    exact this
  have ht : TextOf C (uncommented (["# my craters".toList, "crater = ".toList ++ headerText "diameter".toList ["reference_area".toList]] ++
        [(3, 10), (1, 20)].map mergedRow ++ [['}']])) [("crater".toList,
          .dict [("diameter".toList, .list [.str (gStr 5 3), .str (gStr 5 1)]), ("reference_area".toList, .list [.str (gStr 5 10), .str (gStr 5 20)])])] := by
    have := TextOf.last (asciiHead C "crater".toList " ".toList " ".toList ⟨by decide, by decide⟩ (by decide) (by decide)) _ _
      (table_valueText C plain_diameter (ts := ["reference_area".toList]) (by decide +kernel) (rows := [(3, 10), (1, 20)].map mergedRow) (by
        intro r hr
        rw [List.mem_map] at hr
        obtain ⟨c, _, rfl⟩ := hr
        exact mergedRow_chars c)) hv
    have e : uncommented (["# my craters".toList, "crater = ".toList ++ headerText "diameter".toList ["reference_area".toList]] ++
        [(3, 10), (1, 20)].map mergedRow ++ [['}']]) =
        "crater = ".toList ++ tableText "diameter".toList ["reference_area".toList] ([(3, 10), (1, 20)].map mergedRow) := by
      decide +kernel
    rw [e]
    exact this
  obtain ⟨c, h1, _, _, h2, _⟩ := C103_reference_partial C (.error .system) ['\n'] (.inl rfl) _ (by
      refine ⟨?_, by simp, by decide +kernel⟩
      intro l hl
      rw [List.mem_append, List.mem_append] at hl
      rcases hl with (hl | hl) | hl
      · simp only [List.mem_cons, List.not_mem_nil, or_false] at hl
        rcases hl with rfl | rfl
        · exact Or.inl ⟨by unfold PlainLine; decide +kernel, rfl⟩
        · exact Or.inr (kept_safe C ⟨'c', by decide +kernel, by decide, by decide, by decide⟩ (by decide +kernel))
      · rw [List.mem_map] at hl
        obtain ⟨x, _, rfl⟩ := hl
        exact Or.inr (hrow x)
      · rw [List.mem_singleton] at hl
        subst hl
        exact Or.inr (kept_safe C ⟨'}', by decide, by decide, by decide, by decide⟩ (by decide +kernel))) _ ht (by
      intro k l h
      exfalso
      rw [occurrences, List.length_map] at h
      have := h.trans (List.length_filter_le _ _)
      simp at this) _ rfl [3, 1] [10, 20] ⟨[gStr 5 3, gStr 5 1], rfl, .cons (by decide +kernel) (.cons (by decide +kernel) .nil)⟩ (by simp)
      ⟨[gStr 5 10, gStr 5 20], rfl, .cons (by decide +kernel) (.cons (by decide +kernel) .nil)⟩ rfl (by decide +kernel)
  exact ⟨c, h1, h2⟩

end

end Verif.Props
