import Verif.Props.CountFile

/-!
The file of merged counts (C79).
-/

namespace Verif.Props

open Verif.Py Verif.Text Verif.Rand Verif.Scc Verif.CountFile

/-! ### rows of two columns -/

def mergedRow (x : ℚ × ℚ) : List Char := ljust 12 (gStr 5 x.1) ++ "  ".toList ++ gStr 5 x.2

def mergedFields (x : ℚ × ℚ) : List (List Char) := [gStr 5 x.1, gStr 5 x.2]

theorem mergedRow_eq (x : ℚ × ℚ) : mergedRow x = gStr 5 x.1 ++ (List.replicate (12 - (gStr 5 x.1).length + 2) ' ' ++ gStr 5 x.2) := by
  have e : "  ".toList = List.replicate 2 ' ' := rfl
  rw [mergedRow, ljust, e, List.append_assoc, List.append_assoc, ← List.append_assoc (List.replicate _ _), List.replicate_append_replicate]

theorem mergedRow_chars (x : ℚ × ℚ) : ∀ c ∈ mergedRow x, RowChar c := by
  intro c hc
  rw [mergedRow_eq, List.mem_append, List.mem_append] at hc
  rcases hc with hc | hc | hc
  · exact Or.inl ((plain_g 5 x.1).2 c hc)
  · exact Or.inr (Or.inl (List.eq_of_mem_replicate hc))
  · exact Or.inl ((plain_g 5 x.2).2 c hc)

theorem mergedRow_fields (C : Classes) (x : ℚ × ℚ) : FieldLine C.space (mergedRow x) (mergedFields x) := by
  rw [mergedRow_eq]
  have h1 := FieldLine.field (List.replicate (12 - (gStr 5 x.1).length + 2) ' ') (gStr 5 x.2) [] (gStr 5 x.2) [] (replicate_space C _)
    (fieldText_plain C (plain_g 5 x.2)) (by simp) (.done [] (by simp))
  rw [List.append_nil] at h1
  have h2 := FieldLine.field [] (gStr 5 x.1) _ (gStr 5 x.1) _ (by simp) (fieldText_plain C (plain_g 5 x.1)) (by
    intro c hc
    rw [List.replicate_succ, List.cons_append] at hc
    simp at hc
    subst hc
    exact space_space) h1
  exact h2

def mergedTags : List (List Char) := ["fraction".toList]
theorem plain_diameter : Plain "diameter".toList := ⟨by decide, by decide +kernel⟩
theorem mergedTags_plain : ∀ x ∈ mergedTags, ∀ c ∈ x, c ∈ plainChars := by decide +kernel

def mergedVal (cs : List (ℚ × ℚ)) : TVal := columnsVal (tableColumns ("diameter".toList :: mergedTags) (cs.map mergedFields))

theorem merged_value (C : Classes) (cs : List (ℚ × ℚ)) :
    simpleValue C.space (tableText "diameter".toList mergedTags (cs.map mergedRow) ++ ['\n']) = .ok (mergedVal cs) := by
  have := table_value C (t := "diameter".toList) (ts := mergedTags)
    (rows := cs.map (fun c => (mergedRow c, mergedFields c))) plain_diameter mergedTags_plain (by decide +kernel) (by
      intro r hr
      rw [List.mem_map] at hr
      obtain ⟨c, _, rfl⟩ := hr
      refine ⟨mergedRow_chars c, mergedRow_fields C c, by simp [mergedFields], ?_⟩
      exact plain_head_close (plain_g 5 c.1) _)
  rw [List.map_map, List.map_map] at this
  exact this

/-! ### the lines read -/

/-- the lines with definitions -/
def mergedKept (ra rp : List Char) (cs : List (ℚ × ℚ)) : List (List Char) :=
  ["area = ".toList ++ ra, "perimeter = ".toList ++ rp, "crater = ".toList ++ headerText "diameter".toList mergedTags] ++
    cs.map mergedRow ++ [['}']]

theorem kept_plain (C : Classes) (p : List Char) {t : List Char} (hp : ∃ d ∈ p.head?, d.toNat < 128 ∧ asciiSpace d = false ∧ d ≠ '#')
    (hps : ∀ c ∈ p, c ∈ safeChars) (ht : Plain t) : KeptLine C (p ++ t) := by
  refine kept_safe C ?_ ?_
  · obtain ⟨d, hd, h⟩ := hp
    cases p with
    | nil => simp at hd
    | cons e p => exact ⟨d, by simpa using hd, h⟩
  · intro c hc
    rcases List.mem_append.1 hc with hc | hc
    · exact hps c hc
    · exact List.mem_append_right _ (ht.2 c hc)

theorem kept_merged (C : Classes) {ra rp : List Char} (ha : Plain ra) (hp : Plain rp) (cs : List (ℚ × ℚ)) :
    ∀ l ∈ mergedKept ra rp cs, KeptLine C l := by
  intro l hl
  rw [mergedKept, List.mem_append, List.mem_append] at hl
  rcases hl with (hl | hl) | hl
  · simp only [List.mem_cons, List.not_mem_nil, or_false] at hl
    rcases hl with rfl | rfl | rfl
    · exact kept_plain C _ (by decide) (by decide +kernel) ha
    · exact kept_plain C _ (by decide) (by decide +kernel) hp
    · exact kept_safe C (by decide) (by decide +kernel)
  · rw [List.mem_map] at hl
    obtain ⟨x, _, rfl⟩ := hl
    refine kept_safe C (by rw [mergedRow_eq]; exact plain_first (plain_g 5 x.1)) ?_
    intro c hc
    rcases mergedRow_chars x c hc with h | rfl | rfl
    · exact List.mem_append_right _ h
    · decide +kernel
    · decide +kernel
  · rw [List.mem_singleton] at hl
    subst hl
    exact kept_safe C (by decide) (by decide +kernel)

theorem filter_hash (l : List (List Char)) (h : ∀ x ∈ l, x.head? = some '#') : l.filter (fun l => decide (l.head? ≠ some '#')) = [] := by
  rw [List.filter_eq_nil_iff]
  intro x hx
  simp [h x hx]

theorem filter_keep (C : Classes) (l : List (List Char)) (h : ∀ x ∈ l, KeptLine C x) : l.filter (fun l => decide (l.head? ≠ some '#')) = l := by
  rw [List.filter_eq_self]
  intro x hx
  have := (h x hx).2.1
  rw [decide_eq_true_eq]
  intro e
  cases x with
  | nil => cases e
  | cons c x =>
    simp at e
    subst e
    apply this
    rw [lstrip, List.dropWhile_cons_of_neg]
    · rfl
    · have : C.space '#' = false := not_space (by decide) (by decide)
      rw [this]; decide

theorem merged_read (C : Classes) (sep : List Char) (hsep : sep = ['\n'] ∨ sep = ['\r', '\n']) (repr : ℚ → List Char)
    (names : List (List Char)) (hn : ∀ f ∈ names, PlainLine f) (a p : ℚ) (ha : Plain (repr a)) (hp : Plain (repr p)) (cs : List (ℚ × ℚ)) :
    readTextfile C none false true true (mergedText sep repr names a p cs) = mergedKept (repr a) (repr p) cs := by
  have e : mergedLines repr names a p cs =
      (["# Merged crater diameter file".toList, "#----------------------------".toList, ['#']] ++ names.map (fun f => "# ".toList ++ f) ++ [['#']]) ++
      (["area = ".toList ++ repr a, "perimeter = ".toList ++ repr p] ++ ([['#']] ++
        (["crater = ".toList ++ headerText "diameter".toList mergedTags] ++ cs.map mergedRow ++ [['}']]))) := by
    have e1 : "crater = {diameter, fraction".toList = "crater = ".toList ++ headerText "diameter".toList mergedTags := rfl
    have e2 : (fun x : ℚ × ℚ => ljust 12 (gStr 5 x.1) ++ "  ".toList ++ gStr 5 x.2) = mergedRow := rfl
    rw [mergedLines, e1, e2]
    simp only [List.append_assoc, List.cons_append, List.nil_append]
  have hk := kept_merged C ha hp cs
  have hk1 : ∀ l ∈ ["area = ".toList ++ repr a, "perimeter = ".toList ++ repr p], KeptLine C l := by
    intro l hl
    apply hk
    rw [mergedKept]
    simp only [List.mem_append, List.mem_cons, List.not_mem_nil, or_false] at hl ⊢
    rcases hl with rfl | rfl
    · exact Or.inl (Or.inl (Or.inl rfl))
    · exact Or.inl (Or.inl (Or.inr (Or.inl rfl)))
  have hk2 : ∀ l ∈ ["crater = ".toList ++ headerText "diameter".toList mergedTags] ++ cs.map mergedRow ++ [['}']], KeptLine C l := by
    intro l hl
    apply hk
    rw [mergedKept]
    rw [List.mem_append, List.mem_append] at hl ⊢
    rcases hl with (hl | hl) | hl
    · rw [List.mem_singleton] at hl
      exact Or.inl (Or.inl (by rw [hl]; simp))
    · exact Or.inl (Or.inr hl)
    · exact Or.inr hl
  have hh : ∀ l ∈ ["# Merged crater diameter file".toList, "#----------------------------".toList, ['#']] ++
      names.map (fun f => "# ".toList ++ f) ++ [['#']], PlainLine l ∧ l.head? = some '#' := by
    intro l hl
    rw [List.mem_append, List.mem_append] at hl
    rcases hl with (hl | hl) | hl
    · have : ∀ l ∈ ["# Merged crater diameter file".toList, "#----------------------------".toList, ['#']], PlainLine l ∧ l.head? = some '#' := by
        unfold PlainLine; decide +kernel
      exact this l hl
    · rw [List.mem_map] at hl
      obtain ⟨f, hf, rfl⟩ := hl
      refine ⟨?_, rfl⟩
      intro c hc
      rcases List.mem_append.1 hc with hc | hc
      · have : ∀ c ∈ "# ".toList, c ∉ lineBreaks := by decide +kernel
        exact this c hc
      · exact hn f hf c hc
    · rw [List.mem_singleton] at hl
      subst hl
      exact ⟨by unfold PlainLine; decide +kernel, rfl⟩
  rw [mergedText, read_lines C sep hsep]
  · rw [e, List.filter_append, filter_hash _ (fun x hx => (hh x hx).2), List.filter_append, filter_keep C _ hk1, List.filter_append,
      filter_hash _ (by intro x hx; rw [List.mem_singleton] at hx; rw [hx]; rfl), filter_keep C _ hk2, mergedKept]
    simp only [List.append_assoc, List.cons_append, List.nil_append]
  · rw [e]
    intro l hl
    have hl := List.mem_append.1 hl
    rw [List.mem_append (s := ["area = ".toList ++ repr a, "perimeter = ".toList ++ repr p]), List.mem_append (s := [['#']])] at hl
    rcases hl with hl | hl | hl | hl
    · exact Or.inl (hh l hl)
    · exact Or.inr (hk1 l hl)
    · rw [List.mem_singleton] at hl
      subst hl
      exact Or.inl ⟨by unfold PlainLine; decide +kernel, rfl⟩
    · exact Or.inr (hk2 l hl)
  · rw [e]
    simp
  · rw [e]
    intro l hl
    have : l = "# Merged crater diameter file".toList := by
      rw [List.cons_append, List.cons_append, List.cons_append] at hl
      injection hl with hl
      exact hl.symm
    subst this
    decide

/-! ### the definitions -/

theorem merged_join (p1 v1 p2 v2 p3 h3 : List Char) (rows : List (List Char)) :
    join ['\n'] ([(p1 ++ [' ', '=', ' ']) ++ v1, (p2 ++ [' ', '=', ' ']) ++ v2, (p3 ++ [' ', '=', ' ']) ++ h3] ++ rows ++ [['}']]) =
    [] ++ (p1 ++ ([' '] ++ '=' :: ([' '] ++ (v1 ++ '\n' :: (
    [] ++ (p2 ++ ([' '] ++ '=' :: ([' '] ++ (v2 ++ '\n' :: (
    [] ++ (p3 ++ ([' '] ++ '=' :: ([' '] ++ join ['\n'] (h3 :: rows ++ [['}']])))))))))))))) := by
  have e : [(p1 ++ [' ', '=', ' ']) ++ v1, (p2 ++ [' ', '=', ' ']) ++ v2, (p3 ++ [' ', '=', ' ']) ++ h3] ++ rows ++ [['}']] =
      [(p1 ++ [' ', '=', ' ']) ++ v1, (p2 ++ [' ', '=', ' ']) ++ v2] ++ (((p3 ++ [' ', '=', ' ']) ++ h3) :: (rows ++ [['}']])) := by simp
  rw [e, join_append [_, _] _ (by simp) (by simp), join_prefix (p3 ++ [' ', '=', ' ']) h3]
  simp [join]

theorem merged_definitions (C : Classes) {ra rp : List Char} (ha : Plain ra) (hp : Plain rp) (cs : List (ℚ × ℚ)) :
    Definitions C (join ['\n'] (mergedKept ra rp cs)) [("area".toList, .str ra), ("perimeter".toList, .str rp), ("crater".toList, mergedVal cs)] := by
  have key := Definitions.simple (asciiHead C "area".toList " ".toList " ".toList ⟨by decide, by decide⟩ (by decide) (by decide))
    ra _ _ _ (plain_valueText C ha) (plain_simpleValue C ha)
    (Definitions.simple (asciiHead C "perimeter".toList " ".toList " ".toList ⟨by decide, by decide⟩ (by decide) (by decide))
      rp _ _ _ (plain_valueText C hp) (plain_simpleValue C hp)
    (Definitions.last (asciiHead C "crater".toList " ".toList " ".toList ⟨by decide, by decide⟩ (by decide) (by decide))
      (tableText "diameter".toList mergedTags (cs.map mergedRow)) _
      (table_valueText C plain_diameter mergedTags_plain (by
        intro r hr
        rw [List.mem_map] at hr
        obtain ⟨c, _, rfl⟩ := hr
        exact mergedRow_chars c)) (merged_value C cs)))
  have e := merged_join "area".toList ra "perimeter".toList rp "crater".toList (headerText "diameter".toList mergedTags) (cs.map mergedRow)
  have e' : join ['\n'] (mergedKept ra rp cs) = _ := e
  rw [e']
  exact key

theorem merged_dict (ra rp : List Char) (cs : List (ℚ × ℚ)) :
    ∃ d, mergeAll [("area".toList, .str ra), ("perimeter".toList, .str rp), ("crater".toList, mergedVal cs)] = .dict d ∧
      dictGet d "crater".toList = some (mergedVal cs) ∧ dictGet d "area".toList = some (.str ra) := by
  have hne : [("area".toList, TVal.str ra), ("perimeter".toList, .str rp), ("crater".toList, mergedVal cs)] ≠ [] := by simp
  obtain ⟨d, h0, h1⟩ := mergeAll_get _ hne "crater".toList
  obtain ⟨d2, h02, h2⟩ := mergeAll_get _ hne "area".toList
  rw [h0] at h02
  injection h02 with e2
  subst e2
  refine ⟨_, h0, ?_, ?_⟩
  · rw [h1]; rfl
  · rw [h2]; rfl

theorem merged_fields (C : Classes) (sep : List Char) (hsep : sep = ['\n'] ∨ sep = ['\r', '\n']) (repr : ℚ → List Char)
    (names : List (List Char)) (hn : ∀ f ∈ names, PlainLine f) (a p : ℚ)
    (hra : decVal (repr a) = some a) (hrp : decVal (repr p) = some p) (cs : List (ℚ × ℚ)) :
    (readStructureFile C (mergedText sep repr names a p cs) >>= diamFields) =
      .ok ⟨cs.map (fun x => sciSigned 5 x.1), none, some (cs.map (fun x => sciSigned 5 x.2)), some a⟩ := by
  have ha : Plain (repr a) := plain_num hra
  have hp : Plain (repr p) := plain_num hrp
  obtain ⟨d, d0, d1, d2⟩ := merged_dict (repr a) (repr p) cs
  have h : ∀ n, ((cs.map mergedFields).map (fun r => r.getD n [])).map TVal.str = cs.map (fun c => .str ((mergedFields c).getD n [])) := by
    intro n; rw [List.map_map, List.map_map]; rfl
  have e1 : tget (mergedVal cs) "diameter".toList = .ok (.list (((cs.map mergedFields).map (fun r => r.getD 0 [])).map TVal.str)) := rfl
  have e2 : tget (mergedVal cs) "fraction".toList = .ok (.list (((cs.map mergedFields).map (fun r => r.getD 1 [])).map TVal.str)) := rfl
  rw [h] at e1 e2
  have c1 := floats_g (mergedVal cs) "diameter".toList 5 (cs.map Prod.fst) (by rw [e1, List.map_map]; rfl)
  have c2 := floats_g (mergedVal cs) "fraction".toList 5 (cs.map Prod.snd) (by rw [e2, List.map_map]; rfl)
  have hr : has (mergedVal cs) "reference_area".toList = false := rfl
  have hf : has (mergedVal cs) "fraction".toList = true := rfl
  have ht : tfloat (.str (repr a)) = .ok a := by rw [tfloat, hra]
  rw [readStructureFile, merged_read C sep hsep repr names hn a p ha hp, C33_value_partial (merged_definitions C ha hp cs), ok_bind, d0,
    diamFields, tget_dict d1, ok_bind, c1, ok_bind, hr, if_neg (by decide), tget_dict d2, ok_bind, ht, ok_bind, hf, if_pos rfl, c2, ok_bind,
    ok_bind, List.map_map, List.map_map]
  rfl

noncomputable section

/-- C79: the file of merged counts, opened as a crater count, has all craters of the merged list, with diameters and fractions rounded to six
significant digits, in descending order, and exactly the merged area.  (`repr` is Python's `str` of a number, which must write
the area and the perimeter so that they are read as the same numbers.)
Missing: the perimeter, see the counterexample. -/
theorem C79_merged_partial (C : Classes) (shp : Except Exc Reading.Count) (sep : List Char) (hsep : sep = ['\n'] ∨ sep = ['\r', '\n'])
    (repr : ℚ → List Char) (names : List (List Char)) (hn : ∀ f ∈ names, PlainLine f) (a p : ℚ)
    (hra : decVal (repr a) = some a) (hrp : decVal (repr p) = some p) (cs : List (ℚ × ℚ)) (hne : cs ≠ []) :
    ∃ c, openCount C shp ".diam".toList (mergedText sep repr names a p cs) = .ok (.craters c) ∧
      c.craters.Perm (cs.map (fun x => (((sciSigned 5 x.1 : ℚ) : ℝ), ((sciSigned 5 x.2 : ℚ) : ℝ)))) ∧
      c.craters.Pairwise (fun x y => y.1 ≤ x.1) ∧ c.area = (a : ℝ) ∧ c.buffered = false ∧ c.prebinned = false ∧ c.perimeter = none := by
  have h := merged_fields C sep hsep repr names hn a p hra hrp cs
  obtain ⟨F, hF⟩ : ∃ F : DiamFields, F = ⟨cs.map (fun x => sciSigned 5 x.1), none, some (cs.map (fun x => sciSigned 5 x.2)), some a⟩ := ⟨_, rfl⟩
  rw [← hF] at h
  have e1 : F.toFile.diameter = cs.map (fun x => ((sciSigned 5 x.1 : ℚ) : ℝ)) := by
    rw [hF]; show reals _ = _; rw [reals, List.map_map]; rfl
  have e2 : F.toFile.fraction = some (cs.map (fun x => ((sciSigned 5 x.2 : ℚ) : ℝ))) := by
    rw [hF]; show some (reals _) = _; rw [reals, List.map_map]; rfl
  have e3 : F.toFile.referenceArea = none := by rw [hF]; rfl
  have e4 : F.toFile.area = some (a : ℝ) := by rw [hF]; rfl
  obtain ⟨c, hc⟩ := C12_diam_accepted F.toFile e3 a e4 (by rw [e1]; simpa using hne) (by
    intro w hw
    rw [e2] at hw
    injection hw with hw
    rw [← hw, e1]; simp)
  obtain ⟨h1, h2, h3, h4, h5, h6⟩ := C12_diam F.toFile c e3 hc
  refine ⟨c, ?_, ?_, h2, ?_, h4, h5, h6⟩
  · unfold openCount
    rw [if_neg (by decide), if_pos rfl, h]
    show (match Reading.readDiam F.toFile with | .ok c => _ | .error _ => _) = _
    rw [hc]
  · rw [e1, e2] at h1
    have e : List.zip (cs.map (fun x => ((sciSigned 5 x.1 : ℚ) : ℝ))) (cs.map (fun x => ((sciSigned 5 x.2 : ℚ) : ℝ))) =
        cs.map (fun x => (((sciSigned 5 x.1 : ℚ) : ℝ), ((sciSigned 5 x.2 : ℚ) : ℝ))) := zip_map_map _ _ _
    rw [← e]
    exact h1
  · rw [e4] at h3
    injection h3 with h3
    exact h3.symm

/-- The perimeter is written but not read, and therefore a merged file cannot be merged with further counts. -/
theorem C79_merge_again_counterexample (C : Classes) (shp : Except Exc Reading.Count) (sep : List Char)
    (hsep : sep = ['\n'] ∨ sep = ['\r', '\n']) (repr : ℚ → List Char) (names : List (List Char))
    (hn : ∀ f ∈ names, PlainLine f) (a p : ℚ) (hra : decVal (repr a) = some a) (hrp : decVal (repr p) = some p) (cs : List (ℚ × ℚ)) (hne : cs ≠ []) (l : List Reading.Count) (hl : l ≠ []) :
    ∃ c, openCount C shp ".diam".toList (mergedText sep repr names a p cs) = .ok (.craters c) ∧
      ∃ e, Reading.mergeCounts (c :: l) = .error e := by
  obtain ⟨c, h1, _, _, _, _, h2, h3⟩ := C79_merged_partial C shp sep hsep repr names hn a p hra hrp cs hne
  refine ⟨c, h1, .attribute, ?_⟩
  have hlen : ¬ (c :: l).length < 2 := by
    obtain ⟨y, l', rfl⟩ := List.exists_cons_of_ne_nil hl
    simp
  rw [Reading.mergeCounts, if_neg hlen, Reading.mergeLoop, h2, if_neg (by decide), h3]

example (C : Classes) : ∃ c, openCount C (.error .system) ".diam".toList (mergedText ['\n'] (gStr 14) ["a.scc".toList, "b.scc".toList]
      (5 / 2) 12 [(3, 1), (1234567, 1 / 2)]) = .ok (.craters c) ∧ c.area = ((5 / 2 : ℚ) : ℝ) := by
  obtain ⟨c, h, _, _, h2, _⟩ := C79_merged_partial C (.error .system) ['\n'] (.inl rfl) (gStr 14) ["a.scc".toList, "b.scc".toList]
    (by unfold PlainLine; decide +kernel) (5 / 2) 12 (by decide +kernel) (by decide +kernel) [(3, 1), (1234567, 1 / 2)] (by simp)
  exact ⟨c, h, h2⟩

end

end Verif.Props
