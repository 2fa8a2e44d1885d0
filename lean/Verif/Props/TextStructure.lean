import Verif.Model.TextStructure
import Verif.Py.RegexCont
import Verif.Props.QuotedSplit
import Verif.Props.TextFile

/-! Properties C33 (repeated keys) and C34 (tables). -/

namespace Verif.Props

open Verif.Py Verif.Text

/-! ### C34 -/

/-- a row added to columns with the keys `tags` -/
def extend : List (List Char × List (List Char)) → List (List Char) → List (List Char × List (List Char))
  | [], _ => []
  | (t, c) :: l, v => (t, c ++ [v.headD []]) :: extend l v.tail

theorem extend_fst (l : List (List Char × List (List Char))) (v : List (List Char)) : (extend l v).map Prod.fst = l.map Prod.fst := by
  induction l generalizing v with
  | nil => rfl
  | cons x l ih => obtain ⟨t, c⟩ := x; rw [extend, List.map_cons, ih]; rfl

theorem dictSet_middle {α : Type} (a b : List (List Char × α)) (t : List Char) (c d : α) (h : t ∉ a.map Prod.fst) :
    dictSet (a ++ (t, c) :: b) t d = a ++ (t, d) :: b := by
  induction a with
  | nil => simp [dictSet]
  | cons x a ih =>
    obtain ⟨k, v⟩ := x
    rw [List.map_cons, List.mem_cons, not_or] at h
    rw [List.cons_append, dictSet, if_neg (fun e => h.1 e.symm), ih h.2]
    rfl

theorem dictGet_middle {α : Type} (a b : List (List Char × α)) (t : List Char) (c : α) (h : t ∉ a.map Prod.fst) :
    dictGet (a ++ (t, c) :: b) t = some c := by
  induction a with
  | nil => simp [dictGet]
  | cons x a ih =>
    obtain ⟨k, v⟩ := x
    rw [List.map_cons, List.mem_cons, not_or] at h
    have := ih h.2
    rw [dictGet] at this ⊢
    rw [List.cons_append, List.find?_cons]
    have hk : ¬ k = t := fun e => h.1 e.symm
    simp only [hk, decide_false]
    exact this

theorem addRow_eq (done todo : List (List Char × List (List Char))) (v : List (List Char))
    (h : ((done ++ todo).map Prod.fst).Nodup) :
    addRow (todo.map Prod.fst) v (done ++ todo) = done ++ extend todo v := by
  induction todo generalizing done v with
  | nil => rfl
  | cons x todo ih =>
    obtain ⟨t, c⟩ := x
    have hn : t ∉ done.map Prod.fst := by
      rw [List.map_append, List.nodup_append] at h
      intro hm
      exact h.2.2 t hm t (by simp) rfl
    rw [List.map_cons, addRow, dictGet_middle _ _ _ _ hn, dictSet_middle _ _ _ _ _ hn, extend]
    have := ih (done ++ [(t, c ++ [v.headD []])]) v.tail (by simpa using h)
    rw [List.append_assoc, List.singleton_append] at this
    simp only [Option.getD_some]
    rw [this]
    simp

/-- Specification: the columns of a table. -/
def tableColumns (tags : List (List Char)) (rows : List (List (List Char))) : List (List Char × List (List Char)) :=
  tags.zipIdx.map (fun x => (x.1, rows.map (fun r => r.getD x.2 [])))

theorem extend_columns (tags : List (List Char)) (rows : List (List (List Char))) (v : List (List Char)) (k : ℕ) :
    extend ((tags.zipIdx k).map (fun x => (x.1, rows.map (fun r => r.getD x.2 [])))) (v.drop k) =
      (tags.zipIdx k).map (fun x => (x.1, (rows ++ [v]).map (fun r => r.getD x.2 []))) := by
  induction tags generalizing k with
  | nil => rfl
  | cons t tags ih =>
    rw [List.zipIdx_cons, List.map_cons, extend, List.map_cons, List.tail_drop, ih]
    congr 2
    simp [List.headD_eq_head?_getD, List.head?_drop]

theorem tableColumns_fst (tags : List (List Char)) (rows : List (List (List Char))) :
    (tableColumns tags rows).map Prod.fst = tags := by
  rw [tableColumns, List.map_map]
  show List.map Prod.fst tags.zipIdx = tags
  rw [List.zipIdx_map_fst]

/-- the rows of a table up to its end or its closing brace -/
theorem tableRows_eq (space : Char → Bool) (tags : List (List Char)) (hn : tags.Nodup) (rows : List (List Char))
    (h : ∀ r ∈ rows, quotedSplit space r ≠ [] ∧ (quotedSplit space r).head? ≠ some ['}']) (after : List (List Char))
    (ha : after = [] ∨ ∃ r l, after = r :: l ∧ (quotedSplit space r).head? = some ['}'])
    (rows0 : List (List (List Char))) :
    tableRows space tags (rows ++ after) (tableColumns tags rows0) = .ok (tableColumns tags (rows0 ++ rows.map (quotedSplit space))) := by
  induction rows generalizing rows0 with
  | nil =>
    rw [List.nil_append, List.map_nil, List.append_nil]
    rcases ha with rfl | ⟨r, l, rfl, hr⟩
    · rfl
    · rw [tableRows]
      cases hq : quotedSplit space r with
      | nil => rw [hq] at hr; simp at hr
      | cons f v =>
        rw [hq] at hr
        simp only [List.head?_cons, Option.some.injEq] at hr
        simp only [hr, if_true]
  | cons r rows ih =>
    obtain ⟨h1, h2⟩ := h r (by simp)
    rw [List.cons_append, tableRows]
    cases hq : quotedSplit space r with
    | nil => exact absurd hq h1
    | cons f v =>
      rw [hq] at h2
      simp only [List.head?_cons, ne_eq, Option.some.injEq] at h2
      simp only [h2, if_false]
      have e := addRow_eq [] (tableColumns tags rows0) (f :: v) (by rw [List.nil_append, tableColumns_fst]; exact hn)
      rw [tableColumns_fst, List.nil_append, List.nil_append] at e
      have e2 : extend (tableColumns tags rows0) (f :: v) = tableColumns tags (rows0 ++ [f :: v]) :=
        extend_columns tags rows0 (f :: v) 0
      rw [e, e2, ih (fun x hx => h x (by simp [hx]))]
      congr 2
      rw [List.map_cons, hq]
      simp

/-- Specification: a tag of a table. -/
def TagText (t : List Char) : Prop := ',' ∉ t ∧ PlainLine t ∧ (∀ c ∈ t.head?, c ≠ ' ' ∧ c ≠ '{') ∧ ∀ c ∈ t.getLast?, c ≠ ' ' ∧ c ≠ '{'

/-- the tags of a header line; spaces may follow the commas -/
theorem tableTags_eq (pads : List ℕ) (tags : List (List Char)) (hne : tags ≠ []) (hl : pads.length = tags.length)
    (h : ∀ t ∈ tags, TagText t) :
    tableTags ('{' :: join [','] (pads.zipWith (fun n t => List.replicate n ' ' ++ t) tags)) = tags := by
  have hsplit : split ',' ('{' :: join [','] (pads.zipWith (fun n t => List.replicate n ' ' ++ t) tags)) =
      match pads.zipWith (fun n t => List.replicate n ' ' ++ t) tags with
      | [] => []
      | f :: fs => ('{' :: f) :: fs := by
    have hmem : ∀ f ∈ pads.zipWith (fun n t => List.replicate n ' ' ++ t) tags, ',' ∉ f := by
      intro f hf hm
      rw [List.mem_iff_getElem] at hf
      obtain ⟨i, hi, rfl⟩ := hf
      rw [List.getElem_zipWith, List.mem_append] at hm
      rcases hm with hm | hm
      · exact absurd (List.eq_of_mem_replicate hm) (by decide)
      · exact (h _ (List.getElem_mem _)).1 hm
    cases hz : pads.zipWith (fun n t => List.replicate n ' ' ++ t) tags with
    | nil =>
      have := congrArg List.length hz
      rw [List.length_zipWith, hl, Nat.min_self] at this
      exact absurd (List.length_eq_zero_iff.1 this) hne
    | cons f fs =>
      rw [hz] at hmem
      have e : '{' :: join [','] (f :: fs) = join [','] (('{' :: f) :: fs) := by rw [join_cons, join_cons]; rfl
      simp only
      rw [e, split_join (by simp)]
      intro g hg
      rcases List.mem_cons.1 hg with rfl | hg
      · rw [List.mem_cons, not_or]
        exact ⟨by decide, hmem f (by simp)⟩
      · exact hmem g (by simp [hg])
  have hstrip : ∀ (a : List Char) (t : List Char), (∀ c ∈ a, c = ' ' ∨ c = '{') → TagText t →
      strip (fun c => c == '{' || c == ' ') (a ++ t) = t := by
    intro a t ha ht
    have := strip_eq (p := fun c => c == '{' || c == ' ') (a := a) (m := t) (b := []) (fun c hc => by
      rcases ha c hc with rfl | rfl <;> decide) (by simp) (fun c hc => by simp [(ht.2.2.1 c hc).1, (ht.2.2.1 c hc).2])
      (fun c hc => by simp [(ht.2.2.2 c hc).1, (ht.2.2.2 c hc).2])
    simpa using this
  rw [tableTags, hsplit]
  cases tags with
  | nil => exact absurd rfl hne
  | cons t tags =>
    cases pads with
    | nil => simp at hl
    | cons n pads =>
      rw [List.zipWith_cons_cons]
      simp only [List.map_cons]
      congr 1
      · exact hstrip ('{' :: List.replicate n ' ') t (by
          intro c hc
          rcases List.mem_cons.1 hc with rfl | hc
          · exact Or.inr rfl
          · exact Or.inl (List.eq_of_mem_replicate hc)) (h t (by simp))
      · simp only [List.length_cons, Nat.add_right_cancel_iff] at hl
        clear hsplit hne
        induction tags generalizing pads with
        | nil => simp
        | cons u tags ih =>
          cases pads with
          | nil => simp at hl
          | cons m pads =>
            rw [List.zipWith_cons_cons, List.map_cons, hstrip (List.replicate m ' ') u
              (fun c hc => Or.inl (List.eq_of_mem_replicate hc)) (h u (by simp)),
              ih (fun x hx => h x (by
                rcases List.mem_cons.1 hx with rfl | hx
                · simp
                · simp [hx])) pads (by simpa using hl)]

theorem initial_columns (tags : List (List Char)) (hn : tags.Nodup) :
    tags.foldl (fun d t => dictSet d t []) [] = tableColumns tags [] := by
  have := foldl_dictSet (tags.map (fun t => (t, ([] : List (List Char))))) [] (by
    rw [List.nil_append, List.map_map]
    show (List.map id tags).Nodup
    simpa using hn)
  rw [List.foldl_map, List.nil_append] at this
  rw [this, tableColumns]
  have e : tags.zipIdx.map (fun x => (x.1, ([] : List (List Char)))) = tags.map (fun t => (t, [])) := by
    conv_rhs => rw [← List.zipIdx_map_fst 0 tags, List.map_map]
    rfl
  exact e.symm

/-- **C34.** A table with distinct tags, whose rows hold at least one field and do not begin with a brace, reads as one column per
tag, each as long as the rows before the closing brace: a field which is missing is an empty string, surplus fields are ignored, and
so is everything after the brace. -/
theorem C34_table_partial (C : Classes) (tags : List (List Char)) (pads : List ℕ) (hne : tags ≠ []) (hl : pads.length = tags.length)
    (htags : ∀ t ∈ tags, TagText t) (hn : tags.Nodup) (rows : List (List Char × List (List Char)))
    (hrows : ∀ r ∈ rows, PlainLine r.1 ∧ FieldLine C.space r.1 r.2 ∧ r.2 ≠ [] ∧ r.2.head? ≠ some ['}'])
    (closing : List Char) (hc : PlainLine closing ∧ ∃ fs, FieldLine C.space closing (['}'] :: fs))
    (after : List (List Char)) (ha : ∀ l ∈ after, PlainLine l) :
    simpleValue C.space (join ['\n'] (('{' :: join [','] (pads.zipWith (fun n t => List.replicate n ' ' ++ t) tags)) ::
      rows.map Prod.fst ++ closing :: after)) = .ok (columnsVal (tableColumns tags (rows.map Prod.snd))) := by
  have hspace : C.space '"' = false ∧ C.space '\'' = false := by
    constructor <;> (rw [C.space_ascii _ (by decide)]; decide)
  have hsp : C.space ' ' = true := by rw [C.space_ascii _ (by decide)]; decide
  set header := '{' :: join [','] (pads.zipWith (fun n t => List.replicate n ' ' ++ t) tags) with hh
  have hplainh : PlainLine header := by
    intro c hc
    rcases List.mem_cons.1 hc with rfl | hc
    · decide
    · have : c = ',' ∨ ∃ f ∈ pads.zipWith (fun n t => List.replicate n ' ' ++ t) tags, c ∈ f := by
        generalize pads.zipWith (fun n t => List.replicate n ' ' ++ t) tags = fs at hc
        clear hh
        induction fs with
        | nil => simp [join] at hc
        | cons f fs ih =>
          rw [join_cons, List.mem_append, List.mem_flatMap] at hc
          rcases hc with hc | ⟨g, hg, hc⟩
          · exact Or.inr ⟨f, by simp, hc⟩
          · rw [List.mem_append, List.mem_singleton] at hc
            rcases hc with hc | hc
            · exact Or.inl hc
            · exact Or.inr ⟨g, by simp [hg], hc⟩
      rcases this with rfl | ⟨f, hf, hc⟩
      · decide
      · rw [List.mem_iff_getElem] at hf
        obtain ⟨i, hi, rfl⟩ := hf
        rw [List.getElem_zipWith, List.mem_append] at hc
        rcases hc with hc | hc
        · rw [List.eq_of_mem_replicate hc]; decide
        · exact (htags _ (List.getElem_mem _)).2.1 c hc
  -- the lines
  have hcn : closing ≠ [] := by
    rintro rfl
    obtain ⟨fs, hfs⟩ := hc.2
    have := C35_fields_partial C.space hspace [] _ hfs
    simp [quotedSplit, Re.findAll, Re.findIter, Re.searchFrom, fieldRe, quotedRe, Re.run, Re.lit, Re.some1, Re.many] at this
  obtain ⟨after', hlines⟩ : ∃ after', splitLines (join ['\n'] (header :: rows.map Prod.fst ++ closing :: after)) =
      header :: (rows.map Prod.fst ++ closing :: after') := by
    have hj := splitLines_join (header :: rows.map Prod.fst ++ closing :: after) (by
      intro l hl
      rw [List.cons_append, List.mem_cons, List.mem_append, List.mem_cons, List.mem_map] at hl
      rcases hl with rfl | ⟨r, hr, rfl⟩ | rfl | hl
      exacts [hplainh, (hrows r hr).1, hc.1, ha l hl]) (by
      intro e
      have := congrArg List.length e
      simp at this)
    generalize splitLines (join ['\n'] (header :: rows.map Prod.fst ++ closing :: after)) = L at hj
    split at hj
    · have hd := congrArg List.dropLast hj
      rw [List.dropLast_concat] at hd
      refine ⟨after.dropLast, ?_⟩
      rw [hd]
      cases after with
      | nil =>
        have := (List.append_inj' hj rfl).2
        simp at this
        exact absurd this hcn
      | cons a after =>
        rw [List.cons_append, List.dropLast_cons_of_ne_nil (by simp), List.dropLast_append_of_ne_nil (by simp),
          List.dropLast_cons_of_ne_nil (by simp)]
    · exact ⟨after, by simpa using hj⟩
  have hval : tableValue C.space (join ['\n'] (header :: rows.map Prod.fst ++ closing :: after)) =
      .ok (tableColumns tags (rows.map Prod.snd)) := by
    rw [tableValue, hlines]
    simp only
    rw [hh, tableTags_eq pads tags hne hl htags, initial_columns tags hn]
    have key : (rows.map Prod.fst).map (quotedSplit C.space) = rows.map Prod.snd := by
      rw [List.map_map]
      apply List.map_congr_left
      intro r hr
      exact C35_fields_partial C.space hspace _ _ (hrows r hr).2.1
    have := tableRows_eq C.space tags hn (rows.map Prod.fst) (by
      intro x hx
      rw [List.mem_map] at hx
      obtain ⟨r, hr, rfl⟩ := hx
      rw [C35_fields_partial C.space hspace _ _ (hrows r hr).2.1]
      exact (hrows r hr).2.2) (closing :: after') (Or.inr ⟨closing, after', rfl, by
        obtain ⟨fs, hfs⟩ := hc.2
        rw [C35_fields_partial C.space hspace _ _ hfs]; rfl⟩) []
    rw [this, key]
    rfl
  have hstart : ∃ x, join ['\n'] (header :: rows.map Prod.fst ++ closing :: after) = '{' :: x := by
    rw [List.cons_append, join_cons, hh]
    exact ⟨_, rfl⟩
  obtain ⟨x, hx⟩ := hstart
  rw [hx] at hval ⊢
  show plainValue C.space ('{' :: x) = _
  show (do .ok (columnsVal (← tableValue C.space ('{' :: x)))) = _
  rw [hval]
  rfl

/-- a table with a short row, a long row, a quoted field and text after the brace -/
example : simpleValue asciiSpace "{lon, lat, tag\n1 2 'a b'\n 3\n4 5 6 7\n } 8\n9".toList =
    .ok (columnsVal (tableColumns ["lon".toList, "lat".toList, "tag".toList]
      [["1".toList, "2".toList, "a b".toList], ["3".toList], ["4".toList, "5".toList, "6".toList, "7".toList]])) := by decide +kernel

/-- **C34** fails for a blank row, which ends the program with an IndexError: whatever tags, rows and further text there are. -/
theorem C34_blank_counterexample (C : Classes) (tags : List (List Char)) (hn : tags.Nodup) (rows : List (List Char))
    (h : ∀ r ∈ rows, quotedSplit C.space r ≠ [] ∧ (quotedSplit C.space r).head? ≠ some ['}'])
    (blank : List Char) (hb : ∀ c ∈ blank, C.space c = true) (after : List (List Char)) :
    tableRows C.space tags (rows ++ blank :: after) (tableColumns tags []) = .error .index := by
  have hspace : C.space '"' = false ∧ C.space '\'' = false := by
    constructor <;> (rw [C.space_ascii _ (by decide)]; decide)
  generalize ([] : List (List (List Char))) = rows0
  induction rows generalizing rows0 with
  | nil =>
    rw [List.nil_append, tableRows, C35_fields_partial C.space hspace blank [] (.done blank hb)]
  | cons r rows ih =>
    obtain ⟨h1, h2⟩ := h r (by simp)
    rw [List.cons_append, tableRows]
    cases hq : quotedSplit C.space r with
    | nil => exact absurd hq h1
    | cons f v =>
      rw [hq] at h2
      simp only [List.head?_cons, ne_eq, Option.some.injEq] at h2
      simp only [h2, if_false]
      have e := addRow_eq [] (tableColumns tags rows0) (f :: v) (by rw [List.nil_append, tableColumns_fst]; exact hn)
      rw [tableColumns_fst, List.nil_append, List.nil_append] at e
      have e2 : extend (tableColumns tags rows0) (f :: v) = tableColumns tags (rows0 ++ [f :: v]) :=
        extend_columns tags rows0 (f :: v) 0
      rw [e, e2, ih (fun x hx => h x (by simp [hx]))]

example : simpleValue asciiSpace "{a,b\n1 2\n\n3 4\n}".toList = .error .index := by decide +kernel

/-! ### C33 -/

/-- Specification: what a key maps to, given its values in file order. -/
def combined : List TVal → Option TVal
  | [] => none
  | [v] => some v
  | v :: w :: vs => some (.list (v :: w :: vs))

/-- Specification: the values of a key. -/
def occurrences (defs : List (List Char × TVal)) (k : List Char) : List TVal :=
  (defs.filter (fun d => decide (d.1 = k))).map Prod.snd

/-- all definitions joined -/
def mergeAll (defs : List (List Char × TVal)) : TVal := defs.foldr (fun d r => mergeVal d.1 d.2 r) .none

/-- what joining does in every case: a list which is the last value of a repeated key gives its elements instead -/
def joined : List TVal → Option TVal
  | [] => none
  | [v] => some v
  | v :: vs => match joined vs with
    | some (.list l) => some (.list (v :: l))
    | some w => some (.list [v, w])
    | none => none

theorem dictGet_merge (k : List Char) (v : TVal) (d : List (List Char × TVal)) (j : List Char) :
    ∃ d', mergeVal k v (.dict d) = .dict d' ∧ dictGet d' j = if j = k then (match dictGet d k with
      | some (.list l) => some (.list (v :: l))
      | some w => some (.list [v, w])
      | none => some v) else dictGet d j := by
  rw [mergeVal]
  cases h : dictGet d k with
  | none => exact ⟨_, rfl, dictGet_set d k v j⟩
  | some w =>
    cases w with
    | list l => exact ⟨_, rfl, dictGet_set d k _ j⟩
    | none => exact ⟨_, rfl, dictGet_set d k _ j⟩
    | str s => exact ⟨_, rfl, dictGet_set d k _ j⟩
    | dict e => exact ⟨_, rfl, dictGet_set d k _ j⟩

theorem joined_cons (v w : TVal) (ws : List TVal) : joined (v :: w :: ws) = match joined (w :: ws) with
    | some (.list l) => some (.list (v :: l))
    | some w => some (.list [v, w])
    | none => none := rfl

theorem joined_ne_none {vs : List TVal} (h : vs ≠ []) : joined vs ≠ none := by
  induction vs with
  | nil => exact absurd rfl h
  | cons v vs ih =>
    cases vs with
    | nil => simp [joined]
    | cons w vs =>
      have := ih (by simp)
      rw [joined]
      · cases hj : joined (w :: vs) with
        | none => exact absurd hj this
        | some x => cases x <;> simp
      · simp

theorem mergeAll_get (defs : List (List Char × TVal)) (hne : defs ≠ []) (k : List Char) :
    ∃ d, mergeAll defs = .dict d ∧ dictGet d k = joined (occurrences defs k) := by
  induction defs with
  | nil => exact absurd rfl hne
  | cons x defs ih =>
    obtain ⟨j, v⟩ := x
    have hocc : occurrences ((j, v) :: defs) k = if k = j then v :: occurrences defs k else occurrences defs k := by
      by_cases h : k = j
      · subst h; simp [occurrences]
      · simp [occurrences, h, Ne.symm h]
    rw [hocc]
    show ∃ d, mergeVal j v (mergeAll defs) = .dict d ∧ _
    cases hd : defs with
    | nil =>
      refine ⟨[(j, v)], rfl, ?_⟩
      by_cases h : k = j
      · subst h; simp [dictGet, occurrences, joined]
      · simp [dictGet, occurrences, joined, h, Ne.symm h]
    | cons y ds =>
      rw [← hd]
      obtain ⟨d, h1, h2⟩ := ih (by rw [hd]; simp)
      obtain ⟨d', h3, h4⟩ := dictGet_merge j v d k
      refine ⟨d', by rw [h1, h3], ?_⟩
      rw [h4]
      by_cases h : k = j
      · subst h
        rw [if_pos rfl, if_pos rfl, h2]
        cases ho : occurrences defs k with
        | nil => rfl
        | cons w ws =>
          rw [joined_cons]
          cases hj : joined (w :: ws) with
          | none => exact absurd hj (joined_ne_none (by simp))
          | some x => cases x <;> rfl
      · rw [if_neg h, if_neg h, h2]

theorem joined_eq_combined (vs : List TVal) (h : ∀ l, vs.getLast? ≠ some (.list l)) : joined vs = combined vs := by
  induction vs with
  | nil => rfl
  | cons v vs ih =>
    cases vs with
    | nil => rfl
    | cons w vs =>
      have e := ih (fun l hl => h l (by rw [List.getLast?_cons_cons]; exact hl))
      rw [joined, e]
      · cases vs with
        | nil =>
          have := h
          cases w with
          | list l => exact absurd rfl (h l)
          | none => rfl
          | str => rfl
          | dict => rfl
        | cons x vs => rfl
      · simp

/-! the text of definitions -/

/-- Specification: the name before an equals sign. -/
def KeyText (C : Classes) (k : List Char) : Prop :=
  ∃ w, w ≠ [] ∧ (∀ c ∈ w, C.word c = true ∨ c = '.') ∧ (k = w ∨ k = w ++ ['^'])

/-- Specification: what stands before a value. -/
structure Heading (C : Classes) where
  indent : List Char
  key : List Char
  spaces : List Char
  gap : List Char
  indent_ok : ∀ c ∈ indent, C.space c = true
  key_ok : KeyText C key
  spaces_ok : ∀ c ∈ spaces, c = ' '
  gap_ok : ∀ c ∈ gap, C.space c = true ∧ c ≠ '\n'

/-- Specification: a character which cannot stand before the equals sign of a definition. -/
structure NotKey (C : Classes) (x : Char) : Prop where
  eq : x ≠ '='
  space : C.space x = false
  word : C.word x = false
  dot : x ≠ '.'
  hat : x ≠ '^'

/-- Specification: the text of a simple value: visible at both ends; not beginning like a structure or a block of text; lines after
its first without an equals sign, or with something before it which is no name. -/
structure ValueText (C : Classes) (v : List Char) : Prop where
  ne : v ≠ []
  first : ∀ c ∈ v.head?, C.space c = false
  last : ∀ c ∈ v.getLast?, C.space c = false
  open_ok : ∀ c ∈ v.head?, c = '{' ∨ c = '"' → ∃ d t, v = c :: d :: t ∧ C.space d = false
  lines : ∀ a b, v = a ++ '\n' :: b → '=' ∉ b ∨ ∃ u x w, b = u ++ x :: w ∧ '=' ∉ u ∧ NotKey C x

/-- Specification: text within a structure: braces only around tables. -/
inductive Inside : List Char → Prop
  | nil : Inside []
  | char (c : Char) (w : List Char) : c ≠ '{' → c ≠ '}' → Inside w → Inside (c :: w)
  | table (a : Char) (u w : List Char) : a.isAlpha = true → '}' ∉ u → Inside w → Inside ('{' :: a :: u ++ '}' :: w)

/-- Specification: no line of a text, its first one not counted, begins with a quotation mark before the first opening brace. -/
def NoQuoteLine (C : Classes) (t : List Char) : Prop :=
  ∀ a ws b, t = a ++ '\n' :: (ws ++ '"' :: b) → (∀ c ∈ ws, C.space c = true) → '{' ∈ a

/-- Specification: a block of text: after the opening quotation mark (and perhaps blank lines) the lines `body`, of which the first is not
blank, then, on a line of its own, white space and the closing quotation mark; then `trail` on that line, and `after` on further lines.  No
opening brace in the block, and no further line beginning with a quotation mark before the next opening brace. -/
structure BlockText (C : Classes) (ws0 body ws1 trail after : List Char) : Prop where
  open_ok : ∀ c ∈ ws0, C.space c = true
  brace : '{' ∉ body
  first : ∀ a b, body = a ++ '\n' :: b → ∃ c ∈ a, C.space c = false
  last : ∀ c ∈ body.getLast?, c = '\n'
  indent : ∀ c ∈ ws1, C.space c = true ∧ c ≠ '\n'
  trail_ok : '\n' ∉ trail
  after_ok : NoQuoteLine C (trail ++ '\n' :: after)

/-- Specification: texts of definitions and what they define: names with simple values, names with blocks of text, and names with
structures of definitions between braces, in any order, separated by line ends, with any indentation and blank lines. -/
inductive Definitions (C : Classes) : List Char → List (List Char × TVal) → Prop
  | nil (ws : List Char) : (∀ c ∈ ws, C.space c = true) → Definitions C ws []
  | last (h : Heading C) (v : List Char) (x : TVal) : ValueText C v → simpleValue C.space (v ++ ['\n']) = .ok x →
      Definitions C (h.indent ++ (h.key ++ (h.spaces ++ '=' :: (h.gap ++ v)))) [(keyName h.key, x)]
  | simple (h : Heading C) (v : List Char) (x : TVal) (rest : List Char) (ds : List (List Char × TVal)) : ValueText C v →
      simpleValue C.space (v ++ ['\n']) = .ok x → Definitions C rest ds →
      Definitions C (h.indent ++ (h.key ++ (h.spaces ++ '=' :: (h.gap ++ (v ++ '\n' :: rest))))) ((keyName h.key, x) :: ds)
  | struct (h : Heading C) (ws1 inner ws2 trail rest : List Char) (c1 : Char) (w1 w2 : List Char) (c2 : Char)
      (ids ds : List (List Char × TVal)) :
      ws1 ≠ [] → (∀ c ∈ ws1, C.space c = true) → inner = c1 :: w1 → C.space c1 = false → inner = w2 ++ [c2, '\n'] →
      C.space c2 = false → Inside inner → Definitions C inner ids → (∀ c ∈ ws2, C.space c = true) → '\n' ∉ trail →
      Definitions C rest ds →
      Definitions C (h.indent ++ (h.key ++ (h.spaces ++ '=' :: (h.gap ++ ('{' :: (ws1 ++ (inner ++ (ws2 ++ '}' ::
        (trail ++ '\n' :: rest)))))))))
        ((keyName h.key, mergeAll ids) :: ds)
  | structLast (h : Heading C) (ws1 inner ws2 trail : List Char) (c1 : Char) (w1 w2 : List Char) (c2 : Char)
      (ids : List (List Char × TVal)) :
      ws1 ≠ [] → (∀ c ∈ ws1, C.space c = true) → inner = c1 :: w1 → C.space c1 = false → inner = w2 ++ [c2, '\n'] →
      C.space c2 = false → Inside inner → Definitions C inner ids → (∀ c ∈ ws2, C.space c = true) → '\n' ∉ trail →
      Definitions C (h.indent ++ (h.key ++ (h.spaces ++ '=' :: (h.gap ++ ('{' :: (ws1 ++ (inner ++ (ws2 ++ '}' :: trail))))))))
        [(keyName h.key, mergeAll ids)]
  | block (h : Heading C) (ws0 body ws1 trail rest : List Char) (ds : List (List Char × TVal)) :
      BlockText C ws0 body ws1 trail rest → Definitions C rest ds →
      Definitions C (h.indent ++ (h.key ++ (h.spaces ++ '=' :: (h.gap ++ ('"' :: (ws0 ++ '\n' :: (body ++ (ws1 ++ '"' ::
        (trail ++ '\n' :: rest))))))))) ((keyName h.key, .str ('\n' :: body)) :: ds)
  | blockLast (h : Heading C) (ws0 body ws1 trail : List Char) : BlockText C ws0 body ws1 trail [] →
      Definitions C (h.indent ++ (h.key ++ (h.spaces ++ '=' :: (h.gap ++ ('"' :: (ws0 ++ '\n' :: (body ++ (ws1 ++ '"' :: trail))))))))
        [(keyName h.key, .str ('\n' :: body))]

section

variable {C : Classes}

theorem space_newline : C.space '\n' = true := by rw [C.space_ascii _ (by decide)]; decide
theorem space_space : C.space ' ' = true := by rw [C.space_ascii _ (by decide)]; decide
theorem not_space {c : Char} (hn : c.toNat < 128) (hc : asciiSpace c = false) : C.space c = false := by rw [C.space_ascii _ hn, hc]

/-- the class `[\w\.]` -/
def keyChar (C : Classes) (c : Char) : Bool := C.word c || c == '.'

theorem keyChar_ascii {c : Char} (hn : c.toNat < 128) (h : (c.isAlphanum || c == '_') = false) (hd : c ≠ '.') : keyChar C c = false := by
  rw [keyChar, C.word_ascii _ hn, h]; simp [hd]

theorem keyChar_not_space {c : Char} (h : keyChar C c = true) : C.space c = false := by
  rw [keyChar, Bool.or_eq_true, beq_iff_eq] at h
  rcases h with h | rfl
  · cases hs : C.space c with
    | false => rfl
    | true => rw [C.space_word c hs] at h; cases h
  · exact not_space (by decide) (by decide)

theorem keyText_chars {k : List Char} (h : KeyText C k) : ∀ c ∈ k, C.space c = false ∧ c ≠ '=' := by
  obtain ⟨w, _, hw, h⟩ := h
  have h1 : ∀ c ∈ w, C.space c = false ∧ c ≠ '=' := by
    intro c hc
    have hk : keyChar C c = true := by
      rw [keyChar, Bool.or_eq_true, beq_iff_eq]; exact hw c hc
    refine ⟨keyChar_not_space hk, ?_⟩
    rintro rfl
    rw [keyChar_ascii (by decide) (by decide) (by decide)] at hk
    cases hk
  intro c hc
  rcases h with rfl | rfl
  · exact h1 c hc
  · rw [List.mem_append, List.mem_singleton] at hc
    rcases hc with hc | rfl
    · exact h1 c hc
    · exact ⟨not_space (by decide) (by decide), by decide⟩

theorem keyText_ne {k : List Char} (h : KeyText C k) : k ≠ [] := by
  obtain ⟨w, hne, _, h⟩ := h
  rcases h with rfl | rfl
  · exact hne
  · simp

/-- a name is read up to a space or an equals sign -/
theorem cont_key {k : List Char} (hk : KeyText C k) {l : List Char} (hl : ∀ c ∈ l.head?, c = ' ' ∨ c = '=') {pre : List Char} {caps}
    {f : St → List St} {t : St} (h : (f ⟨k.reverse ++ pre, l, caps⟩).head? = some t) :
    ((keyRe C).cont ⟨pre, k ++ l, caps⟩ f).head? = some t := by
  obtain ⟨w, hne, hw, hk⟩ := hk
  have hw' : ∀ c ∈ w, keyChar C c = true := by
    intro c hc
    rw [keyChar, Bool.or_eq_true, beq_iff_eq]; exact hw c hc
  rw [keyRe, cont_seq]
  rcases hk with rfl | rfl
  · refine cont_many_head (p := keyChar C) hw' ?_ ?_
    · intro c hc
      rcases hl c hc with rfl | rfl
      · exact keyChar_ascii (by decide) (by decide) (by decide)
      · exact keyChar_ascii (by decide) (by decide) (by decide)
    · rw [cont_opt_none]
      · exact h
      · show (Re.chr _).run _ = []
        cases l with
        | nil => rfl
        | cons c l =>
          rw [run_chr_cons]
          rcases hl c (by simp) with rfl | rfl <;> rfl
  · rw [List.append_assoc]
    refine cont_many_head (p := keyChar C) hw' ?_ ?_
    · intro c hc
      simp at hc
      subst hc
      exact keyChar_ascii (by decide) (by decide) (by decide)
    · refine cont_opt_head ?_
      show ((Re.chr _).cont ⟨w.reverse ++ pre, '^' :: l, caps⟩ f).head? = _
      rw [cont_chr_pos (by rfl)]
      simpa using h

/-- the next name is found -/
theorem cont_next {ws k sp y : List Char} (hws : ∀ c ∈ ws, C.space c = true) (hk : KeyText C k) (hsp : ∀ c ∈ sp, c = ' ')
    {pre : List Char} (hpre : ∀ c ∈ pre.head?, c = '\n') (caps) :
    ∃ m, ((nextRe C).run ⟨pre, ws ++ (k ++ (sp ++ '=' :: y)), caps⟩).head? =
      some ⟨m, y, (7, ws.length + pre.length, k) :: caps⟩ := by
  refine ⟨'=' :: (sp.reverse ++ (k.reverse ++ (ws.reverse ++ pre))), ?_⟩
  rw [run_eq_cont, nextRe, cont_seq, cont_bol_pos hpre, cont_seq]
  refine cont_many_head hws ?_ ?_
  · intro c hc
    have hkne := keyText_ne hk
    cases k with
    | nil => exact absurd rfl hkne
    | cons d k =>
      simp at hc
      subst hc
      exact (keyText_chars hk d (by simp)).1
  · rw [cont_seq, cont_grp]
    refine cont_key hk ?_ ?_
    · intro c hc
      cases sp with
      | nil => simp at hc; exact Or.inr hc.symm
      | cons d sp => simp at hc; subst hc; exact Or.inl (hsp d (by simp))
    · simp only
      rw [cont_seq]
      refine cont_many_head (p := fun d => d == ' ') (fun c hc => by rw [hsp c hc]; rfl) ?_ ?_
      · intro c hc; simp at hc; subst hc; rfl
      · show ((Re.chr _).cont _ _).head? = _
        rw [cont_chr_pos (by rfl)]
        rw [matched_step (w := k) rfl]
        simp

/-- nothing is found unless at the start of a line -/
theorem next_not_line {c : Char} (hc : c ≠ '\n') (pre l : List Char) (caps) : (nextRe C).run ⟨c :: pre, l, caps⟩ = [] := by
  rw [run_eq_cont, nextRe, cont_seq, cont_bol_neg hc]

/-- what a match of the next name looks like -/
theorem next_mem {s t : St} (h : t ∈ (nextRe C).run s) : ∃ ws k sp, s.rest = ws ++ (k ++ (sp ++ '=' :: t.rest)) ∧
    (∀ c ∈ ws, C.space c = true) ∧ (∀ c ∈ k, C.space c = false) ∧ (∀ c ∈ sp, c = ' ') ∧
    ∀ c ∈ k, keyChar C c = true ∨ c = '^' := by
  rw [run_eq_cont, nextRe, cont_seq, mem_cont] at h
  obtain ⟨s1, h1, h⟩ := h
  rw [cont_seq, mem_cont] at h
  obtain ⟨s2, h2, h⟩ := h
  rw [cont_seq, mem_cont] at h
  obtain ⟨s3, h3, h⟩ := h
  rw [cont_seq, mem_cont] at h
  obtain ⟨s4, h4, h⟩ := h
  rw [mem_cont] at h
  obtain ⟨s5, h5, h⟩ := h
  rw [List.mem_singleton] at h
  subst h
  have e1 : s1 = s := by
    cases hp : s.pre with
    | nil => simpa [Re.run, hp] using h1
    | cons c p =>
      simp only [Re.run, hp] at h1
      split at h1
      · simpa using h1
      · simp at h1
  subst e1
  obtain ⟨ws, a1, a2, _, a4⟩ := mem_many h2
  obtain ⟨u, hu, e1, e2⟩ := mem_grp h3
  rw [keyRe, run_seq, List.mem_flatMap] at hu
  obtain ⟨u1, hu1, hu2⟩ := hu
  obtain ⟨w, b1, b2, _, b4⟩ := mem_many hu1
  obtain ⟨sp, d1, d2, _, d4⟩ := mem_many h4
  obtain ⟨x, f1, f2, _, f4⟩ := mem_chr h5
  have hx : x = '=' := by simpa using f4
  subst hx
  have hw : ∀ c ∈ w, C.space c = false := fun c hc => keyChar_not_space (b4 c hc)
  rcases mem_opt hu2 with hu3 | rfl
  · obtain ⟨y, g1, g2, _, g4⟩ := mem_chr hu3
    have hy : y = '^' := by simpa using g4
    subst hy
    refine ⟨ws, w ++ ['^'], sp, ?_, a4, ?_, fun c hc => by simpa using d4 c hc, ?_⟩
    · rw [a1, b1, g1, e2, d1, f1]; simp
    · intro c hc
      rw [List.mem_append, List.mem_singleton] at hc
      rcases hc with hc | rfl
      · exact hw c hc
      · exact not_space (by decide) (by decide)
    · intro c hc
      rw [List.mem_append, List.mem_singleton] at hc
      rcases hc with hc | rfl
      · exact Or.inl (b4 c hc)
      · exact Or.inr rfl
  · refine ⟨ws, w, sp, ?_, a4, hw, fun c hc => by simpa using d4 c hc, fun c hc => Or.inl (b4 c hc)⟩
    rw [a1, b1, e2, d1, f1]

/-- no name is found where something else stands before the equals sign -/
theorem next_notKey {u w : List Char} {x : Char} (hu : '=' ∉ u) (hx : NotKey C x) (pre : List Char) (caps) :
    (nextRe C).run ⟨pre, u ++ x :: w, caps⟩ = [] := by
  by_contra hne
  obtain ⟨t, ht⟩ := List.exists_mem_of_ne_nil _ hne
  obtain ⟨ws, k, sp, h1, h2, h3, h4, h5⟩ := next_mem ht
  simp only at h1
  have hmem : x ∈ ws ++ (k ++ sp) := by
    have h1' : (ws ++ (k ++ sp)) ++ '=' :: t.rest = u ++ x :: w := by simpa using h1.symm
    rcases List.append_eq_append_iff.1 h1' with ⟨a, e1, e2⟩ | ⟨a, e1, e2⟩
    · cases a with
      | nil => simp at e2; exact absurd e2.1.symm hx.eq
      | cons d a =>
        simp at e2
        exact absurd (by rw [e1, ← e2.1]; simp) hu
    · cases a with
      | nil => simp at e2; exact absurd e2.1 hx.eq
      | cons d a =>
        simp at e2
        rw [e1, ← e2.1]; simp
  rw [List.mem_append, List.mem_append] at hmem
  rcases hmem with h | h | h
  · have := h2 x h; rw [hx.space] at this; cases this
  · rcases h5 x h with h | h
    · rw [keyChar, Bool.or_eq_true, beq_iff_eq, hx.word] at h
      rcases h with h | h
      · cases h
      · exact hx.dot h
    · exact hx.hat h
  · have := h4 x h
    rw [this] at hx
    have := hx.space
    rw [space_space] at this; cases this

/-- within a value no name is found -/
theorem next_value {b : List Char} {x : Char} (hx : C.space x = false) (hb : '=' ∉ b ++ [x]) (pre y : List Char) (caps) :
    (nextRe C).run ⟨pre, b ++ x :: '\n' :: y, caps⟩ = [] := by
  by_contra hne
  obtain ⟨t, ht⟩ := List.exists_mem_of_ne_nil _ hne
  obtain ⟨ws, k, sp, h1, h2, h3, h4, _⟩ := next_mem ht
  simp only at h1
  -- the equals sign lies beyond the line
  have key : ∃ m, ws ++ (k ++ sp) = b ++ x :: '\n' :: m := by
    have h1' : (ws ++ (k ++ sp)) ++ '=' :: t.rest = (b ++ [x]) ++ '\n' :: y := by simpa using h1.symm
    rcases List.append_eq_append_iff.1 h1' with ⟨a, e1, e2⟩ | ⟨a, e1, e2⟩
    · -- the match ends within the value
      cases a with
      | nil =>
        simp at e2
      | cons d a =>
        simp at e2
        exact absurd (by rw [e1, ← e2.1]; simp) hb
    · cases a with
      | nil => simp at e2
      | cons d a =>
        simp at e2
        exact ⟨a, by rw [e1, ← e2.1]; simp⟩
  obtain ⟨m, hm⟩ := key
  rcases List.append_eq_append_iff.1 hm with ⟨a, e1, e2⟩ | ⟨a, e1, e2⟩
  · -- the visible character is in the name
    rcases List.append_eq_append_iff.1 e2.symm with ⟨a', f1, f2⟩ | ⟨a', f1, f2⟩
    · cases a' with
      | nil =>
        simp at f2
        have := h4 x (by rw [← f2]; simp)
        rw [this, space_space] at hx; cases hx
      | cons d a' =>
        simp at f2
        have hd := h4
        cases a' with
        | nil =>
          simp at f2
          have := h4 '\n' (by rw [← f2.2]; simp)
          exact absurd this (by decide)
        | cons d' a' =>
          simp at f2
          have := h3 '\n' (by rw [f1, ← f2.2.1]; simp)
          rw [space_newline] at this; cases this
    · have := h4 x (by rw [f2]; simp)
      rw [this, space_space] at hx; cases hx
  · cases a with
    | nil =>
      simp at e1 e2
      -- the same as above with nothing in front
      cases k with
      | nil =>
        simp at e2
        have := h4 x (by rw [← e2]; simp)
        rw [this, space_space] at hx; cases hx
      | cons d k =>
        simp at e2
        cases k with
        | nil =>
          simp at e2
          have := h4 '\n' (by rw [← e2.2]; simp)
          exact absurd this (by decide)
        | cons d' k =>
          simp at e2
          have := h3 d' (by simp)
          rw [← e2.2.1, space_newline] at this; cases this
    | cons d a =>
      simp at e2
      have := h2 x (by rw [e1, e2.1]; simp)
      rw [this] at hx; cases hx

/-- the heading of a definition is read -/
theorem cont_heading (h : Heading C) {v : List Char} (hv : ∀ c ∈ v.head?, C.space c = false) {t : St} {pre : List Char}
    (hpre : ∀ c ∈ pre.head?, c = '\n')
    (hk : ((Re.seq (.grp 2 (.alt (structRe C) (.alt (textRe C) (.grp 6 (.lazy .any))))) (nextRe C)).run
      ⟨h.gap.reverse ++ '=' :: (h.spaces.reverse ++ (h.key.reverse ++ (h.indent.reverse ++ pre))), v,
        [(1, h.indent.length + pre.length, h.key)]⟩).head? = some t) :
    ((definitionRe C).run ⟨pre, h.indent ++ (h.key ++ (h.spaces ++ '=' :: (h.gap ++ v))), []⟩).head? = some t := by
  rw [run_eq_cont, definitionRe, cont_seq, cont_bol_pos hpre, cont_seq]
  refine cont_many_head h.indent_ok ?_ ?_
  · intro c hc
    have hkne := keyText_ne h.key_ok
    cases hkey : h.key with
    | nil => exact absurd hkey hkne
    | cons d k =>
      rw [hkey] at hc
      simp at hc
      subst hc
      exact (keyText_chars h.key_ok d (by rw [hkey]; simp)).1
  · rw [cont_seq, cont_grp]
    refine cont_key h.key_ok ?_ ?_
    · intro c hc
      cases hsp : h.spaces with
      | nil => rw [hsp] at hc; simp at hc; exact Or.inr hc.symm
      | cons d sp => rw [hsp] at hc; simp at hc; subst hc; exact Or.inl (h.spaces_ok d (by rw [hsp]; simp))
    · simp only
      rw [cont_seq]
      refine cont_many_head (fun c hc => by rw [h.spaces_ok c hc]; exact space_space) ?_ ?_
      · intro c hc; simp at hc; subst hc; exact not_space (by decide) (by decide)
      · rw [cont_seq]
        show ((Re.chr _).cont _ _).head? = _
        rw [cont_chr_pos (by rfl), cont_seq]
        refine cont_many_head (fun c hc => (h.gap_ok c hc).1) hv ?_
        rw [matched_step (w := h.key) rfl, ← run_eq_cont]
        simpa using hk

/-- the last character before a value -/
theorem heading_top (h : Heading C) (pre : List Char) :
    ∃ c p, h.gap.reverse ++ '=' :: pre = c :: p ∧ c ≠ '\n' := by
  cases hg : h.gap.reverse with
  | nil => exact ⟨'=', pre, rfl, by decide⟩
  | cons c p => exact ⟨c, p ++ '=' :: pre, rfl, (h.gap_ok c (by rw [← List.mem_reverse, hg]; simp)).2⟩

/-- a simple value does not begin a structure or a block of text -/
theorem struct_none {v : List Char} (hv : ValueText C v) (pre y : List Char) (caps) : (structRe C).run ⟨pre, v ++ y, caps⟩ = [] := by
  cases v with
  | nil => exact absurd rfl hv.ne
  | cons c v =>
    rw [structRe, run_eq_cont, cont_seq]
    show (Re.chr _).cont _ _ = _
    by_cases hc : c = '{'
    · subst hc
      obtain ⟨d, t, e, hd⟩ := hv.open_ok '{' (by simp) (Or.inl rfl)
      simp at e
      subst e
      rw [List.cons_append, cont_chr_pos (by rfl), cont_seq, Re.some1, cont_seq, List.cons_append, cont_chr_neg (by rw [hd]; simp)]
    · rw [List.cons_append, cont_chr_neg (by simpa using hc)]

theorem text_none {v : List Char} (hv : ValueText C v) (pre y : List Char) (caps) : (textRe C).run ⟨pre, v ++ y, caps⟩ = [] := by
  cases v with
  | nil => exact absurd rfl hv.ne
  | cons c v =>
    rw [textRe, run_eq_cont, cont_seq]
    show (Re.chr _).cont _ _ = _
    by_cases hc : c = '"'
    · subst hc
      obtain ⟨d, t, e, hd⟩ := hv.open_ok '"' (by simp) (Or.inr rfl)
      simp at e
      subst e
      have hdn : d ≠ '\n' := by rintro rfl; rw [space_newline] at hd; cases hd
      rw [List.cons_append, cont_chr_pos (by rfl), cont_seq]
      have hrun : (Re.many (.chr C.space)).run ⟨'"' :: pre, d :: t ++ y, caps⟩ = [⟨'"' :: pre, d :: t ++ y, caps⟩] := by
        rw [Re.many, run_star_chr_greedy, List.cons_append, runLen_cons_neg (by rw [hd]; simp)]
        rfl
      rw [Re.cont, hrun, List.flatMap_cons, List.flatMap_nil, List.append_nil, cont_seq]
      have heol : (Re.eol true).run ⟨'"' :: pre, d :: t ++ y, caps⟩ = [] := by simp [Re.run, hdn]
      rw [Re.cont, heol]
      rfl
    · rw [List.cons_append, cont_chr_neg (by simpa using hc)]

/-- the value, and the name after it -/
theorem value_head {v : List Char} (hv : ValueText C v) {ws k sp y : List Char} (hws : ∀ c ∈ ws, C.space c = true)
    (hk : KeyText C k) (hsp : ∀ c ∈ sp, c = ' ') (top : List Char) (htop : ∃ c p, top = c :: p ∧ c ≠ '\n') (caps) :
    ∃ m, ((Re.seq (.grp 2 (.alt (structRe C) (.alt (textRe C) (.grp 6 (.lazy .any))))) (nextRe C)).run
      ⟨top, v ++ '\n' :: (ws ++ (k ++ (sp ++ '=' :: y))), caps⟩).head? =
      some ⟨m, y, (7, ws.length + ('\n' :: (v.reverse ++ top)).length, k) ::
      (2, top.length, v ++ ['\n']) :: (6, top.length, v ++ ['\n']) :: caps⟩ := by
  obtain ⟨m, hm⟩ := cont_next hws hk hsp (y := y) (pre := '\n' :: (v.reverse ++ top)) (by simp)
    ((2, top.length, v ++ ['\n']) :: (6, top.length, v ++ ['\n']) :: caps)
  refine ⟨m, ?_⟩
  rw [run_eq_cont, cont_seq, cont_grp, cont_alt, cont_alt]
  rw [show (structRe C).cont ⟨top, v ++ '\n' :: (ws ++ (k ++ (sp ++ '=' :: y))), caps⟩ _ = [] from by
    rw [Re.cont, struct_none hv]; rfl]
  rw [show (textRe C).cont ⟨top, v ++ '\n' :: (ws ++ (k ++ (sp ++ '=' :: y))), caps⟩ _ = [] from by
    rw [Re.cont, text_none hv]; rfl]
  rw [List.nil_append, List.nil_append, cont_grp]
  have e : v ++ '\n' :: (ws ++ (k ++ (sp ++ '=' :: y))) = (v ++ ['\n']) ++ (ws ++ (k ++ (sp ++ '=' :: y))) := by simp
  rw [e]
  refine cont_lazy_head (p := fun _ => true) (by simp) ?_ ?_
  · -- no name within the value
    intro a b hab hb
    rw [← run_eq_cont]
    -- split off the line end
    obtain ⟨b', rfl⟩ : ∃ b', b = b' ++ ['\n'] := by
      have := congrArg List.getLast? hab
      rw [List.getLast?_append_of_ne_nil _ (by simp), List.getLast?_append_of_ne_nil _ hb] at this
      simp at this
      exact List.getLast?_eq_some_iff.1 this.symm
    rw [← List.append_assoc] at hab
    have hab' : v = a ++ b' := (List.append_inj' hab rfl).1
    cases ha : a.reverse with
    | nil =>
      obtain ⟨c, p, hcp, hcn⟩ := htop
      subst hcp
      exact next_not_line hcn _ _ _
    | cons c p =>
      by_cases hcn : c = '\n'
      · subst hcn
        have ha' : a = p.reverse ++ ['\n'] := by
          have := congrArg List.reverse ha
          simpa using this
        -- the rest of the value ends in a visible character
        have hne : b' ≠ [] := by
          rintro rfl
          have := hv.last '\n' (by rw [hab', ha']; simp)
          rw [space_newline] at this; cases this
        obtain ⟨b'', x, rfl⟩ : ∃ b'' x, b' = b'' ++ [x] := by
          rcases List.eq_nil_or_concat b' with h | ⟨l, x, h⟩
          · exact absurd h hne
          · exact ⟨l, x, by simpa using h⟩
        have hx : C.space x = false := hv.last x (by rw [hab']; simp)
        rcases hv.lines p.reverse (b'' ++ [x]) (by rw [hab', ha']; simp) with heq | ⟨u, x', w, hb', hu, hx'⟩
        swap
        · rw [hb', List.append_assoc, List.append_assoc, List.cons_append]
          exact next_notKey hu hx' _ _
        have := next_value hx heq ('\n' :: p ++ top) (ws ++ (k ++ (sp ++ '=' :: y)))
        have e2 : b'' ++ [x] ++ ['\n'] ++ (ws ++ (k ++ (sp ++ '=' :: y))) = b'' ++ x :: '\n' :: (ws ++ (k ++ (sp ++ '=' :: y))) := by
          simp
        rw [e2]
        exact this _
      · exact next_not_line hcn _ _ _
  · rw [← run_eq_cont, matched_step (w := v ++ ['\n']) rfl]
    have e2 : (v ++ ['\n']).reverse ++ top = '\n' :: (v.reverse ++ top) := by simp
    rw [e2, matched_step (w := v ++ ['\n']) (by simp)]
    exact hm

/-- the first match for a simple value -/
theorem simple_head (h : Heading C) {v : List Char} (hv : ValueText C v) {ws k sp y : List Char} (hws : ∀ c ∈ ws, C.space c = true)
    (hk : KeyText C k) (hsp : ∀ c ∈ sp, c = ' ') :
    ∃ m, ((definitionRe C).run ⟨[], h.indent ++ (h.key ++ (h.spaces ++ '=' :: (h.gap ++ (v ++ '\n' :: (ws ++ (k ++ (sp ++ '=' :: y))))))),
      []⟩).head? = some m ∧ m.group 1 = some h.key ∧ m.group 3 = none ∧ m.group 5 = none ∧ m.group 6 = some (v ++ ['\n']) ∧
      m.groupStart 7 = some (h.indent ++ (h.key ++ (h.spaces ++ '=' :: (h.gap ++ (v ++ '\n' :: ws))))).length := by
  obtain ⟨m, hm⟩ := value_head hv hws hk hsp (y := y) _ (heading_top h (h.spaces.reverse ++ (h.key.reverse ++ (h.indent.reverse ++ []))))
    [(1, h.indent.length + ([] : List Char).length, h.key)]
  refine ⟨_, cont_heading h ?_ (by simp) hm, ?_, ?_, ?_, ?_, ?_⟩
  · intro c hc
    cases hvv : v with
    | nil => exact absurd hvv hv.ne
    | cons d l =>
      rw [hvv] at hc
      simp at hc
      subst hc
      exact hv.first d (by rw [hvv]; simp)
  · simp [St.group]
  · simp [St.group]
  · simp [St.group]
  · simp [St.group]
  · simp only [St.groupStart]
    simp
    omega

/-- a table within a structure -/
def innerTable : Re := .seq (.lit '{') (.seq (.chr (fun c => c.isAlpha)) (.seq (.lazy .any) (.lit '}')))

def insideBody : Re := .grp 4 (.alt innerTable (.lazy (.chr (fun c => c != '{' && c != '}'))))

theorem filter_grp_head {n : ℕ} {r : Re} {s u : St}
    (h : ((r.run s).filter (fun t => decide (t.rest.length < s.rest.length))).head? = some u) :
    (((Re.grp n r).run s).filter (fun t => decide (t.rest.length < s.rest.length))).head? =
      some { u with caps := (n, s.pre.length, matched s u) :: u.caps } := by
  rw [run_grp, List.filter_map, List.head?_map]
  have e : ((fun t : St => decide (t.rest.length < s.rest.length)) ∘
      fun t : St => { t with caps := (n, s.pre.length, matched s t) :: t.caps }) = fun t => decide (t.rest.length < s.rest.length) := rfl
  rw [e, h]
  rfl

theorem insideBody_char {c : Char} (h1 : c ≠ '{') (h2 : c ≠ '}') (pre l : List Char) (caps) :
    ((insideBody.run ⟨pre, c :: l, caps⟩).filter (fun t => decide (t.rest.length < (c :: l).length))).head? =
      some ⟨c :: pre, l, (4, pre.length, [c]) :: caps⟩ := by
  have hr : (((Re.alt innerTable (.lazy (.chr (fun c => c != '{' && c != '}')))).run ⟨pre, c :: l, caps⟩).filter
      (fun t => decide (t.rest.length < (⟨pre, c :: l, caps⟩ : St).rest.length))).head? = some ⟨c :: pre, l, caps⟩ := by
    have ht : innerTable.run ⟨pre, c :: l, caps⟩ = [] := by
      rw [run_eq_cont, innerTable, cont_seq]
      show (Re.chr _).cont _ _ = _
      rw [cont_chr_neg (by simpa using h1)]
    rw [run_alt, ht, List.nil_append, Re.lazy, run_star_chr_lazy, runLen_cons_pos (by simp [h1, h2]), List.range_succ_eq_map,
      List.map_cons, List.filter_cons, if_neg (by simp), List.range_succ_eq_map, List.map_cons, List.map_cons, List.filter_cons,
      if_pos (by simp)]
    simp [St.adv]
  have := filter_grp_head (n := 4) hr
  simpa [insideBody, matched] using this

theorem insideBody_table {a : Char} {u : List Char} (ha : a.isAlpha = true) (hu : '}' ∉ u) (pre l : List Char) (caps) :
    ((insideBody.run ⟨pre, '{' :: a :: u ++ '}' :: l, caps⟩).filter
      (fun t => decide (t.rest.length < ('{' :: a :: u ++ '}' :: l).length))).head? =
      some ⟨('{' :: a :: u ++ ['}']).reverse ++ pre, l, (4, pre.length, '{' :: a :: u ++ ['}']) :: caps⟩ := by
  have ht : (innerTable.run ⟨pre, '{' :: a :: u ++ '}' :: l, caps⟩).head? = some ⟨('{' :: a :: u ++ ['}']).reverse ++ pre, l, caps⟩ := by
    rw [run_eq_cont, innerTable, cont_seq]
    show ((Re.chr _).cont _ _).head? = _
    rw [List.cons_append, cont_chr_pos (by rfl), cont_seq, List.cons_append, cont_chr_pos ha, cont_seq]
    refine cont_lazy_head (p := fun _ => true) (by simp) ?_ ?_
    · intro x b hab hb
      cases b with
      | nil => exact absurd rfl hb
      | cons d b =>
        show (Re.chr _).cont _ _ = _
        rw [List.cons_append, cont_chr_neg]
        have : d ≠ '}' := by rintro rfl; exact hu (by rw [hab]; simp)
        simpa using this
    · show ((Re.chr _).cont _ _).head? = _
      rw [cont_chr_pos (by rfl)]
      simp
  have hr : (((Re.alt innerTable (.lazy (.chr (fun c => c != '{' && c != '}')))).run ⟨pre, '{' :: a :: u ++ '}' :: l, caps⟩).filter
      (fun t => decide (t.rest.length < (⟨pre, '{' :: a :: u ++ '}' :: l, caps⟩ : St).rest.length))).head? =
      some ⟨('{' :: a :: u ++ ['}']).reverse ++ pre, l, caps⟩ := by
    rw [run_alt]
    cases hx : innerTable.run ⟨pre, '{' :: a :: u ++ '}' :: l, caps⟩ with
    | nil => rw [hx] at ht; simp at ht
    | cons x xs =>
      rw [hx] at ht
      simp only [List.head?_cons, Option.some.injEq] at ht
      show (List.filter _ (x :: (xs ++ _))).head? = _
      rw [List.filter_cons, if_pos, List.head?_cons, ht]
      rw [ht]
      simp
      omega
  have := filter_grp_head (n := 4) hr
  rw [matched_step (w := '{' :: a :: u ++ ['}']) rfl] at this
  exact this

/-- a structure is passed over character by character and table by table -/
theorem cont_inside {w : List Char} (hw : Inside w) (l : List Char) (f : St → List St) (n : ℕ) (hlen : (w ++ l).length ≤ n)
    (pre : List Char) (caps : List (ℕ × ℕ × List Char))
    (hn : ∀ a b, w = a ++ b → b ≠ [] → Inside b → ∀ caps, f ⟨a.reverse ++ pre, b ++ l, caps⟩ = []) :
    ∃ c' : List (ℕ × ℕ × List Char), (∀ x ∈ c', x.1 = 4) ∧ ∀ t, (f ⟨w.reverse ++ pre, l, c' ++ caps⟩).head? = some t →
      ((starRun insideBody.run false n ⟨pre, w ++ l, caps⟩).flatMap f).head? = some t := by
  induction hw generalizing n pre caps with
  | nil => exact ⟨[], by simp, fun t ht => starRun_lazy_here ht⟩
  | char c w h1 h2 hw ih =>
    cases n with
    | zero => simp at hlen
    | succ n =>
      obtain ⟨c', hc', h⟩ := ih n (by simp at hlen ⊢; omega) (c :: pre) ((4, pre.length, [c]) :: caps) (by
        intro a b hab hb hib caps
        have := hn (c :: a) b (by rw [hab]; rfl) hb hib caps
        simpa using this)
      refine ⟨c' ++ [(4, pre.length, [c])], fun x hx => (List.mem_append.1 hx).elim (hc' x) (fun h => by simp at h; rw [h]), ?_⟩
      intro t ht
      refine starRun_lazy_step ?_ (insideBody_char h1 h2 pre (w ++ l) caps) (h t ?_)
      · exact hn [] (c :: w) rfl (by simp) (.char c w h1 h2 hw) caps
      · simpa using ht
  | table a u w ha hu hw ih =>
    cases n with
    | zero => simp at hlen
    | succ n =>
      obtain ⟨c', hc', h⟩ := ih n (by simp at hlen ⊢; omega) (('{' :: a :: u ++ ['}']).reverse ++ pre)
        ((4, pre.length, '{' :: a :: u ++ ['}']) :: caps) (by
          intro x b hab hb hib caps
          have := hn ('{' :: a :: u ++ '}' :: x) b (by rw [hab]; simp) hb hib caps
          simpa using this)
      refine ⟨c' ++ [(4, pre.length, '{' :: a :: u ++ ['}'])], fun x hx => (List.mem_append.1 hx).elim (hc' x) (fun h => by simp at h; rw [h]), ?_⟩
      intro t ht
      have hs := insideBody_table ha hu pre (w ++ l) caps
      have e : '{' :: a :: u ++ '}' :: (w ++ l) = '{' :: a :: u ++ '}' :: w ++ l := by simp
      rw [e] at hs
      refine starRun_lazy_step ?_ hs (h t ?_)
      · exact hn [] _ rfl (by simp) (.table a u w ha hu hw) caps
      · simpa using ht

/-- the first visible character of text within a structure is not its closing brace -/
theorem inside_first {w : List Char} (hw : Inside w) : ∀ c ∈ (w.dropWhile C.space).head?, c ≠ '}' := by
  induction hw with
  | nil => simp
  | char c w h1 h2 _ ih =>
    by_cases hc : C.space c = true
    · rw [List.dropWhile_cons_of_pos hc]; exact ih
    · rw [List.dropWhile_cons_of_neg hc]
      intro d hd
      simp at hd
      subst hd
      exact h2
  | table a u w _ _ _ =>
    rw [List.cons_append, List.dropWhile_cons_of_neg (by rw [not_space (by decide) (by decide)]; simp)]
    intro d hd
    simp at hd
    subst hd
    decide

/-- `^\s*\}` -/
def closeRe (C : Classes) (r : Re) : Re := .seq (.bol true) (.seq (.many (.chr C.space)) (.seq (.lit '}') r))

theorem close_not_line {c : Char} (hc : c ≠ '\n') (pre l : List Char) (caps) (r : Re) (f : St → List St) :
    (closeRe C r).cont ⟨c :: pre, l, caps⟩ f = [] := by
  rw [closeRe, cont_seq, cont_bol_neg hc]

theorem close_none {b : List Char} (hb : Inside b) (hv : ∃ c ∈ b, C.space c = false) (pre l : List Char) (caps) (r : Re) (f : St → List St) :
    (closeRe C r).cont ⟨pre, b ++ l, caps⟩ f = [] := by
  by_contra hne
  obtain ⟨t, ht⟩ := List.exists_mem_of_ne_nil _ hne
  rw [closeRe, cont_seq, mem_cont] at ht
  obtain ⟨s1, h1, ht⟩ := ht
  have e1 : s1 = ⟨pre, b ++ l, caps⟩ := by
    cases pre with
    | nil => simpa [Re.run] using h1
    | cons c p =>
      simp only [Re.run] at h1
      split at h1
      · simpa using h1
      · simp at h1
  subst e1
  rw [cont_seq, mem_cont] at ht
  obtain ⟨s2, h2, ht⟩ := ht
  rw [cont_seq, mem_cont] at ht
  obtain ⟨s3, h3, _⟩ := ht
  obtain ⟨ws, a1, a2, a3, a4⟩ := mem_many h2
  obtain ⟨x, b1, b2, b3, b4⟩ := mem_chr h3
  clear a2 a3 b2 b3
  have hx : x = '}' := by simpa using b4
  subst hx
  simp only at a1
  rw [b1] at a1
  -- both sides without leading white space
  have hd := congrArg (List.dropWhile C.space) a1
  rw [dropWhile_append_of_all a4, List.dropWhile_cons_of_neg (by rw [not_space (by decide) (by decide)]; simp)] at hd
  have hbd : b.dropWhile C.space ≠ [] := by
    intro e
    rw [List.dropWhile_eq_nil_iff] at e
    obtain ⟨c, hc, hs⟩ := hv
    rw [e c hc] at hs; cases hs
  have hdrop : (b ++ l).dropWhile C.space = b.dropWhile C.space ++ l := by
    clear a1 hd hb h1 h2 hne h3 b1 a4
    induction b with
    | nil => exact absurd rfl hbd
    | cons c b ih =>
      by_cases hc : C.space c = true
      · rw [List.cons_append, List.dropWhile_cons_of_pos hc, List.dropWhile_cons_of_pos hc]
        rw [List.dropWhile_cons_of_pos hc] at hbd
        refine ih ?_ hbd
        obtain ⟨d, hd, hs⟩ := hv
        rcases List.mem_cons.1 hd with rfl | hd
        · rw [hc] at hs; cases hs
        · exact ⟨d, hd, hs⟩
      · rw [List.cons_append, List.dropWhile_cons_of_neg hc, List.dropWhile_cons_of_neg hc]; rfl
  rw [hdrop] at hd
  cases hbb : b.dropWhile C.space with
  | nil => exact hbd hbb
  | cons c b' =>
    rw [hbb] at hd
    simp at hd
    exact inside_first hb c (by rw [hbb]; simp) hd.1

theorem structRe_eq : structRe C = .seq (.lit '{') (.seq (.some1 (.chr C.space)) (.seq (.grp 3 (.lazy insideBody))
    (closeRe C (.lazy .any)))) := rfl

/-- the structure, and the name after it -/
theorem struct_head {ws1 inner ws2 trail : List Char} {c1 : Char} {w1 w2 : List Char} {c2 : Char} (hw1 : ws1 ≠ [])
    (hws1 : ∀ c ∈ ws1, C.space c = true) (hi1 : inner = c1 :: w1) (hc1 : C.space c1 = false) (hi2 : inner = w2 ++ [c2, '\n'])
    (hc2 : C.space c2 = false) (hin : Inside inner) (hws2 : ∀ c ∈ ws2, C.space c = true) (htr : '\n' ∉ trail)
    {ws k sp y : List Char} (hws : ∀ c ∈ ws, C.space c = true)
    (hk : KeyText C k) (hsp : ∀ c ∈ sp, c = ' ') (top : List Char) (caps) :
    ∃ (m z : List Char) (i j : ℕ) (c' : List (ℕ × ℕ × List Char)), (∀ x ∈ c', x.1 = 4) ∧
      ((Re.seq (.grp 2 (.alt (structRe C) (.alt (textRe C) (.grp 6 (.lazy .any))))) (nextRe C)).run
      ⟨top, '{' :: (ws1 ++ (inner ++ (ws2 ++ '}' :: (trail ++ '\n' :: (ws ++ (k ++ (sp ++ '=' :: y))))))), caps⟩).head? =
      some ⟨m, y, (7, ('{' :: (ws1 ++ (inner ++ (ws2 ++ '}' :: (trail ++ '\n' :: ws))))).length + top.length, k) ::
        (2, i, z) :: (3, j, inner) :: (c' ++ caps)⟩ := by
  set tail := trail ++ '\n' :: (ws ++ (k ++ (sp ++ '=' :: y))) with htail
  set pre1 := ws1.reverse ++ '{' :: top with hpre1
  set pre2 := trail.reverse ++ '}' :: (ws2.reverse ++ (inner.reverse ++ pre1)) with hpre2
  -- the continuation after the structure
  let K : St → List St := fun u => (nextRe C).run { u with caps := (2, top.length, matched ⟨top, '{' :: (ws1 ++ (inner ++ (ws2 ++ '}' :: tail))), caps⟩ u) :: u.caps }
  let F : St → List St := fun u => (closeRe C (.lazy .any)).cont { u with caps := (3, pre1.length, matched ⟨pre1, inner ++ (ws2 ++ '}' :: tail), caps⟩ u) :: u.caps } K
  have hfail : ∀ a b, inner = a ++ b → b ≠ [] → Inside b → ∀ caps, F ⟨a.reverse ++ pre1, b ++ (ws2 ++ '}' :: tail), caps⟩ = [] := by
    intro a b hab hb hib caps
    by_cases hv : ∃ c ∈ b, C.space c = false
    · exact close_none hib hv _ _ _ _ _
    · -- only the line end is left
      push Not at hv
      have hbn : b = ['\n'] ∧ a = w2 ++ [c2] := by
        have e : a ++ b = (w2 ++ [c2]) ++ ['\n'] := by rw [← hab, hi2]; simp
        rcases List.append_eq_append_iff.1 e with ⟨x, e1, e2⟩ | ⟨x, e1, e2⟩
        · cases x using List.reverseRecOn with
          | nil => simp at e1 e2; exact ⟨e2, e1.symm⟩
          | append_singleton x d =>
            rw [← List.append_assoc] at e1
            have := (List.append_inj' e1 rfl).2
            simp at this
            exact absurd hc2 (hv c2 (by rw [e2, this]; simp))
        · cases x with
          | nil => simp at e1 e2; exact ⟨e2.symm, e1⟩
          | cons d x =>
            simp at e2
            exact absurd e2.2.2 hb
      rw [hbn.2]
      have e : (w2 ++ [c2]).reverse ++ pre1 = c2 :: (w2.reverse ++ pre1) := by simp
      rw [e]
      refine close_not_line ?_ _ _ _ _ _
      rintro rfl
      rw [space_newline] at hc2; cases hc2
  obtain ⟨c', hc', hins⟩ := cont_inside hin (ws2 ++ '}' :: tail) F _ le_rfl pre1 caps hfail
  obtain ⟨m, hm⟩ := cont_next hws hk hsp (y := y) (pre := '\n' :: pre2) (by simp)
    ((2, top.length, matched ⟨top, '{' :: (ws1 ++ (inner ++ (ws2 ++ '}' :: tail))), caps⟩
      ⟨'\n' :: pre2, ws ++ (k ++ (sp ++ '=' :: y)), (3, pre1.length, inner) :: (c' ++ caps)⟩) ::
      (3, pre1.length, inner) :: (c' ++ caps))
  refine ⟨m, matched ⟨top, '{' :: (ws1 ++ (inner ++ (ws2 ++ '}' :: tail))), caps⟩
      ⟨'\n' :: pre2, ws ++ (k ++ (sp ++ '=' :: y)), (3, pre1.length, inner) :: (c' ++ caps)⟩, top.length, pre1.length, c', hc', ?_⟩
  rw [run_eq_cont, cont_seq, cont_grp, cont_alt]
  refine head_append_some ?_
  simp only [← run_eq_cont]
  rw [structRe_eq, cont_seq]
  show ((Re.chr _).cont _ _).head? = _
  rw [cont_chr_pos (by rfl), cont_seq, Re.some1, cont_seq]
  cases hws1' : ws1 with
  | nil => exact absurd hws1' hw1
  | cons d ws1' =>
    rw [List.cons_append, cont_chr_pos (hws1 d (by rw [hws1']; simp))]
    refine cont_many_head (fun c hc => hws1 c (by rw [hws1']; simp [hc])) ?_ ?_
    · intro c hc
      rw [hi1] at hc
      simp at hc
      subst hc
      exact hc1
    · rw [cont_seq, cont_grp]
      have e : ws1'.reverse ++ d :: '{' :: top = pre1 := by rw [hpre1, hws1']; simp
      rw [e]
      have hF : (F ⟨inner.reverse ++ pre1, ws2 ++ '}' :: tail, c' ++ caps⟩).head? =
          some ⟨m, y, (7, ws.length + ('\n' :: pre2).length, k) :: (2, top.length, matched ⟨top, '{' :: (ws1 ++ (inner ++ (ws2 ++ '}' :: tail))), caps⟩
      ⟨'\n' :: pre2, ws ++ (k ++ (sp ++ '=' :: y)), (3, pre1.length, inner) :: (c' ++ caps)⟩) ::
      (3, pre1.length, inner) :: (c' ++ caps)⟩ := by
        show ((closeRe C (.lazy .any)).cont _ _).head? = _
        rw [matched_step (w := inner) rfl, closeRe, cont_seq, cont_bol_pos, cont_seq]
        · refine cont_many_head hws2 ?_ ?_
          · intro c hc; simp at hc; subst hc; exact not_space (by decide) (by decide)
          · rw [cont_seq]
            show ((Re.chr _).cont _ _).head? = _
            rw [cont_chr_pos (by rfl)]
            have e2 : tail = (trail ++ ['\n']) ++ (ws ++ (k ++ (sp ++ '=' :: y))) := by rw [htail]; simp
            conv_lhs => rw [e2]
            refine cont_lazy_head (p := fun _ => true) (by simp) ?_ ?_
            · intro a b hab hb
              cases ha : a.reverse with
              | nil => exact next_not_line (by decide) _ _ _
              | cons x p =>
                refine next_not_line ?_ _ _ _
                rintro rfl
                have hx : '\n' ∈ a := by rw [← List.mem_reverse, ha]; simp
                -- the line end is the last character
                obtain ⟨b', rfl⟩ : ∃ b', b = b' ++ ['\n'] := by
                  have := congrArg List.getLast? hab
                  rw [List.getLast?_append_of_ne_nil _ (by simp), List.getLast?_append_of_ne_nil _ hb] at this
                  simp at this
                  exact List.getLast?_eq_some_iff.1 this.symm
                rw [← List.append_assoc] at hab
                have hab' : trail = a ++ b' := (List.append_inj' hab rfl).1
                exact htr (by rw [hab']; simp [hx])
            · have e3 : (trail ++ ['\n']).reverse ++ '}' :: (ws2.reverse ++ (inner.reverse ++ pre1)) = '\n' :: pre2 := by
                rw [hpre2]; simp
              rw [e3]
              exact hm
        · intro c hc
          rw [hi2] at hc
          simp at hc
          exact hc.symm
      have := hins _ hF
      have elen : ws.length + ('\n' :: pre2).length =
          ('{' :: (ws1 ++ (inner ++ (ws2 ++ '}' :: (trail ++ '\n' :: ws))))).length + top.length := by
        rw [hpre2, hpre1]
        simp
        omega
      rw [elen, hws1'] at this
      show ((starRun insideBody.run false _ _).flatMap _).head? = _
      exact this

theorem find_four {c' caps : List (ℕ × ℕ × List Char)} (h : ∀ x ∈ c', x.1 = 4) {n : ℕ} (hn : n ≠ 4) :
    (c' ++ caps).find? (fun c => c.1 == n) = caps.find? (fun c => c.1 == n) := by
  rw [List.find?_append]
  have : c'.find? (fun c => c.1 == n) = none := by
    rw [List.find?_eq_none]
    intro x hx
    rw [h x hx]
    simpa using Ne.symm hn
  rw [this]
  rfl

theorem structure_head (h : Heading C) {ws1 inner ws2 trail : List Char} {c1 : Char} {w1 w2 : List Char} {c2 : Char} (hw1 : ws1 ≠ [])
    (hws1 : ∀ c ∈ ws1, C.space c = true) (hi1 : inner = c1 :: w1) (hc1 : C.space c1 = false) (hi2 : inner = w2 ++ [c2, '\n'])
    (hc2 : C.space c2 = false) (hin : Inside inner) (hws2 : ∀ c ∈ ws2, C.space c = true) (htr : '\n' ∉ trail)
    {ws k sp y : List Char} (hws : ∀ c ∈ ws, C.space c = true) (hk : KeyText C k) (hsp : ∀ c ∈ sp, c = ' ') :
    ∃ m, ((definitionRe C).run ⟨[], h.indent ++ (h.key ++ (h.spaces ++ '=' :: (h.gap ++ ('{' :: (ws1 ++ (inner ++ (ws2 ++ '}' ::
        (trail ++ '\n' :: (ws ++ (k ++ (sp ++ '=' :: y))))))))))),
      []⟩).head? = some m ∧ m.group 1 = some h.key ∧ m.group 3 = some inner ∧
      m.groupStart 7 = some (h.indent ++ (h.key ++ (h.spaces ++ '=' :: (h.gap ++ ('{' :: (ws1 ++ (inner ++ (ws2 ++ '}' ::
        (trail ++ '\n' :: ws))))))))).length := by
  obtain ⟨m, z, i, j, c', hc', hm⟩ := struct_head hw1 hws1 hi1 hc1 hi2 hc2 hin hws2 htr hws hk hsp (y := y)
    (h.gap.reverse ++ '=' :: (h.spaces.reverse ++ (h.key.reverse ++ (h.indent.reverse ++ []))))
    [(1, h.indent.length + ([] : List Char).length, h.key)]
  refine ⟨_, cont_heading h ?_ (by simp) hm, ?_, ?_, ?_⟩
  · intro c hc
    simp at hc
    subst hc
    exact not_space (by decide) (by decide)
  · simp only [St.group]
    rw [List.find?_cons_of_neg (by simp), List.find?_cons_of_neg (by simp), List.find?_cons_of_neg (by simp),
      find_four hc' (by decide)]
    simp
  · simp [St.group]
  · simp only [St.groupStart]
    simp
    omega

/-- greedy repetition of a class, followed by something which matches only after fewer characters -/
theorem cont_many_back {p : Char → Bool} {w l : List Char} (hw : ∀ c ∈ w, p c = true) {pre : List Char} {caps} {k : St → List St} {t : St}
    (hn : ∀ a b, l = a ++ b → a ≠ [] → (∀ c ∈ a, p c = true) → k ⟨a.reverse ++ (w.reverse ++ pre), b, caps⟩ = [])
    (h : (k ⟨w.reverse ++ pre, l, caps⟩).head? = some t) :
    ((Re.many (.chr p)).cont ⟨pre, w ++ l, caps⟩ k).head? = some t := by
  rw [Re.cont, Re.many, run_star_chr_greedy, List.flatMap_map, flatMap_head?]
  refine findSome?_range_reverse _ _ w.length _ ?_ ?_ ?_
  · rw [runLen_append hw]; omega
  · have e : (⟨pre, w ++ l, caps⟩ : St).adv w.length = ⟨w.reverse ++ pre, l, caps⟩ := by simp [St.adv]
    rw [e, h]
  · intro j hj hj'
    have hr : runLen p (w ++ l) = w.length + runLen p l := runLen_append hw
    have hj'' : j < runLen p (w ++ l) + 1 := hj'
    rw [hr] at hj''
    have e : (⟨pre, w ++ l, caps⟩ : St).adv j =
        ⟨(l.take (j - w.length)).reverse ++ (w.reverse ++ pre), l.drop (j - w.length), caps⟩ := by
      simp only [St.adv]
      rw [List.take_append, List.drop_append, List.take_of_length_le hj.le, List.drop_eq_nil_of_le hj.le]
      simp
    rw [e, hn (l.take (j - w.length)) (l.drop (j - w.length)) (by simp) (by
      intro e
      have := congrArg List.length e
      have hl := runLen_le p l
      rw [List.length_take, List.length_nil] at this
      omega) (take_runLen (by omega))]
    rfl

/-- the closing quotation mark of a block -/
def closeQuote (C : Classes) : Re := .seq (.bol true) (.seq (.many (.chr C.space)) (.seq (.lit '"') (.lazy .any)))

theorem textRe_eq : textRe C = .seq (.lit '"') (.seq (.many (.chr C.space)) (.seq (.eol true)
    (.seq (.grp 5 (.many (.chr (fun c => c != '{')))) (closeQuote C)))) := rfl

/-- where a closing quotation mark is found -/
theorem closeQuote_mem {s u : St} (h : u ∈ (closeQuote C).run s) : (∀ c ∈ s.pre.head?, c = '\n') ∧
    ∃ ws b, s.rest = ws ++ '"' :: b ∧ ∀ c ∈ ws, C.space c = true := by
  rw [run_eq_cont, closeQuote, cont_seq, mem_cont] at h
  obtain ⟨s1, h1, h⟩ := h
  rw [cont_seq, mem_cont] at h
  obtain ⟨s2, h2, h⟩ := h
  rw [cont_seq, mem_cont] at h
  obtain ⟨s3, h3, _⟩ := h
  have e1 : s1 = s ∧ ∀ c ∈ s.pre.head?, c = '\n' := by
    cases hp : s.pre with
    | nil => exact ⟨by simpa [Re.run, hp] using h1, by simp⟩
    | cons c p =>
      simp only [Re.run, hp] at h1
      split at h1
      · next hc => exact ⟨by simpa using h1, by simpa using hc⟩
      · simp at h1
  obtain ⟨rfl, e2⟩ := e1
  obtain ⟨ws, a1, _, _, a4⟩ := mem_many h2
  obtain ⟨x, f1, _, _, f4⟩ := mem_chr h3
  have hx : x = '"' := by simpa using f4
  subst hx
  exact ⟨e2, ws, s3.rest, by rw [a1, f1], a4⟩

/-- the block of text, and the name after it -/
theorem text_head {ws0 body ws1 trail rest : List Char} (hb : BlockText C ws0 body ws1 trail rest) {ws k sp y : List Char}
    (er : rest = ws ++ (k ++ (sp ++ '=' :: y))) (hws : ∀ c ∈ ws, C.space c = true)
    (hk : KeyText C k) (hsp : ∀ c ∈ sp, c = ' ') (top : List Char) (caps) :
    ∃ (m z : List Char) (i j : ℕ),
      ((Re.seq (.grp 2 (.alt (structRe C) (.alt (textRe C) (.grp 6 (.lazy .any))))) (nextRe C)).run
      ⟨top, '"' :: (ws0 ++ '\n' :: (body ++ (ws1 ++ '"' :: (trail ++ '\n' :: rest)))), caps⟩).head? =
      some ⟨m, y, (7, ('"' :: (ws0 ++ '\n' :: (body ++ (ws1 ++ '"' :: (trail ++ '\n' :: ws))))).length + top.length, k) ::
        (2, i, z) :: (5, j, '\n' :: body) :: caps⟩ := by
  set tail := trail ++ '\n' :: rest with htail
  set whole := '"' :: (ws0 ++ '\n' :: (body ++ (ws1 ++ '"' :: tail))) with hwhole
  set pre1 := ws0.reverse ++ '"' :: top with hpre1
  set pre2 := trail.reverse ++ '"' :: (ws1.reverse ++ (('\n' :: body).reverse ++ pre1)) with hpre2
  obtain ⟨m, hm⟩ := cont_next hws hk hsp (y := y) (pre := '\n' :: pre2) (by simp)
    ((2, top.length, matched ⟨top, whole, caps⟩ ⟨'\n' :: pre2, rest, (5, pre1.length, '\n' :: body) :: caps⟩) ::
      (5, pre1.length, '\n' :: body) :: caps)
  refine ⟨m, matched ⟨top, whole, caps⟩ ⟨'\n' :: pre2, rest, (5, pre1.length, '\n' :: body) :: caps⟩, top.length, pre1.length, ?_⟩
  have hstruct : ∀ f, (structRe C).cont ⟨top, whole, caps⟩ f = [] := by
    intro f
    rw [structRe_eq, cont_seq]
    show (Re.chr _).cont _ _ = _
    rw [hwhole, cont_chr_neg (by simp)]
  rw [run_eq_cont, cont_seq, cont_grp, cont_alt, hstruct, List.nil_append, cont_alt]
  refine head_append_some ?_
  simp only [← run_eq_cont]
  rw [textRe_eq, cont_seq]
  show ((Re.chr _).cont _ _).head? = _
  rw [hwhole, cont_chr_pos (by rfl), cont_seq]
  -- blank lines
  have hq : C.space '"' = false := not_space (by decide) (by decide)
  refine cont_many_back hb.open_ok ?_ ?_
  · intro a b hab hane ha
    rw [cont_seq]
    -- white space which goes further does not end before a line end
    cases a with
    | nil => exact absurd rfl hane
    | cons d a =>
      rw [List.cons_append, List.cons.injEq] at hab
      have hnl : ∀ c ∈ b.head?, c ≠ '\n' := by
        rintro c hc rfl
        obtain ⟨b', rfl⟩ : ∃ b', b = '\n' :: b' := by
          cases b with
          | nil => simp at hc
          | cons c b => simp at hc; subst hc; exact ⟨b, rfl⟩
        rcases List.append_eq_append_iff.1 hab.2 with ⟨x, e1, e2⟩ | ⟨x, e1, e2⟩
        · -- beyond the body
          rcases List.append_eq_append_iff.1 e2 with ⟨x', f1, f2⟩ | ⟨x', f1, f2⟩
          · cases x' with
            | nil => simp at f2
            | cons d' x' =>
              simp at f2
              have : C.space '"' = true := ha '"' (by rw [e1, f1, f2.1]; simp)
              rw [hq] at this; cases this
          · cases x' with
            | nil => simp at f2
            | cons d' x' =>
              simp at f2
              exact (hb.indent '\n' (by rw [f1, ← f2.1]; simp)).2 rfl
        · -- within the body
          cases x with
          | nil =>
            simp at e1 e2
            cases hw1 : ws1 with
            | nil => rw [hw1] at e2; simp at e2
            | cons d' w =>
              rw [hw1] at e2
              simp at e2
              exact (hb.indent d' (by rw [hw1]; simp)).2 e2.1.symm
          | cons d' x =>
            simp at e2
            obtain ⟨c, hc, hcs⟩ := hb.first a x (by rw [e1, ← e2.1])
            rw [ha c (by simp [hc])] at hcs; cases hcs
      have : (Re.eol true).run ⟨(d :: a).reverse ++ (ws0.reverse ++ '"' :: top), b, caps⟩ = [] := by
        cases hbb : b with
        | nil =>
          exfalso
          rw [hbb] at hab
          have : '"' ∈ a := by
            have := hab.2
            rw [List.append_nil] at this
            rw [← this]; simp
          have := ha '"' (by simp [this])
          rw [hq] at this; cases this
        | cons c b' =>
          have := hnl c (by rw [hbb]; simp)
          simp [Re.run, this]
      rw [Re.cont, this]
      rfl
  rw [cont_seq]
  have heol : (Re.eol true).run ⟨ws0.reverse ++ '"' :: top, '\n' :: (body ++ (ws1 ++ '"' :: tail)), caps⟩ =
      [⟨ws0.reverse ++ '"' :: top, '\n' :: (body ++ (ws1 ++ '"' :: tail)), caps⟩] := by simp [Re.run]
  rw [Re.cont, heol, List.flatMap_cons, List.flatMap_nil, List.append_nil, cont_seq, cont_grp]
  have e : '\n' :: (body ++ (ws1 ++ '"' :: tail)) = ('\n' :: body) ++ (ws1 ++ '"' :: tail) := rfl
  rw [e]
  refine cont_many_back (p := fun c => c != '{') ?_ ?_ ?_
  · intro c hc
    rcases List.mem_cons.1 hc with rfl | hc
    · rfl
    · have : c ≠ '{' := fun e => hb.brace (e ▸ hc)
      simpa using this
  · -- no closing quotation mark further on
    intro a b hab hane ha
    rw [Re.cont]
    rw [List.flatMap_eq_nil_iff]
    intro u hu
    exfalso
    obtain ⟨h1, ws', b', h2, h3⟩ := closeQuote_mem hu
    simp only at h1 h2
    obtain ⟨a', c, rfl⟩ : ∃ a' c, a = a' ++ [c] := by
      rcases List.eq_nil_or_concat a with h | ⟨l, x, h⟩
      · exact absurd h hane
      · exact ⟨l, x, by simpa using h⟩
    have hc : c = '\n' := h1 c (by simp)
    subst hc
    rw [h2] at hab
    -- the line end lies after the closing quotation mark
    have hab' : ws1 ++ '"' :: tail = a' ++ '\n' :: (ws' ++ '"' :: b') := by simpa using hab
    rcases List.append_eq_append_iff.1 hab' with ⟨x, e1, e2⟩ | ⟨x, e1, e2⟩
    · cases x with
      | nil => simp at e2
      | cons d x =>
        simp at e2
        have := hb.after_ok x ws' b' e2.2 h3
        have := ha '{' (by rw [e1]; simp [this])
        simp at this
    · cases x with
      | nil => simp at e2
      | cons d x =>
        simp at e2
        exact (hb.indent '\n' (by rw [e1, ← e2.1]; simp)).2 rfl
  · rw [matched_step (w := '\n' :: body) rfl, closeQuote, cont_seq, cont_bol_pos, cont_seq]
    · refine cont_many_head (fun c hc => (hb.indent c hc).1) ?_ ?_
      · intro c hc; simp at hc; subst hc; exact hq
      · rw [cont_seq]
        show ((Re.chr _).cont _ _).head? = _
        rw [cont_chr_pos (by rfl)]
        have e2 : tail = (trail ++ ['\n']) ++ rest := by rw [htail]; simp
        conv_lhs => rw [e2]
        refine cont_lazy_head (p := fun _ => true) (by simp) ?_ ?_
        · intro a b hab hb'
          cases ha : a.reverse with
          | nil => exact next_not_line (by decide) _ _ _
          | cons x p =>
            refine next_not_line ?_ _ _ _
            rintro rfl
            have hx : '\n' ∈ a := by rw [← List.mem_reverse, ha]; simp
            obtain ⟨b', rfl⟩ : ∃ b', b = b' ++ ['\n'] := by
              have := congrArg List.getLast? hab
              rw [List.getLast?_append_of_ne_nil _ (by simp), List.getLast?_append_of_ne_nil _ hb'] at this
              simp at this
              exact List.getLast?_eq_some_iff.1 this.symm
            rw [← List.append_assoc] at hab
            have hab' : trail = a ++ b' := (List.append_inj' hab rfl).1
            exact hb.trail_ok (by rw [hab']; simp [hx])
        · have e3 : (trail ++ ['\n']).reverse ++ '"' :: (ws1.reverse ++ (('\n' :: body).reverse ++ (ws0.reverse ++ '"' :: top))) =
              '\n' :: pre2 := by rw [hpre2, hpre1]; simp
          rw [e3]
          have elen : ws.length + ('\n' :: pre2).length =
              ('"' :: (ws0 ++ '\n' :: (body ++ (ws1 ++ '"' :: (trail ++ '\n' :: ws))))).length + top.length := by
            rw [hpre2, hpre1]; simp; omega
          rw [← elen]
          rw [← er] at hm
          exact hm
    · intro c hc
      rcases List.eq_nil_or_concat body with h | ⟨l, x, h⟩
      · rw [h] at hc; simp at hc; exact hc.symm
      · have hx := hb.last x (by rw [h]; simp)
        rw [h] at hc
        simp at hc
        rw [← hc, hx]

theorem block_head (h : Heading C) {ws0 body ws1 trail rest : List Char} (hb : BlockText C ws0 body ws1 trail rest) {ws k sp y : List Char}
    (er : rest = ws ++ (k ++ (sp ++ '=' :: y))) (hws : ∀ c ∈ ws, C.space c = true) (hk : KeyText C k) (hsp : ∀ c ∈ sp, c = ' ') :
    ∃ m, ((definitionRe C).run ⟨[], h.indent ++ (h.key ++ (h.spaces ++ '=' :: (h.gap ++ ('"' :: (ws0 ++ '\n' :: (body ++ (ws1 ++ '"' ::
        (trail ++ '\n' :: rest)))))))), []⟩).head? = some m ∧ m.group 1 = some h.key ∧ m.group 3 = none ∧
      m.group 5 = some ('\n' :: body) ∧
      m.groupStart 7 = some (h.indent ++ (h.key ++ (h.spaces ++ '=' :: (h.gap ++ ('"' :: (ws0 ++ '\n' :: (body ++ (ws1 ++ '"' ::
        (trail ++ '\n' :: ws))))))))).length := by
  obtain ⟨m, z, i, j, hm⟩ := text_head hb er hws hk hsp
    (h.gap.reverse ++ '=' :: (h.spaces.reverse ++ (h.key.reverse ++ (h.indent.reverse ++ []))))
    [(1, h.indent.length + ([] : List Char).length, h.key)]
  refine ⟨_, cont_heading h ?_ (by simp) hm, ?_, ?_, ?_, ?_⟩
  · intro c hc
    simp at hc
    subst hc
    exact not_space (by decide) (by decide)
  · simp [St.group]
  · simp [St.group]
  · simp [St.group]
  · simp only [St.groupStart]
    simp
    omega

/-- what is appended to the text before reading it brings no further quotation mark -/
theorem block_end {ws0 body ws1 trail rest : List Char} (hb : BlockText C ws0 body ws1 trail rest) {e : List Char} (he : '"' ∉ e) :
    BlockText C ws0 body ws1 trail (rest ++ e) := by
  refine { hb with after_ok := ?_ }
  intro a ws b eq hws
  have eq' : (trail ++ '\n' :: rest) ++ e = (a ++ '\n' :: ws) ++ '"' :: b := by simpa using eq
  rcases List.append_eq_append_iff.1 eq' with ⟨x, e1, e2⟩ | ⟨x, e1, e2⟩
  · exact absurd (by rw [e2]; simp) he
  · cases x with
    | nil => exact absurd (by rw [List.nil_append] at e2; rw [← e2]; simp) he
    | cons d x =>
      simp at e2
      exact hb.after_ok a ws x (by rw [e1, ← e2.1]; simp) hws

/-- every definition found holds two equals signs -/
theorem definition_equals {s t : St} (h : t ∈ (definitionRe C).run s) : ∃ a b c, s.rest = a ++ '=' :: (b ++ '=' :: c) := by
  rw [definitionRe, run_seq, List.mem_flatMap] at h
  obtain ⟨s1, h1, h⟩ := h
  rw [run_seq, List.mem_flatMap] at h
  obtain ⟨s2, h2, h⟩ := h
  rw [run_seq, List.mem_flatMap] at h
  obtain ⟨s3, h3, h⟩ := h
  rw [run_seq, List.mem_flatMap] at h
  obtain ⟨s4, h4, h⟩ := h
  rw [run_seq, List.mem_flatMap] at h
  obtain ⟨s5, h5, h⟩ := h
  rw [run_seq, List.mem_flatMap] at h
  obtain ⟨s6, h6, h⟩ := h
  rw [run_seq, List.mem_flatMap] at h
  obtain ⟨s7, h7, h8⟩ := h
  obtain ⟨x, e5, _, _, hx⟩ := mem_chr h5
  have hx : x = '=' := by simpa using hx
  subst hx
  obtain ⟨ws, k, sp, e8, _⟩ := next_mem h8
  obtain ⟨u1, e1⟩ := ((((run_suffix _ _ _ h4).trans (run_suffix _ _ _ h3)).trans (run_suffix _ _ _ h2)).trans (run_suffix _ _ _ h1))
  obtain ⟨u2, e2⟩ := (run_suffix _ _ _ h7).trans (run_suffix _ _ _ h6)
  exact ⟨u1, u2 ++ (ws ++ (k ++ sp)), t.rest, by rw [← e1, e5, ← e2, e8]; simp⟩

/-- white space alone defines nothing -/
theorem evaluate_blank {b : List Char} (hb : ∀ c ∈ b, C.space c = true) (fuel : ℕ) : evaluate C fuel b = .ok .none := by
  cases fuel with
  | zero => rfl
  | succ n =>
    have hs : (definitionRe C).search (b ++ "\nend=".toList) = none := by
      apply searchFrom_none
      intro k _
      by_contra hne
      obtain ⟨t, ht⟩ := List.exists_mem_of_ne_nil _ hne
      obtain ⟨x, y, z, e⟩ := definition_equals ht
      simp only [St.adv] at e
      have hc := congrArg (List.count '=') e
      have hle : List.count '=' ((b ++ "\nend=".toList).drop k) ≤ List.count '=' (b ++ "\nend=".toList) :=
        (List.drop_sublist _ _).count_le _
      have hb0 : List.count '=' b = 0 := by
        rw [List.count_eq_zero]
        intro hm
        have := hb _ hm
        rw [not_space (by decide) (by decide)] at this
        cases this
      have h1 : List.count '=' (b ++ "\nend=".toList) = 1 := by
        rw [List.count_append, hb0]; rfl
      rw [hc, h1, List.count_append, List.count_cons_self, List.count_append, List.count_cons_self] at hle
      omega
    rw [evaluate, hs]

/-- after a definition there follows the name of the next, or the one added at the end -/
theorem definitions_next {rest : List Char} {ds : List (List Char × TVal)} (h : Definitions C rest ds) :
    ∃ ws k sp y a b, rest ++ "\nend=".toList = ws ++ (k ++ (sp ++ '=' :: y)) ∧ (∀ c ∈ ws, C.space c = true) ∧ KeyText C k ∧
      (∀ c ∈ sp, c = ' ') ∧ rest = a ++ b ∧ (∀ c ∈ a, C.space c = true) ∧ rest.drop ws.length = b := by
  have hend : KeyText C "end".toList := by
    refine ⟨"end".toList, by decide, ?_, Or.inl rfl⟩
    intro c hc
    left
    rw [C.word_ascii c]
    · revert c; decide
    · revert c; decide
  cases h with
  | nil _ hws =>
    refine ⟨rest ++ ['\n'], "end".toList, [], [], rest, [], by simp, ?_, hend, by simp, by simp, hws, by simp⟩
    intro c hc
    rw [List.mem_append, List.mem_singleton] at hc
    rcases hc with hc | rfl
    · exact hws c hc
    · exact space_newline
  | last h v x hv hx =>
    exact ⟨h.indent, h.key, h.spaces, h.gap ++ v ++ "\nend=".toList, h.indent, _, by simp, h.indent_ok, h.key_ok, h.spaces_ok, rfl,
      h.indent_ok, List.drop_left⟩
  | simple h v x rest ds hv hx hd =>
    exact ⟨h.indent, h.key, h.spaces, h.gap ++ (v ++ '\n' :: rest) ++ "\nend=".toList, h.indent, _, by simp, h.indent_ok, h.key_ok,
      h.spaces_ok, rfl, h.indent_ok, List.drop_left⟩
  | struct h ws1 inner ws2 trail rest c1 w1 w2 c2 ids ds =>
    exact ⟨h.indent, h.key, h.spaces, (h.gap ++ ('{' :: (ws1 ++ (inner ++ (ws2 ++ '}' ::
        (trail ++ '\n' :: rest)))))) ++ "\nend=".toList, h.indent, _, by simp, h.indent_ok, h.key_ok,
      h.spaces_ok, rfl, h.indent_ok, List.drop_left⟩
  | structLast h ws1 inner ws2 trail c1 w1 w2 c2 ids =>
    exact ⟨h.indent, h.key, h.spaces, (h.gap ++ ('{' :: (ws1 ++ (inner ++ (ws2 ++ '}' :: trail))))) ++ "\nend=".toList, h.indent, _,
      by simp, h.indent_ok, h.key_ok, h.spaces_ok, rfl, h.indent_ok, List.drop_left⟩
  | block h ws0 body ws1 trail rest ds =>
    exact ⟨h.indent, h.key, h.spaces, (h.gap ++ ('"' :: (ws0 ++ '\n' :: (body ++ (ws1 ++ '"' ::
        (trail ++ '\n' :: rest)))))) ++ "\nend=".toList, h.indent, _, by simp, h.indent_ok, h.key_ok,
      h.spaces_ok, rfl, h.indent_ok, List.drop_left⟩
  | blockLast h ws0 body ws1 trail =>
    exact ⟨h.indent, h.key, h.spaces, (h.gap ++ ('"' :: (ws0 ++ '\n' :: (body ++ (ws1 ++ '"' :: trail))))) ++ "\nend=".toList, h.indent, _,
      by simp, h.indent_ok, h.key_ok, h.spaces_ok, rfl, h.indent_ok, List.drop_left⟩

/-- a heading with less indentation -/
theorem heading_drop (h : Heading C) {a b l : List Char} (ha : ∀ c ∈ a, C.space c = true)
    (e : h.indent ++ (h.key ++ l) = a ++ b) : ∃ h' : Heading C, h'.key = h.key ∧ h'.spaces = h.spaces ∧ h'.gap = h.gap ∧
      b = h'.indent ++ (h.key ++ l) := by
  have key : ∃ i, h.indent = a ++ i ∧ b = i ++ (h.key ++ l) := by
    rcases List.append_eq_append_iff.1 e with ⟨x, e1, e2⟩ | ⟨x, e1, e2⟩
    · cases x with
      | nil => exact ⟨[], by simpa using e1.symm, by simpa using e2.symm⟩
      | cons d x =>
        exfalso
        have hkne := keyText_ne h.key_ok
        cases hkey : h.key with
        | nil => exact hkne hkey
        | cons f k =>
          rw [hkey] at e2
          simp at e2
          have := (keyText_chars h.key_ok f (by rw [hkey]; simp)).1
          rw [e2.1, ha d (by rw [e1]; simp)] at this
          cases this
    · exact ⟨x, e1, e2⟩
  obtain ⟨i, h1, h2⟩ := key
  exact ⟨{ h with indent := i, indent_ok := fun c hc => h.indent_ok c (by rw [h1]; simp [hc]) }, rfl, rfl, rfl, h2⟩

theorem ok_bind {ε α β : Type} (x : α) (f : α → Except ε β) : ((Except.ok x : Except ε α) >>= f) = f x := rfl

/-- one step of the evaluation -/
theorem evaluate_step {s : List Char} {m : St} {n : ℕ} (hm : ((definitionRe C).run ⟨[], s ++ "\nend=".toList, []⟩).head? = some m)
    {k : List Char} (h1 : m.group 1 = some k) {p : ℕ} (h7 : m.groupStart 7 = some p) {r rest : TVal}
    (hr : (match m.group 3, m.group 5 with
        | some inner, _ => evaluate C n inner
        | none, some text => .ok (.str text)
        | none, none => simpleValue C.space ((m.group 6).getD [])) = .ok r)
    (hrest : evaluate C n (s.drop p) = .ok rest) : evaluate C (n + 1) s = .ok (mergeVal (keyName k) r rest) := by
  rw [evaluate, show (definitionRe C).search (s ++ "\nend=".toList) = some (⟨[], s ++ "\nend=".toList, []⟩, m) from searchFrom_here hm]
  simp only
  rw [h7, h1]
  simp only [Option.getD_some]
  cases h3 : m.group 3 with
  | some inner =>
    rw [h3] at hr
    simp only at hr ⊢
    rw [hr, ok_bind, hrest, ok_bind]
  | none =>
    rw [h3] at hr
    cases h5 : m.group 5 with
    | some text =>
      rw [h5] at hr
      simp only at hr ⊢
      rw [hr, ok_bind, hrest, ok_bind]
    | none =>
      rw [h5] at hr
      simp only at hr ⊢
      rw [hr, ok_bind, hrest, ok_bind]

/-- the text of definitions is read as the definitions joined, starting anywhere in the white space before the first -/
theorem evaluate_definitions {s : List Char} {ds : List (List Char × TVal)} (h : Definitions C s ds) :
    ∀ a b, s = a ++ b → (∀ c ∈ a, C.space c = true) → ∀ fuel, b.length < fuel → evaluate C fuel b = .ok (mergeAll ds) := by
  have hend : KeyText C "end".toList := by
    refine ⟨"end".toList, by decide, ?_, Or.inl rfl⟩
    intro c hc
    left
    rw [C.word_ascii c]
    · revert c; decide
    · revert c; decide
  induction h with
  | nil ws hws =>
    intro a b e _ fuel _
    exact evaluate_blank (fun c hc => hws c (by rw [e]; simp [hc])) fuel
  | last h v x hv hx =>
    intro a b e ha fuel hf
    cases fuel with
    | zero => omega
    | succ n =>
      obtain ⟨h', k1, k2, k3, hb⟩ := heading_drop h ha e
      obtain ⟨m, hm, g1, g3, g5, g6, g7⟩ := simple_head h' hv (ws := []) (by simp) hend (sp := []) (by simp) (y := [])
      rw [k1, k2, k3] at hm g7
      have := evaluate_step (C := C) (s := b) (m := m) (n := n) (r := x) (rest := .none) (by rw [hb]; simpa using hm) g1 g7 (by
        rw [g3, g5, g6]; exact hx) (by
        rw [List.drop_eq_nil_of_le (by rw [hb]; simp)]
        exact evaluate_blank (by simp) n)
      rw [this, k1]
      rfl
  | simple h v x rest ds hv hx hd ih =>
    intro a b e ha fuel hf
    cases fuel with
    | zero => omega
    | succ n =>
      obtain ⟨h', k1, k2, k3, hb⟩ := heading_drop h ha e
      obtain ⟨ws, k, sp, y, a', b', e1, hws, hk, hsp, e2, ha', e3⟩ := definitions_next hd
      obtain ⟨m, hm, g1, g3, g5, g6, g7⟩ := simple_head h' hv hws hk hsp (y := y)
      rw [k1, k2, k3] at hm g7
      have hdrop : b.drop (h'.indent ++ (h.key ++ (h.spaces ++ '=' :: (h.gap ++ (v ++ '\n' :: ws))))).length = b' := by
        have el : (h'.indent ++ (h.key ++ (h.spaces ++ '=' :: (h.gap ++ (v ++ '\n' :: ws))))).length =
            (h'.indent ++ (h.key ++ (h.spaces ++ '=' :: (h.gap ++ (v ++ ['\n']))))).length + ws.length := by simp; omega
        have eb : b = (h'.indent ++ (h.key ++ (h.spaces ++ '=' :: (h.gap ++ (v ++ ['\n']))))) ++ rest := by rw [hb]; simp
        rw [el, eb, ← List.drop_drop, List.drop_left, e3]
      have hlen : b'.length < n := by
        have : b'.length ≤ rest.length := by rw [e2]; simp
        rw [hb] at hf
        simp at hf
        omega
      have := evaluate_step (C := C) (s := b) (m := m) (n := n) (r := x) (rest := mergeAll ds) (by
        rw [hb, ← hm]
        simp only [List.append_assoc, List.cons_append, e1]) g1 g7 (by
        rw [g3, g5, g6]; exact hx) (by
        rw [hdrop]
        exact ih a' b' e2 ha' n hlen)
      rw [this, k1]
      rfl
  | struct h ws1 inner ws2 trail rest c1 w1 w2 c2 ids ds hw1 hws1 hi1 hc1 hi2 hc2 hin _ hws2 htr hd ihi ih =>
    intro a b e ha fuel hf
    cases fuel with
    | zero => omega
    | succ n =>
      obtain ⟨h', k1, k2, k3, hb⟩ := heading_drop h ha e
      obtain ⟨ws, k, sp, y, a', b', e1, hws, hk, hsp, e2, ha', e3⟩ := definitions_next hd
      obtain ⟨m, hm, g1, g3, g7⟩ := structure_head h' hw1 hws1 hi1 hc1 hi2 hc2 hin hws2 htr hws hk hsp (y := y)
      rw [k1, k2, k3] at hm g7
      have hdrop : b.drop (h'.indent ++ (h.key ++ (h.spaces ++ '=' :: (h.gap ++ ('{' :: (ws1 ++ (inner ++ (ws2 ++ '}' ::
        (trail ++ '\n' :: ws))))))))).length = b' := by
        have el : (h'.indent ++ (h.key ++ (h.spaces ++ '=' :: (h.gap ++ ('{' :: (ws1 ++ (inner ++ (ws2 ++ '}' ::
            (trail ++ '\n' :: ws))))))))).length =
            (h'.indent ++ (h.key ++ (h.spaces ++ '=' :: (h.gap ++ ('{' :: (ws1 ++ (inner ++ (ws2 ++ '}' ::
            (trail ++ ['\n']))))))))).length + ws.length := by simp; omega
        have eb : b = (h'.indent ++ (h.key ++ (h.spaces ++ '=' :: (h.gap ++ ('{' :: (ws1 ++ (inner ++ (ws2 ++ '}' ::
            (trail ++ ['\n']))))))))) ++ rest := by rw [hb]; simp
        rw [el, eb, ← List.drop_drop, List.drop_left, e3]
      rw [hb] at hf
      simp at hf
      have hlen : b'.length < n := by
        have : b'.length ≤ rest.length := by rw [e2]; simp
        omega
      have := evaluate_step (C := C) (s := b) (m := m) (n := n) (r := mergeAll ids) (rest := mergeAll ds) (by
        rw [hb, ← hm]
        simp only [List.append_assoc, List.cons_append, e1]) g1 g7 (by
        rw [g3]; exact ihi [] inner rfl (by simp) n (by omega)) (by
        rw [hdrop]
        exact ih a' b' e2 ha' n hlen)
      rw [this, k1]
      rfl
  | structLast h ws1 inner ws2 trail c1 w1 w2 c2 ids hw1 hws1 hi1 hc1 hi2 hc2 hin _ hws2 htr ihi =>
    intro a b e ha fuel hf
    cases fuel with
    | zero => omega
    | succ n =>
      obtain ⟨h', k1, k2, k3, hb⟩ := heading_drop h ha e
      obtain ⟨m, hm, g1, g3, g7⟩ := structure_head h' hw1 hws1 hi1 hc1 hi2 hc2 hin hws2 htr (ws := []) (by simp) hend (sp := [])
        (by simp) (y := [])
      rw [k1, k2, k3] at hm g7
      have hdr : b.drop (h'.indent ++ (h.key ++ (h.spaces ++ '=' :: (h.gap ++ ('{' :: (ws1 ++ (inner ++ (ws2 ++ '}' ::
        (trail ++ '\n' :: []))))))))).length = [] := List.drop_eq_nil_of_le (by rw [hb]; simp)
      rw [hb] at hf
      simp at hf
      have := evaluate_step (C := C) (s := b) (m := m) (n := n) (r := mergeAll ids) (rest := .none) (by rw [hb]; simpa using hm) g1 g7
        (by rw [g3]; exact ihi [] inner rfl (by simp) n (by omega)) (by
        rw [hdr]
        exact evaluate_blank (by simp) n)
      rw [this, k1]
      rfl
  | block h ws0 body ws1 trail rest ds hb hd ih =>
    intro a b e ha fuel hf
    cases fuel with
    | zero => omega
    | succ n =>
      obtain ⟨h', k1, k2, k3, hb'⟩ := heading_drop h ha e
      obtain ⟨ws, k, sp, y, a', b', e1, hws, hk, hsp, e2, ha', e3⟩ := definitions_next hd
      obtain ⟨m, hm, g1, g3, g5, g7⟩ := block_head h' (block_end hb (e := "\nend=".toList) (by decide)) e1 hws hk hsp
      rw [k1, k2, k3] at hm g7
      have hdrop : b.drop (h'.indent ++ (h.key ++ (h.spaces ++ '=' :: (h.gap ++ ('"' :: (ws0 ++ '\n' :: (body ++ (ws1 ++ '"' ::
        (trail ++ '\n' :: ws))))))))).length = b' := by
        have el : (h'.indent ++ (h.key ++ (h.spaces ++ '=' :: (h.gap ++ ('"' :: (ws0 ++ '\n' :: (body ++ (ws1 ++ '"' ::
            (trail ++ '\n' :: ws))))))))).length =
            (h'.indent ++ (h.key ++ (h.spaces ++ '=' :: (h.gap ++ ('"' :: (ws0 ++ '\n' :: (body ++ (ws1 ++ '"' ::
            (trail ++ ['\n']))))))))).length + ws.length := by simp; omega
        have eb : b = (h'.indent ++ (h.key ++ (h.spaces ++ '=' :: (h.gap ++ ('"' :: (ws0 ++ '\n' :: (body ++ (ws1 ++ '"' ::
            (trail ++ ['\n']))))))))) ++ rest := by rw [hb']; simp
        rw [el, eb, ← List.drop_drop, List.drop_left, e3]
      rw [hb'] at hf
      simp at hf
      have hlen : b'.length < n := by
        have : b'.length ≤ rest.length := by rw [e2]; simp
        omega
      have := evaluate_step (C := C) (s := b) (m := m) (n := n) (r := .str ('\n' :: body)) (rest := mergeAll ds) (by
        rw [hb', ← hm]
        simp only [List.append_assoc, List.cons_append]) g1 g7 (by
        rw [g3, g5]) (by
        rw [hdrop]
        exact ih a' b' e2 ha' n hlen)
      rw [this, k1]
      rfl
  | blockLast h ws0 body ws1 trail hb =>
    intro a b e ha fuel hf
    cases fuel with
    | zero => omega
    | succ n =>
      obtain ⟨h', k1, k2, k3, hb'⟩ := heading_drop h ha e
      obtain ⟨m, hm, g1, g3, g5, g7⟩ := block_head h' (block_end hb (e := "end=".toList) (by decide)) (ws := []) (k := "end".toList)
        (sp := []) (y := []) rfl (by simp) hend (by simp)
      rw [k1, k2, k3] at hm g7
      have hdr : b.drop (h'.indent ++ (h.key ++ (h.spaces ++ '=' :: (h.gap ++ ('"' :: (ws0 ++ '\n' :: (body ++ (ws1 ++ '"' ::
        (trail ++ '\n' :: []))))))))).length = [] := List.drop_eq_nil_of_le (by rw [hb']; simp)
      have := evaluate_step (C := C) (s := b) (m := m) (n := n) (r := .str ('\n' :: body)) (rest := .none) (by rw [hb']; simpa using hm) g1 g7
        (by rw [g3, g5]) (by
        rw [hdr]
        exact evaluate_blank (by simp) n)
      rw [this, k1]
      rfl

/-- **C33 (partial): repeated keys.** Reading a text of definitions — names with simple values (texts, arrays, tables) and names with
structures of further definitions, nested to any depth, in any order, with any indentation and blank lines — gives a dictionary
which holds, for a name occurring once, its value, and for a name occurring several times the list of its values in the order of the
text; a name which does not occur is absent.  This holds within each structure as well (the value of a structure is `mergeAll` of
its definitions).  Missing: names whose last value is an array (see `C33_list_counterexample`), and texts outside `Definitions`:
blocks of text between quotes, empty values (see `C33_empty_counterexample`), names followed by a tab (see
`C33_tab_counterexample`). -/
theorem C33_repeats_partial {s : List Char} {ds : List (List Char × TVal)} (h : Definitions C s ds) (hne : ds ≠ []) (k : List Char)
    (hl : ∀ l, (occurrences ds k).getLast? ≠ some (.list l)) :
    ∃ d, readStructure C s = .ok (.dict d) ∧ dictGet d k = combined (occurrences ds k) := by
  obtain ⟨d, h1, h2⟩ := mergeAll_get ds hne k
  refine ⟨d, ?_, ?_⟩
  · rw [readStructure, evaluate_definitions h [] s rfl (by simp) _ (Nat.lt_succ_self _), h1]
  · rw [h2, joined_eq_combined _ hl]

/-- the whole value read, structures included -/
theorem C33_value_partial {s : List Char} {ds : List (List Char × TVal)} (h : Definitions C s ds) :
    readStructure C s = .ok (mergeAll ds) :=
  evaluate_definitions h [] s rfl (by simp) _ (Nat.lt_succ_self _)

end

/-! examples: the hypotheses hold of nested text, and the values come out -/

def headingOf (i k s g : String) (hi : ∀ c ∈ i.toList, asciiSpace c = true) (hk : KeyText .ascii k.toList) (hs : ∀ c ∈ s.toList, c = ' ')
    (hg : ∀ c ∈ g.toList, asciiSpace c = true ∧ c ≠ '\n') : Heading .ascii :=
  ⟨i.toList, k.toList, s.toList, g.toList, hi, hk, hs, hg⟩

theorem keyText_ascii {k : String} (h1 : k.toList ≠ []) (h2 : ∀ c ∈ k.toList, (c.isAlphanum || c == '_') = true) :
    KeyText .ascii k.toList := ⟨k.toList, h1, fun c hc => Or.inl (h2 c hc), Or.inl rfl⟩

/-- two plots and a structure -/
example : ∃ d, readStructure .ascii "a = 1\n set={\n  b=2\n  b=3\n}\na=x y".toList = .ok (.dict d) ∧
    dictGet d "a".toList = some (.list [.str "1".toList, .str "x y".toList]) ∧ dictGet d "set".toList =
      some (.dict [("b".toList, .list [.str "2".toList, .str "3".toList])]) := by
  have hv : ∀ v : String, v.toList ≠ [] → (∀ c ∈ v.toList, c ≠ '\n' ∧ c ≠ '{' ∧ c ≠ '"') →
      (∀ c ∈ v.toList.head?, asciiSpace c = false) → (∀ c ∈ v.toList.getLast?, asciiSpace c = false) → ValueText .ascii v.toList := by
    intro v h0 h1 h2 h3
    refine ⟨h0, h2, h3, ?_, ?_⟩
    · intro c hc h
      have := h1 c (List.mem_of_mem_head? hc)
      rcases h with h | h
      · exact absurd h this.2.1
      · exact absurd h this.2.2
    · intro a b e
      exact absurd rfl (h1 '\n' (by rw [e]; simp)).1
  have key : Definitions .ascii "a = 1\n set={\n  b=2\n  b=3\n}\na=x y".toList
      [("a".toList, .str "1".toList), ("set".toList, mergeAll [("b".toList, .str "2".toList), ("b".toList, .str "3".toList)]),
        ("a".toList, .str "x y".toList)] :=
    Definitions.simple (headingOf "" "a" " " " " (by decide) (keyText_ascii (by decide) (by decide)) (by decide) (by decide))
      "1".toList _ _ _ (hv _ (by decide) (by decide) (by decide) (by decide)) (by decide +kernel)
      (Definitions.struct (headingOf " " "set" "" "" (by decide) (keyText_ascii (by decide) (by decide)) (by decide) (by decide))
        "\n  ".toList "b=2\n  b=3\n".toList [] [] "a=x y".toList 'b' "=2\n  b=3\n".toList "b=2\n  b=".toList '3' _ _
        (by decide) (by decide) (by decide) (by decide) (by decide) (by decide)
        (.char _ _ (by decide) (by decide) (.char _ _ (by decide) (by decide) (.char _ _ (by decide) (by decide)
          (.char _ _ (by decide) (by decide) (.char _ _ (by decide) (by decide) (.char _ _ (by decide) (by decide)
          (.char _ _ (by decide) (by decide) (.char _ _ (by decide) (by decide) (.char _ _ (by decide) (by decide)
          (.char _ _ (by decide) (by decide) .nil))))))))))
        (Definitions.simple (headingOf "" "b" "" "" (by decide) (keyText_ascii (by decide) (by decide)) (by decide) (by decide))
          "2".toList _ _ _ (hv _ (by decide) (by decide) (by decide) (by decide)) (by decide +kernel)
          (Definitions.simple (headingOf "  " "b" "" "" (by decide) (keyText_ascii (by decide) (by decide)) (by decide) (by decide))
            "3".toList _ [] [] (hv _ (by decide) (by decide) (by decide) (by decide)) (by decide +kernel) (.nil [] (by simp))))
        (by simp) (by simp)
        (Definitions.last (headingOf "" "a" "" "" (by decide) (keyText_ascii (by decide) (by decide)) (by decide) (by decide))
          "x y".toList _ (hv _ (by decide) (by decide) (by decide) (by decide)) (by decide +kernel)))
  obtain ⟨d, h1, h2⟩ := C33_repeats_partial key (by simp) "a".toList (by
    intro l
    have : (occurrences [("a".toList, TVal.str "1".toList), ("set".toList, mergeAll [("b".toList, .str "2".toList),
      ("b".toList, .str "3".toList)]), ("a".toList, .str "x y".toList)] "a".toList).getLast? = some (.str "x y".toList) := by
      decide +kernel
    rw [this]
    simp)
  obtain ⟨d', h1', h2'⟩ := C33_repeats_partial key (by simp) "set".toList (by
    intro l
    have : (occurrences [("a".toList, TVal.str "1".toList), ("set".toList, mergeAll [("b".toList, .str "2".toList),
      ("b".toList, .str "3".toList)]), ("a".toList, .str "x y".toList)] "set".toList).getLast? =
        some (.dict [("b".toList, .list [.str "2".toList, .str "3".toList])]) := by decide +kernel
    rw [this]
    simp)
  rw [h1] at h1'
  injection h1' with e
  injection e with e
  subst e
  refine ⟨d, h1, ?_, ?_⟩
  · rw [h2]; decide +kernel
  · rw [h2']; decide +kernel

/-- **C33 is false in general**: a list which is the last value of a repeated name is opened: its elements take its place. -/
theorem C33_list_counterexample : readStructure .ascii "a=3\na=[1,2]".toList =
    .ok (.dict [("a".toList, .list [.str "3".toList, .str "1".toList, .str "2".toList])]) := by decide +kernel

/-- and an empty value takes an indented definition after it as its text -/
theorem C33_empty_counterexample : readStructure .ascii "a=\n  b=3".toList =
    .ok (.dict [("a".toList, .str "b=3".toList)]) := by decide +kernel

/-- and a name followed by a tab is taken as part of the value before it -/
theorem C33_tab_counterexample : readStructure .ascii "a=3\nb\t=4\nc=4".toList =
    .ok (.dict [("c".toList, .str "4".toList), ("a".toList, .str "3\nb\t=4".toList)]) := by decide +kernel

end Verif.Props
