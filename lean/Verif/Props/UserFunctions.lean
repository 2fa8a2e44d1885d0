import Verif.Model.UserFunctions
import Verif.Props.StructureText
import Verif.Props.TextFile
import Verif.Props.Settings

/-! C109: functions of the user. -/

namespace Verif.Props
open Verif.Py Verif.Text Verif.Cli

theorem textOf_indent {C : Classes} {s : List Char} {ds : List (List Char × TVal)} (ws : List Char) (hw : ∀ c ∈ ws, C.space c = true)
    (h : TextOf C s ds) : TextOf C (ws ++ s) ds := by
  have hh : ∀ k : Heading C, ∃ k' : Heading C, k'.indent = ws ++ k.indent ∧ k'.key = k.key ∧ k'.spaces = k.spaces ∧ k'.gap = k.gap :=
    fun k => ⟨⟨ws ++ k.indent, k.key, k.spaces, k.gap, fun c hc => by
      rcases List.mem_append.1 hc with hc | hc
      · exact hw c hc
      · exact k.indent_ok c hc, k.key_ok, k.spaces_ok, k.gap_ok⟩, rfl, rfl, rfl, rfl⟩
  cases h with
  | nil _ h => exact .nil _ (fun c hc => by
      rcases List.mem_append.1 hc with hc | hc
      · exact hw c hc
      · exact h c hc)
  | last k v x hv hx =>
    obtain ⟨k', e1, e2, e3, e4⟩ := hh k
    have := TextOf.last k' v x hv hx
    rw [e1, e2, e3, e4, List.append_assoc] at this
    exact this
  | simple k v x rest ds hv hx hr =>
    obtain ⟨k', e1, e2, e3, e4⟩ := hh k
    have := TextOf.simple k' v x rest ds hv hx hr
    rw [e1, e2, e3, e4, List.append_assoc] at this
    exact this
  | struct k ws1 inner ws2 trail rest c1 w1 w2 c2 ids ds a1 a2 a3 a4 a5 a6 a7 a8 a9 a10 a11 a12 a13 =>
    obtain ⟨k', e1, e2, e3, e4⟩ := hh k
    have := TextOf.struct k' ws1 inner ws2 trail rest c1 w1 w2 c2 ids ds a1 a2 a3 a4 a5 a6 a7 a8 a9 a10 a11 a12 a13
    rw [e1, e2, e3, e4, List.append_assoc] at this
    exact this
  | structLast k ws1 inner ws2 trail c1 w1 w2 c2 ids a1 a2 a3 a4 a5 a6 a7 a8 a9 a10 a11 a12 =>
    obtain ⟨k', e1, e2, e3, e4⟩ := hh k
    have := TextOf.structLast k' ws1 inner ws2 trail c1 w1 w2 c2 ids a1 a2 a3 a4 a5 a6 a7 a8 a9 a10 a11 a12
    rw [e1, e2, e3, e4, List.append_assoc] at this
    exact this
  | block k ws0 body ws1 trail rest ds hb hr =>
    obtain ⟨k', e1, e2, e3, e4⟩ := hh k
    have := TextOf.block k' ws0 body ws1 trail rest ds hb hr
    rw [e1, e2, e3, e4, List.append_assoc] at this
    exact this
  | blockLast k ws0 body ws1 trail hb =>
    obtain ⟨k', e1, e2, e3, e4⟩ := hh k
    have := TextOf.blockLast k' ws0 body ws1 trail hb
    rw [e1, e2, e3, e4, List.append_assoc] at this
    exact this

theorem getLast?_append_right {α : Type} (a b : List α) (h : b ≠ []) : (a ++ b).getLast? = b.getLast? := by
  rw [List.getLast?_append]
  cases hb : b.getLast? with
  | none => rw [List.getLast?_eq_none_iff] at hb; exact absurd hb h
  | some x => rfl

/-- definitions which end with a line end can be followed by others; a block of text is to be followed by a structure -/
theorem textOf_append {C : Classes} {s u : List Char} {ds es : List (List Char × TVal)} (h : TextOf C s ds) (hu : TextOf C u es)
    (hn : s = [] ∨ s.getLast? = some '\n') (hq : ∀ d ∈ ds, ∀ t, d.2 ≠ .str ('\n' :: t)) : TextOf C (s ++ u) (ds ++ es) := by
  induction h with
  | nil ws hw => exact textOf_indent ws hw hu
  | last k v x hv hx =>
    exfalso
    have e : (k.indent ++ (k.key ++ (k.spaces ++ '=' :: (k.gap ++ v)))).getLast? = v.getLast? := by
      rw [getLast?_append_right _ _ (by simp), getLast?_append_right _ _ (by simp), getLast?_append_right _ _ (by simp),
        ← List.singleton_append, getLast?_append_right _ _ (by simp [hv.ne]), getLast?_append_right _ _ hv.ne]
    rcases hn with hn | hn
    · simp at hn
    · rw [e] at hn
      have := hv.last _ hn
      rw [space_newline] at this
      cases this
  | simple k v x rest ds hv hx hr ih =>
    have hrest : rest = [] ∨ rest.getLast? = some '\n' := by
      by_cases h0 : rest = []
      · exact Or.inl h0
      · right
        rcases hn with hn | hn
        · simp at hn
        · rw [getLast?_append_right _ _ (by simp), getLast?_append_right _ _ (by simp), getLast?_append_right _ _ (by simp),
            ← List.singleton_append, getLast?_append_right _ _ (by simp), getLast?_append_right _ _ (by simp),
            getLast?_append_right _ _ (by simp), ← List.singleton_append, getLast?_append_right _ _ h0] at hn
          exact hn
    have := TextOf.simple k v x (rest ++ u) (ds ++ es) hv hx (ih hrest (fun d hd => hq d (List.mem_cons_of_mem _ hd)))
    simp only [List.append_assoc, List.cons_append] at this ⊢
    exact this
  | struct k ws1 inner ws2 trail rest c1 w1 w2 c2 ids ds a1 a2 a3 a4 a5 a6 a7 a8 a9 a10 a11 a12 a13 _ ih =>
    have hrest : rest = [] ∨ rest.getLast? = some '\n' := by
      by_cases h0 : rest = []
      · exact Or.inl h0
      · right
        rcases hn with hn | hn
        · simp at hn
        · rw [getLast?_append_right _ _ (by simp), getLast?_append_right _ _ (by simp), getLast?_append_right _ _ (by simp),
            ← List.singleton_append, getLast?_append_right _ _ (by simp), getLast?_append_right _ _ (by simp),
            ← List.singleton_append, getLast?_append_right _ _ (by simp), getLast?_append_right _ _ (by simp),
            getLast?_append_right _ _ (by simp), getLast?_append_right _ _ (by simp),
            ← List.singleton_append, getLast?_append_right _ _ (by simp), getLast?_append_right _ _ (by simp),
            ← List.singleton_append, getLast?_append_right _ _ h0] at hn
          exact hn
    have := TextOf.struct k ws1 inner ws2 trail (rest ++ u) c1 w1 w2 c2 ids (ds ++ es) a1 a2 a3 a4 a5 a6 a7 a8 a9 a10 a11 a12
      (ih hrest (fun d hd => hq d (List.mem_cons_of_mem _ hd)))
    simp only [List.append_assoc, List.cons_append] at this ⊢
    exact this
  | structLast k ws1 inner ws2 trail c1 w1 w2 c2 ids a1 a2 a3 a4 a5 a6 a7 a8 a9 a10 a11 a12 =>
    exfalso
    rcases hn with hn | hn
    · simp at hn
    · rw [getLast?_append_right _ _ (by simp), getLast?_append_right _ _ (by simp), getLast?_append_right _ _ (by simp),
        ← List.singleton_append, getLast?_append_right _ _ (by simp), getLast?_append_right _ _ (by simp),
        ← List.singleton_append, getLast?_append_right _ _ (by simp), getLast?_append_right _ _ (by simp),
        getLast?_append_right _ _ (by simp), getLast?_append_right _ _ (by simp)] at hn
      have hm := List.mem_of_getLast? hn
      rcases List.mem_cons.1 hm with hm | hm
      · exact absurd hm (by decide)
      · exact a12 hm
  | block k ws0 body => exact absurd rfl (hq _ List.mem_cons_self body)
  | blockLast k ws0 body => exact absurd rfl (hq _ List.mem_cons_self body)

theorem occurrences_append (ds es : List (List Char × TVal)) (k : List Char) :
    occurrences (ds ++ es) k = occurrences ds k ++ occurrences es k := by
  rw [occurrences, occurrences, occurrences, List.filter_append, List.map_append]

/-- Specification: a list of functions: a text of definitions ending with a line end, none of which is an array or a block of text (there may
be blocks of text within structures) -/
structure FunctionList (C : Classes) (file : List Char) (ds : List (List Char × TVal)) : Prop where
  text : TextOf C (functionText C file) ds
  ending : (functionText C file).getLast? = some '\n'
  noArray : ∀ d ∈ ds, ∀ l, d.2 ≠ .list l
  noBlock : ∀ d ∈ ds, ∀ t, d.2 ≠ .str ('\n' :: t)

theorem noLastArray_of {ds : List (List Char × TVal)} (h : ∀ d ∈ ds, ∀ l, d.2 ≠ .list l) : NoLastArray ds := by
  intro k l _ e
  have hm := List.mem_of_getLast? e
  rw [occurrences, List.mem_map] at hm
  obtain ⟨x, hx, hxe⟩ := hm
  exact h x (List.mem_filter.1 hx).1 l hxe

/-- **C109, loading.** With a list of the user, the functions of every kind are those which come with the program, followed by
those of the user, each in the order of their files. -/
theorem C109_functions (C : Classes) (c content path user : List Char) (rest : List (List Char)) (d : Disk)
    (ds es : List (List Char × TVal)) (hb : FunctionList C d.builtin ds) (hne : ds ≠ []) (hc : d.file c = some content)
    (hp : readTextfile C none false true false content = path :: rest) (hp0 : path ≠ [])
    (hu : d.file path = some user) (hut : TextOf C (functionText C user) es) (hes : ∀ x ∈ es, ∀ l, x.2 ≠ .list l) :
    ∃ v, loadFunctions C (some c) d = .ok (.dict v) ∧
      ∀ kind, dictGet v kind = combined (occurrences ds kind ++ occurrences es kind) := by
  have ht := textOf_append hb.text hut (Or.inr hb.ending) hb.noBlock
  have hl : NoLastArray (ds ++ es) := noLastArray_of (fun x hx => by
    rcases List.mem_append.1 hx with hx | hx
    · exact hb.noArray x hx
    · exact hes x hx)
  obtain ⟨h1, h2⟩ := C33_read_partial C _ _ ht (by simp [hne]) hl
  refine ⟨dictOf (ds ++ es), ?_, fun kind => ?_⟩
  · rw [loadFunctions]
    simp only [hc, hp]
    cases path with
    | nil => exact absurd rfl hp0
    | cons a p => simp only [hu]; exact h1
  · rw [h2, occurrences_append]

/-- **C109, lookup.** A function is looked up by its name: if the program has one of that name it is used, whatever the user
defines; otherwise the first one of the user with that name. -/
theorem C109_lookup (C : Classes) (c content path user : List Char) (rest : List (List Char)) (d : Disk)
    (ds es : List (List Char × TVal)) (hb : FunctionList C d.builtin ds) (hne : ds ≠ []) (hc : d.file c = some content)
    (hp : readTextfile C none false true false content = path :: rest) (hp0 : path ≠ [])
    (hu : d.file path = some user) (hut : TextOf C (functionText C user) es) (hes : ∀ x ∈ es, ∀ l, x.2 ≠ .list l)
    (kind id : List Char) (hk : 2 ≤ (occurrences ds kind).length) (hn : ∀ e ∈ occurrences ds kind ++ occurrences es kind, (nameOf e).isSome) :
    ∃ v, loadFunctions C (some c) d = .ok v ∧
      (∀ e, (occurrences ds kind).find? (fun e => nameOf e = some id) = some e → lookupDef nameOf (sectionOf v kind) id = .ok e) ∧
      ((∀ e ∈ occurrences ds kind, nameOf e ≠ some id) →
        ∀ e, (occurrences es kind).find? (fun e => nameOf e = some id) = some e → lookupDef nameOf (sectionOf v kind) id = .ok e) := by
  obtain ⟨v, h1, h2⟩ := C109_functions C c content path user rest d ds es hb hne hc hp hp0 hu hut hes
  refine ⟨_, h1, ?_⟩
  have hs : sectionOf (.dict v) kind = .many (occurrences ds kind ++ occurrences es kind) := by
    rw [sectionOf, h2]
    match h : occurrences ds kind with
    | [] => rw [h] at hk; simp at hk
    | [_] => rw [h] at hk; simp at hk
    | a :: b :: t => rfl
  rw [hs]
  have key : ∀ e, (occurrences ds kind ++ occurrences es kind).find? (fun e => nameOf e = some id) = some e →
      lookupDef nameOf (.many (occurrences ds kind ++ occurrences es kind)) id = .ok e := by
    intro e he
    rw [List.find?_eq_some_iff_getElem] at he
    obtain ⟨p1, i, hi, p2, p3⟩ := he
    refine (C60_lookup_partial nameOf _ hn id).1 i e (by rw [List.getElem?_eq_getElem hi, p2]) (by simpa using p1) ?_
    intro j e' hj he'
    have hj2 : j < (occurrences ds kind ++ occurrences es kind).length := by omega
    rw [List.getElem?_eq_getElem hj2] at he'
    have := p3 j hj
    rw [Option.some.inj he'] at this
    simpa using this
  constructor
  · intro e he
    apply key
    rw [List.find?_append, he]; rfl
  · intro h0 e he
    apply key
    rw [List.find?_append, List.find?_eq_none.2 (fun x hx => by simpa using h0 x hx)]
    exact he

/-- **C109, setting the list.** After the path of a list was given, the program uses this list. -/
theorem C109_set (C : Classes) (sep : List Char) (hsep : sep = ['\n'] ∨ sep = ['\r', '\n']) (c path user : List Char) (d : Disk) (v0 : TVal)
    (h0 : loadFunctions C (some c) d = .ok v0) (hp0 : path ≠ []) (hpl : PlainLine path) (hh : (path.dropWhile C.space).head? ≠ some '#')
    (hpc : path ≠ c) (ds es : List (List Char × TVal)) (hb : FunctionList C d.builtin ds) (hne : ds ≠ [])
    (hu : d.file path = some user) (hut : TextOf C (functionText C user) es) (hes : ∀ x ∈ es, ∀ l, x.2 ≠ .list l) :
    ∃ d', setUserFunctions C sep (some c) d path = .ok d' ∧ ∃ v, loadFunctions C (some c) d' = .ok (.dict v) ∧
      ∀ kind, dictGet v kind = combined (occurrences ds kind ++ occurrences es kind) := by
  refine ⟨_, by rw [setUserFunctions, h0]; rfl, ?_⟩
  have hread : readTextfile C none false true false (writeTextfile sep false ["#path to functions_user.txt".toList, path]) = [path] := by
    have hl : fileLines C none (writeTextfile sep false ["#path to functions_user.txt".toList, path]) =
        ["#path to functions_user.txt".toList, path] := by
      refine C31_roundtrip_partial C sep hsep false _ ?_ (by simp) (Or.inr (fun l hl => by
        rw [List.head?_cons, Option.mem_some_iff] at hl
        subst hl
        decide +kernel))
      intro l hl
      rcases List.mem_cons.1 hl with rfl | hl
      · unfold PlainLine; decide +kernel
      · rw [List.mem_singleton] at hl; subst hl; exact hpl
    have hc : C.space '#' = false := not_space (by decide) (by decide)
    have k1 : (lstrip C.space "#path to functions_user.txt".toList).head? = some '#' := by
      show (List.dropWhile C.space ('#' :: "path to functions_user.txt".toList)).head? = _
      rw [List.dropWhile_cons, hc]; rfl
    have k2 : ((lstrip C.space path).head? != some '#') = true := by
      have : (lstrip C.space path).head? ≠ some '#' := hh
      simpa using this
    simp only [readTextfile, hl, Bool.false_eq_true, if_false, if_true]
    rw [List.filter_cons, k1, List.filter_cons, k2]
    rfl
  refine C109_functions C c _ path user [] _ ds es hb hne ?_ hread hp0 ?_ hut hes
  · show (if c = c then _ else _) = _
    rw [if_pos rfl]
  · show (if path = c then _ else _) = _
    rw [if_neg hpc]; exact hu

/-- **C109, without a list.** If there is no configuration, or the configuration file does not exist, the functions of the program
are used alone. -/
theorem C109_builtin (C : Classes) (config : Option (List Char)) (d : Disk) (hc : ∀ c, config = some c → d.file c = none)
    (ds : List (List Char × TVal)) (hb : FunctionList C d.builtin ds) (hne : ds ≠ []) :
    ∃ v, loadFunctions C config d = .ok (.dict v) ∧ ∀ kind, dictGet v kind = combined (occurrences ds kind) := by
  obtain ⟨h1, h2⟩ := C33_read_partial C _ _ hb.text hne (noLastArray_of hb.noArray)
  refine ⟨_, ?_, h2⟩
  cases config with
  | none => exact h1
  | some c => rw [loadFunctions]; simp only [hc c rfl]; exact h1

/-- **C109, missing list.** If the list of the user is missing it is not ignored, as the message announces: the program fails, and it
also fails when another path is to be set, so that this cannot be repaired with the program. -/
theorem C109_missing_counterexample (C : Classes) (sep c content path : List Char) (rest : List (List Char)) (d : Disk)
    (hc : d.file c = some content) (hp : readTextfile C none false true false content = path :: rest) (hp0 : path ≠ [])
    (hu : d.file path = none) (other : List Char) :
    loadFunctions C (some c) d = .error .name ∧ setUserFunctions C sep (some c) d other = .error .name := by
  have h : loadFunctions C (some c) d = .error .name := by
    rw [loadFunctions]
    simp only [hc, hp]
    cases path with
    | nil => exact absurd rfl hp0
    | cons a p => simp only [hu]
  exact ⟨h, by rw [setUserFunctions, h]; rfl⟩

/-- **C109, empty configuration.** A configuration file with nothing but comments is an IndexError. -/
theorem C109_comment_counterexample (C : Classes) (c content : List Char) (d : Disk) (hc : d.file c = some content)
    (hp : readTextfile C none false true false content = []) : loadFunctions C (some c) d = .error .index := by
  rw [loadFunctions]
  simp only [hc, hp]

/-! an example: two chronologies come with the program, the user defines two, one with the name of a built-in one -/

def exampleDisk : Disk :=
  ⟨"# functions\nc={\n name=A\n v=1\n}\nc={\n name=B\n v=2\n}\n".toList, fun f =>
    if f = "cfg".toList then some "#path to functions_user.txt\nmine.txt".toList
    else if f = "mine.txt".toList then some "c={\n name=B\n v=3\n}\nc={\n name=D ; new\n v=4\n}\n".toList
    else none⟩

def exampleDef (n v : String) : TVal := .dict [("v".toList, .str v.toList), ("name".toList, .str n.toList)]

example : ∃ v, loadFunctions .ascii (some "cfg".toList) exampleDisk = .ok v ∧
    lookupDef nameOf (sectionOf v "c".toList) "B".toList = .ok (exampleDef "B" "2") ∧
    lookupDef nameOf (sectionOf v "c".toList) "D".toList = .ok (exampleDef "D" "4") ∧
    lookupDef nameOf (sectionOf v "c".toList) "E".toList = .error .value := by
  refine ⟨.dict [("c".toList, .list [exampleDef "A" "1", exampleDef "B" "2", exampleDef "B" "3", exampleDef "D" "4"])], ?_, ?_, ?_, ?_⟩
  all_goals decide +kernel

example : loadFunctions .ascii (some "cfg".toList) ⟨exampleDisk.builtin, fun f =>
    if f = "mine.txt".toList then none else exampleDisk.file f⟩ = .error .name := by decide +kernel

/-- the hypotheses of the theorems hold of the built-in list of the example -/
example : FunctionList .ascii exampleDisk.builtin [("c".toList, exampleDef "A" "1"), ("c".toList, exampleDef "B" "2")] := by
  have inner : ∀ n v : String, (∀ c ∈ n.toList, c ≠ '\n' ∧ c ≠ '{' ∧ c ≠ '"') → n.toList ≠ [] →
      (∀ c ∈ n.toList.head?, asciiSpace c = false) → (∀ c ∈ n.toList.getLast?, asciiSpace c = false) →
      (∀ c ∈ n.toList.head?, c ≠ '[' ∧ c ≠ '(' ∧ c ≠ '{' ∧ c ≠ '*' ∧ c ≠ '"' ∧ c ≠ '\'') →
      (∀ c ∈ v.toList, c ≠ '\n' ∧ c ≠ '{' ∧ c ≠ '"') → v.toList ≠ [] →
      (∀ c ∈ v.toList.head?, asciiSpace c = false) → (∀ c ∈ v.toList.getLast?, asciiSpace c = false) →
      (∀ c ∈ v.toList.head?, c ≠ '[' ∧ c ≠ '(' ∧ c ≠ '{' ∧ c ≠ '*' ∧ c ≠ '"' ∧ c ≠ '\'') →
      TextOf .ascii ("name=".toList ++ (n.toList ++ '\n' :: (" v=".toList ++ (v.toList ++ ['\n']))))
        [("name".toList, .str n.toList), ("v".toList, .str v.toList)] := by
    intro n v n1 n2 n3 n4 n5 v1 v2 v3 v4 v5
    exact .simple (headingOf "" "name" "" "" (by decide) (keyText_ascii (by decide) (by decide)) (by decide) (by decide))
      n.toList _ _ _ (valueText_line n n2 n1 n3 n4) (plain_text n n5)
      (.simple (headingOf " " "v" "" "" (by decide) (keyText_ascii (by decide) (by decide)) (by decide) (by decide))
        v.toList _ [] [] (valueText_line v v2 v1 v3 v4) (plain_text v v5) (.nil [] (by simp)))
  have hN : ∀ n v : String, NoLastArray [("name".toList, .str n.toList), ("v".toList, .str v.toList)] := by
    intro n v
    apply noLastArray_of
    intro d hd l
    simp only [List.mem_cons, List.not_mem_nil, or_false] at hd
    rcases hd with rfl | rfl <;> simp
  have ht : functionText .ascii exampleDisk.builtin = "c={\n name=A\n v=1\n}\nc={\n name=B\n v=2\n}\n".toList := by decide +kernel
  refine ⟨?_, by rw [ht]; decide +kernel, ?_, ?_⟩
  · rw [ht]
    exact .struct (headingOf "" "c" "" "" (by decide) (keyText_ascii (by decide) (by decide)) (by decide) (by decide))
      "\n ".toList "name=A\n v=1\n".toList [] [] "c={\n name=B\n v=2\n}\n".toList 'n' "ame=A\n v=1\n".toList "name=A\n v=".toList '1'
      _ _ (by decide) (by decide) (by decide) (by decide) (by decide) (by decide) (inside_noBraces _ (by decide))
      (inner "A" "1" (by decide) (by decide) (by decide) (by decide) (by decide) (by decide) (by decide) (by decide) (by decide) (by decide))
      (by simp) (hN "A" "1") (by simp) (by simp)
      (.struct (headingOf "" "c" "" "" (by decide) (keyText_ascii (by decide) (by decide)) (by decide) (by decide))
        "\n ".toList "name=B\n v=2\n".toList [] [] [] 'n' "ame=B\n v=2\n".toList "name=B\n v=".toList '2'
        _ _ (by decide) (by decide) (by decide) (by decide) (by decide) (by decide) (inside_noBraces _ (by decide))
        (inner "B" "2" (by decide) (by decide) (by decide) (by decide) (by decide) (by decide) (by decide) (by decide) (by decide) (by decide))
        (by simp) (hN "B" "2") (by simp) (by simp) (.nil [] (by simp)))
  · intro d hd l
    simp only [List.mem_cons, List.not_mem_nil, or_false] at hd
    rcases hd with rfl | rfl <;> simp [exampleDef]
  · intro d hd l
    simp only [List.mem_cons, List.not_mem_nil, or_false] at hd
    rcases hd with rfl | rfl <;> simp [exampleDef]

end Verif.Props
