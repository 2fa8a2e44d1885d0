import Verif.Props.TextStructure
import Mathlib.Data.List.Dedup

/-! C33: texts of definitions, stated without the reader's own functions: what names, values and structures mean. -/

namespace Verif.Props
open Verif.Py Verif.Text

/-! ### names -/

/-- Specification: the name under which a value is found: a trailing `^` becomes the prefix `ptr_`. -/
def definedName (k : List Char) : List Char :=
  if k.getLast? = some '^' then "ptr_".toList ++ k.dropLast else k

theorem keyName_eq {C : Classes} {k : List Char} (h : KeyText C k) : keyName k = definedName k := by
  obtain ⟨w, hne, hw, h⟩ := h
  have hat : '^' ∉ w := by
    intro hc
    rcases hw _ hc with h | h
    · rw [C.word_ascii _ (by decide)] at h
      revert h; decide
    · revert h; decide
  rcases h with rfl | rfl
  · have : k.getLast? ≠ some '^' := fun h => hat (List.mem_of_getLast? h)
    rw [keyName, definedName, if_neg this, if_neg this]
  · rw [keyName, definedName]
    simp only [List.getLast?_concat, if_true, List.dropLast_concat]
    congr 1
    rw [rstrip, List.rdropWhile_concat_pos _ _ _ (by rfl)]
    cases hl : w.getLast? with
    | none => exact absurd (List.getLast?_eq_none_iff.1 hl) hne
    | some c =>
      obtain ⟨v, rfl⟩ : ∃ v, w = v ++ [c] := ⟨w.dropLast, (List.dropLast_append_getLast? c hl).symm⟩
      refine List.rdropWhile_concat_neg _ _ _ ?_
      intro hc
      rw [beq_iff_eq] at hc
      exact hat (by rw [← hc]; simp)

/-! ### values -/

/-- Specification: quotation marks around a text are not part of it. -/
inductive Unquoted : List Char → List Char → Prop
  | quoted (q : Char) (t : List Char) : q = '"' ∨ q = '\'' → Unquoted (q :: (t ++ [q])) t
  | plain (v : List Char) : (∀ q t, v = q :: (t ++ [q]) → q ≠ '"' ∧ q ≠ '\'') → Unquoted v v

theorem stripQuotes_of {v t : List Char} (h : Unquoted v t) : stripQuotes v = t := by
  cases h with
  | quoted q t hq =>
    cases t with
    | nil => simp [stripQuotes, hq]
    | cons c t =>
      simp only [List.cons_append, stripQuotes]
      rw [if_pos ⟨by rw [List.getLast?_cons_of_ne_nil (by simp)]; simp, hq⟩]
      rw [← List.cons_append, List.dropLast_concat]
  | plain _ h =>
    rcases v with _ | ⟨c, _ | ⟨d, t⟩⟩
    · rfl
    · rfl
    · rw [stripQuotes]
      split_ifs with hq
      · exfalso
        obtain ⟨w, hw⟩ : ∃ w, d :: t = w ++ [c] := ⟨_, (List.dropLast_append_getLast? c hq.1).symm⟩
        rw [hw] at h
        have := h c w rfl
        rcases hq.2 with h | h
        · exact this.1 h
        · exact this.2 h
      · rfl

/-- blanks around the items of an array -/
def blank (c : Char) : Bool := c == '\n' || c == ' '

/-- Specification: one item of an array with the blanks around it. -/
structure Item where
  before : List Char
  text : List Char
  after : List Char
  value : List Char

/-- Specification: items hold no comma and no bracket; there may be blanks and line ends around them, and quotation marks. -/
structure Item.Ok (i : Item) : Prop where
  before_ok : ∀ c ∈ i.before, c = ' ' ∨ c = '\n'
  after_ok : ∀ c ∈ i.after, c = ' ' ∨ c = '\n'
  first : ∀ c ∈ i.text.head?, c ≠ ' ' ∧ c ≠ '\n'
  last : ∀ c ∈ i.text.getLast?, c ≠ ' ' ∧ c ≠ '\n'
  chars : ∀ c ∈ i.text, c ≠ ',' ∧ c ≠ '[' ∧ c ≠ ']' ∧ c ≠ '(' ∧ c ≠ ')'
  unquoted : Unquoted i.text i.value

def Item.all (i : Item) : List Char := i.before ++ i.text ++ i.after

/-- Specification: the text of a value which is not marked by `*`, and the value. -/
inductive PlainOf (C : Classes) : List Char → TVal → Prop
  | text (v t : List Char) : (∀ c ∈ v.head?, c ≠ '[' ∧ c ≠ '(' ∧ c ≠ '{') → Unquoted v t → PlainOf C v (.str t)
  | array (o c : Char) (items : List Item) : (o = '[' ∧ c = ']') ∨ (o = '(' ∧ c = ')') → items ≠ [] → (∀ i ∈ items, i.Ok) →
      PlainOf C (o :: (join [','] (items.map Item.all) ++ [c])) (.list (items.map (fun i => .str i.value)))
  | table (tags : List (List Char)) (pads : List ℕ) (rows : List (List Char × List (List Char))) (closing : List Char)
      (after : List (List Char)) : tags ≠ [] → pads.length = tags.length → (∀ t ∈ tags, TagText t) → tags.Nodup →
      (∀ r ∈ rows, PlainLine r.1 ∧ FieldLine C.space r.1 r.2 ∧ r.2 ≠ [] ∧ r.2.head? ≠ some ['}']) →
      PlainLine closing → (∃ fs, FieldLine C.space closing (['}'] :: fs)) → (∀ l ∈ after, PlainLine l) →
      PlainOf C (join ['\n'] (('{' :: join [','] (pads.zipWith (fun n t => List.replicate n ' ' ++ t) tags)) ::
        rows.map Prod.fst ++ closing :: after))
        (.dict (tags.zipIdx.map (fun x => (x.1, .list (rows.map (fun r => .str (r.2.getD x.2 [])))))))

/-- Specification: the text of a value and the value: a star before it is ignored. -/
inductive ValueOf (C : Classes) : List Char → TVal → Prop
  | plain (v : List Char) (x : TVal) : v.head? ≠ some '*' → PlainOf C v x → ValueOf C v x
  | star (v : List Char) (x : TVal) : (∀ c ∈ v.head?, C.space c = false) → PlainOf C v x → ValueOf C ('*' :: v) x

/-! arrays -/

theorem strip_blank_cons {p : Char → Bool} {c : Char} (h : p c = true) (s : List Char) : strip p (c :: s) = strip p s := by
  rw [strip, strip, lstrip, lstrip, List.dropWhile_cons_of_pos h]

theorem rdropWhile_append_pos {p : Char → Bool} {c : Char} (h : p c = true) (s : List Char) : rstrip p (s ++ [c]) = rstrip p s :=
  List.rdropWhile_concat_pos _ _ _ h

theorem strip_blank_concat {p : Char → Bool} {c : Char} (h : p c = true) (s : List Char) : strip p (s ++ [c]) = strip p s := by
  rw [strip, strip, lstrip, lstrip, List.dropWhile_append]
  split_ifs with he
  · rw [List.isEmpty_iff] at he
    rw [he, List.dropWhile_cons_of_pos h, List.dropWhile_nil]
  · exact rdropWhile_append_pos h _

theorem split_map_lstrip (p : Char → Bool) (hp : p ',' = false) (s : List Char) :
    (split ',' (lstrip p s)).map (strip p) = (split ',' s).map (strip p) := by
  induction s with
  | nil => rfl
  | cons c s ih =>
    cases hc : p c with
    | false => rw [lstrip, List.dropWhile_cons_of_neg (by simp [hc])]
    | true =>
      rw [lstrip, List.dropWhile_cons_of_pos hc]
      rw [lstrip] at ih
      rw [ih]
      have hne : c ≠ ',' := by rintro rfl; rw [hp] at hc; cases hc
      rw [split, if_neg hne]
      cases hs : split ',' s with
      | nil => exact absurd hs (split_ne_nil _ _)
      | cons h t => simp only [List.map_cons, strip_blank_cons hc]

theorem split_concat (s : List Char) (c : Char) (hc : c ≠ ',') :
    ∃ l t, split ',' s = l ++ [t] ∧ split ',' (s ++ [c]) = l ++ [t ++ [c]] := by
  induction s with
  | nil => exact ⟨[], [], rfl, by simp [split, hc]⟩
  | cons d s ih =>
    obtain ⟨l, t, h1, h2⟩ := ih
    by_cases hd : d = ','
    · exact ⟨[] :: l, t, by simp [split, hd, h1], by simp [split, hd, h2]⟩
    · rw [List.cons_append, split, if_neg hd, split, if_neg hd, h1, h2]
      cases l with
      | nil => exact ⟨[], d :: t, rfl, rfl⟩
      | cons a l => exact ⟨(d :: a) :: l, t, rfl, rfl⟩

theorem split_map_rstrip (p : Char → Bool) (hp : p ',' = false) (s : List Char) :
    (split ',' (rstrip p s)).map (strip p) = (split ',' s).map (strip p) := by
  induction s using List.reverseRecOn with
  | nil => rfl
  | append_singleton s c ih =>
    cases hc : p c with
    | false => rw [rstrip, List.rdropWhile_concat_neg _ _ _ (by simp [hc])]
    | true =>
      rw [rdropWhile_append_pos hc, ih]
      obtain ⟨l, t, h1, h2⟩ := split_concat s c (by rintro rfl; rw [hp] at hc; cases hc)
      rw [h1, h2, List.map_append, List.map_append, List.map_singleton, List.map_singleton, strip_blank_concat hc]

theorem split_map_strip (p : Char → Bool) (hp : p ',' = false) (s : List Char) :
    (split ',' (strip p s)).map (strip p) = (split ',' s).map (strip p) := by
  rw [strip, split_map_rstrip p hp, split_map_lstrip p hp]

theorem strip_congr {p q : Char → Bool} {s : List Char} (h : ∀ c ∈ s, p c = q c) : strip p s = strip q s := by
  have h1 : lstrip p s = lstrip q s := by
    rw [lstrip, lstrip]
    induction s with
    | nil => rfl
    | cons c s ih =>
      have := h c (by simp)
      rw [List.dropWhile_cons, List.dropWhile_cons, this, ih (fun d hd => h d (by simp [hd]))]
  rw [strip, strip, h1, rstrip, rstrip]
  have h2 : ∀ c ∈ lstrip q s, p c = q c := fun c hc => h c ((List.dropWhile_sublist q).mem hc)
  generalize lstrip q s = t at h2
  induction t using List.reverseRecOn with
  | nil => rfl
  | append_singleton t c ih =>
    have hc := h2 c (by simp)
    cases hq : q c with
    | true =>
      rw [List.rdropWhile_concat_pos _ _ _ (by rw [hc, hq]), List.rdropWhile_concat_pos _ _ _ hq]
      exact ih (fun d hd => h2 d (by simp [hd]))
    | false => rw [List.rdropWhile_concat_neg _ _ _ (by simp [hc, hq]), List.rdropWhile_concat_neg _ _ _ (by simp [hq])]

theorem mem_joinWith {x c : Char} (ls : List (List Char)) (h : c ∈ join [x] ls) : c = x ∨ ∃ l ∈ ls, c ∈ l := by
  cases ls with
  | nil => simp [join] at h
  | cons l ls =>
    rw [join_cons, List.mem_append, List.mem_flatMap] at h
    rcases h with h | ⟨g, hg, h⟩
    · exact Or.inr ⟨l, by simp, h⟩
    · rw [List.mem_append, List.mem_singleton] at h
      rcases h with h | h
      · exact Or.inl h
      · exact Or.inr ⟨g, by simp [hg], h⟩

theorem Item.Ok.all_chars {i : Item} (h : i.Ok) : ∀ c ∈ i.all, c ≠ ',' ∧ c ≠ '[' ∧ c ≠ ']' ∧ c ≠ '(' ∧ c ≠ ')' := by
  intro c hc
  rw [Item.all, List.mem_append, List.mem_append] at hc
  rcases hc with (hc | hc) | hc
  · rcases h.before_ok c hc with rfl | rfl <;> decide
  · exact h.chars c hc
  · rcases h.after_ok c hc with rfl | rfl <;> decide

theorem Item.Ok.strip_all {i : Item} (h : i.Ok) : strip blank i.all = i.text :=
  strip_eq (fun c hc => by rcases h.before_ok c hc with rfl | rfl <;> rfl) (fun c hc => by rcases h.after_ok c hc with rfl | rfl <;> rfl)
    (fun c hc => by have := h.first c hc; simp [blank, this]) (fun c hc => by have := h.last c hc; simp [blank, this])

theorem arrayValue_eq {o c : Char} (hoc : (o = '[' ∧ c = ']') ∨ (o = '(' ∧ c = ')')) (items : List Item) (hne : items ≠ [])
    (h : ∀ i ∈ items, i.Ok) :
    arrayValue [o, c] (o :: (join [','] (items.map Item.all) ++ [c]) ++ ['\n']) = .list (items.map (fun i => .str i.value)) := by
  rw [arrayValue]
  congr 1
  have hb : ∀ d ∈ join [','] (items.map Item.all), d ≠ '[' ∧ d ≠ ']' ∧ d ≠ '(' ∧ d ≠ ')' := by
    intro d hd
    rcases mem_joinWith _ hd with rfl | ⟨l, hl, hd⟩
    · decide
    · obtain ⟨i, hi, rfl⟩ := List.mem_map.1 hl
      exact ((h i hi).all_chars d hd).2
  have e : strip (fun d => [o, c].contains d || d == ' ' || d == '\n') (o :: (join [','] (items.map Item.all) ++ [c]) ++ ['\n']) =
      strip blank (join [','] (items.map Item.all)) := by
    rw [strip_blank_concat (by simp), strip_blank_cons (by simp), strip_blank_concat (by simp)]
    apply strip_congr
    intro d hd
    have := hb d hd
    rcases hoc with ⟨rfl, rfl⟩ | ⟨rfl, rfl⟩ <;> simp [blank, this, Bool.or_comm]
  rw [e]
  have hmap : ∀ l : List (List Char), l.map (fun e => TVal.str (stripQuotes (strip (fun c => c == '\n' || c == ' ') e))) =
      (l.map (strip blank)).map (fun e => TVal.str (stripQuotes e)) := by
    intro l; rw [List.map_map]; rfl
  rw [hmap, split_map_strip blank rfl, split_join (by simpa using hne) (by
    intro f hf
    obtain ⟨i, hi, rfl⟩ := List.mem_map.1 hf
    exact fun hc => ((h i hi).all_chars _ hc).1 rfl), List.map_map, List.map_map]
  apply List.map_congr_left
  intro i hi
  simp only [Function.comp, (h i hi).strip_all, stripQuotes_of (h i hi).unquoted]

theorem strip_text {v : List Char} (h1 : ∀ c ∈ v.head?, c ≠ ' ' ∧ c ≠ '\n') (h2 : ∀ c ∈ v.getLast?, c ≠ ' ' ∧ c ≠ '\n') :
    strip (fun c => c == ' ' || c == '\n') (v ++ ['\n']) = v := by
  have := strip_eq (p := fun c => c == ' ' || c == '\n') (a := []) (m := v) (b := ['\n']) (by simp) (by simp)
    (fun c hc => by have := h1 c hc; simp [this]) (fun c hc => by have := h2 c hc; simp [this])
  simpa using this

theorem join_concat (ls : List (List Char)) (hne : ls ≠ []) : join ['\n'] ls ++ ['\n'] = join ['\n'] (ls ++ [[]]) := by
  cases ls with
  | nil => exact absurd rfl hne
  | cons l ls => rw [List.cons_append, join_cons, join_cons, List.flatMap_append]; simp

theorem columns_eq (tags : List (List Char)) (rows : List (List (List Char))) : columnsVal (tableColumns tags rows) =
    .dict (tags.zipIdx.map (fun x => (x.1, .list (rows.map (fun r => .str (r.getD x.2 [])))))) := by
  rw [columnsVal, tableColumns, List.map_map]
  congr 1
  apply List.map_congr_left
  intro x _
  simp only [Function.comp, List.map_map]
  rfl

theorem plainValue_of {C : Classes} {v : List Char} {x : TVal} (h : PlainOf C v x) (h1 : ∀ c ∈ v.head?, c ≠ ' ' ∧ c ≠ '\n')
    (h2 : ∀ c ∈ v.getLast?, c ≠ ' ' ∧ c ≠ '\n') : plainValue C.space (v ++ ['\n']) = .ok x := by
  cases h with
  | text _ t hh hq =>
    have : plainValue C.space (v ++ ['\n']) = .ok (.str (stripQuotes (strip (fun c => c == ' ' || c == '\n') (v ++ ['\n'])))) := by
      cases v with
      | nil => rfl
      | cons c v =>
        obtain ⟨a1, a2, a3⟩ := hh c (by simp)
        rw [List.cons_append, plainValue]
        · rintro t e; injection e with e; exact a1 e
        · rintro t e; injection e with e; exact a2 e
        · rintro t e; injection e with e; exact a3 e
    rw [this, strip_text h1 h2, stripQuotes_of hq]
  | array o c items hoc hne hi =>
    have := arrayValue_eq hoc items hne hi
    rcases hoc with ⟨rfl, rfl⟩ | ⟨rfl, rfl⟩
    · rw [← this]; rfl
    · rw [← this]; rfl
  | table tags pads rows closing after t1 t2 t3 t4 t5 t6 t7 t8 =>
    have := C34_table_partial C tags pads t1 t2 t3 t4 rows t5 closing ⟨t6, t7⟩ (after ++ [[]]) (by
      intro l hl
      rw [List.mem_append, List.mem_singleton] at hl
      rcases hl with hl | rfl
      · exact t8 l hl
      · intro c hc; simp at hc)
    rw [columns_eq] at this
    rw [join_concat _ (by simp), List.append_assoc, List.cons_append]
    have e : ∀ s : List Char, (∃ w, s = '{' :: w) → simpleValue C.space s = plainValue C.space s := by
      rintro s ⟨w, rfl⟩; rfl
    rw [e _ ⟨_, by rw [List.cons_append, join_cons]; rfl⟩] at this
    simp only [List.cons_append, List.append_assoc, List.map_map, Function.comp_def] at this ⊢
    exact this

theorem simpleValue_of {C : Classes} {v : List Char} {x : TVal} (h : ValueOf C v x) (hv : ValueText C v) :
    simpleValue C.space (v ++ ['\n']) = .ok x := by
  have hs : ∀ c, C.space c = false → c ≠ ' ' ∧ c ≠ '\n' := by
    intro c hc
    constructor
    · rintro rfl; rw [space_space] at hc; cases hc
    · rintro rfl; rw [space_newline] at hc; cases hc
  cases h with
  | plain _ _ hstar hp =>
    rw [← plainValue_of hp (fun c hc => hs c (hv.first c hc)) (fun c hc => hs c (hv.last c hc))]
    cases v with
    | nil => exact absurd rfl hv.ne
    | cons c v =>
      rw [List.cons_append, simpleValue]
      intro t e
      injection e with e
      exact hstar (by rw [e]; rfl)
  | star v _ hh hp =>
    rw [List.cons_append, simpleValue]
    refine plainValue_of hp (fun c hc => hs c (hh c hc)) (fun c hc => hs c (hv.last c ?_))
    cases v with
    | nil => simp at hc
    | cons d v => rw [List.getLast?_cons_cons]; exact hc

/-! ### structures -/

/-- Specification: the dictionary of definitions: every name once, in the order of its last definition from the end, with its value
or, if it is defined several times, the list of its values in the order of the text. -/
def dictOf (ds : List (List Char × TVal)) : List (List Char × TVal) :=
  (ds.map Prod.fst).dedup.reverse.map (fun k => (k, (combined (occurrences ds k)).getD .none))

/-- Specification: no name has an array as the last of several values. -/
def NoLastArray (ds : List (List Char × TVal)) : Prop :=
  ∀ k l, 2 ≤ (occurrences ds k).length → (occurrences ds k).getLast? ≠ some (.list l)

theorem dictSet_keys (d : List (List Char × TVal)) (k : List Char) (v : TVal) :
    (dictSet d k v).map Prod.fst = if k ∈ d.map Prod.fst then d.map Prod.fst else d.map Prod.fst ++ [k] := by
  induction d with
  | nil => simp [dictSet]
  | cons x t ih =>
    obtain ⟨k', v'⟩ := x
    simp only [dictSet]
    by_cases h : k' = k
    · subst h; simp
    · rw [if_neg h, List.map_cons, ih]
      have h' : k ≠ k' := Ne.symm h
      by_cases hm : k ∈ t.map Prod.fst
      · simp [hm]
      · rw [if_neg hm, if_neg (by rw [List.map_cons, List.mem_cons, not_or]; exact ⟨h', hm⟩)]; simp

theorem dict_ext (d : List (List Char × TVal)) (h : (d.map Prod.fst).Nodup) :
    d = (d.map Prod.fst).map (fun k => (k, (dictGet d k).getD .none)) := by
  induction d with
  | nil => rfl
  | cons x t ih =>
    obtain ⟨k, v⟩ := x
    rw [List.map_cons, List.nodup_cons] at h
    rw [List.map_cons, List.map_cons]
    congr 1
    · simp [dictGet]
    · conv_lhs => rw [ih h.2]
      apply List.map_congr_left
      intro j hj
      have hne : k ≠ j := by rintro rfl; exact h.1 hj
      simp [dictGet, hne]

theorem mergeAll_keys (ds : List (List Char × TVal)) (hne : ds ≠ []) :
    ∃ d, mergeAll ds = .dict d ∧ d.map Prod.fst = (ds.map Prod.fst).dedup.reverse := by
  induction ds with
  | nil => exact absurd rfl hne
  | cons x ds ih =>
    obtain ⟨j, v⟩ := x
    show ∃ d, mergeVal j v (mergeAll ds) = .dict d ∧ _
    cases hd : ds with
    | nil => exact ⟨[(j, v)], rfl, rfl⟩
    | cons y ds' =>
      rw [← hd]
      obtain ⟨d, h1, h2⟩ := ih (by rw [hd]; simp)
      have key : ∃ w, mergeVal j v (.dict d) = .dict (dictSet d j w) := by
        rw [mergeVal]
        cases h : dictGet d j with
        | none => exact ⟨_, rfl⟩
        | some w => cases w <;> exact ⟨_, rfl⟩
      obtain ⟨w, hw⟩ := key
      refine ⟨_, by rw [h1, hw], ?_⟩
      rw [dictSet_keys, h2, List.map_cons]
      by_cases hm : j ∈ ds.map Prod.fst
      · rw [if_pos (by simpa using hm), List.dedup_cons_of_mem hm]
      · rw [if_neg (by simpa using hm), List.dedup_cons_of_notMem hm, List.reverse_cons]

theorem joined_combined {ds : List (List Char × TVal)} (h : NoLastArray ds) (k : List Char) :
    joined (occurrences ds k) = combined (occurrences ds k) := by
  by_cases hv : 2 ≤ (occurrences ds k).length
  · exact joined_eq_combined _ (fun l => h k l hv)
  · rcases hl : occurrences ds k with _ | ⟨v, _ | ⟨w, t⟩⟩
    · rfl
    · rfl
    · rw [hl] at hv; simp at hv

theorem mergeAll_eq {ds : List (List Char × TVal)} (hne : ds ≠ []) (h : NoLastArray ds) : mergeAll ds = .dict (dictOf ds) := by
  obtain ⟨d, h1, h2⟩ := mergeAll_keys ds hne
  rw [h1]
  congr 1
  rw [dict_ext d (by rw [h2]; exact List.nodup_reverse.2 (List.nodup_dedup _)), h2, dictOf]
  apply List.map_congr_left
  intro k _
  obtain ⟨d', h3, h4⟩ := mergeAll_get ds hne k
  rw [h1] at h3
  injection h3 with h3
  rw [h3, h4, joined_combined h]

/-- looking up a name -/
theorem dictOf_get (ds : List (List Char × TVal)) (k : List Char) : dictGet (dictOf ds) k = combined (occurrences ds k) := by
  by_cases hk : k ∈ ds.map Prod.fst
  · have hc : ∃ v, combined (occurrences ds k) = some v := by
      obtain ⟨x, hx, rfl⟩ := List.mem_map.1 hk
      have : x.2 ∈ occurrences ds x.1 := List.mem_map.2 ⟨x, by simp [hx], rfl⟩
      cases ho : occurrences ds x.1 with
      | nil => rw [ho] at this; simp at this
      | cons a l => cases l <;> exact ⟨_, rfl⟩
    obtain ⟨v, hv⟩ := hc
    have hk' : k ∈ (ds.map Prod.fst).dedup.reverse := by simpa using hk
    rw [hv, dictOf, dictGet]
    generalize (ds.map Prod.fst).dedup.reverse = l at hk'
    induction l with
    | nil => simp at hk'
    | cons j l ih =>
      rw [List.map_cons]
      by_cases hj : j = k
      · subst hj
        rw [List.find?_cons_of_pos (by simp)]
        simp [hv]
      · rw [List.find?_cons_of_neg (by simp [hj])]
        exact ih ((List.mem_cons.1 hk').resolve_left (Ne.symm hj))
  · have ho : occurrences ds k = [] := by
      rw [occurrences, List.map_eq_nil_iff, List.filter_eq_nil_iff]
      intro x hx hxk
      exact hk (List.mem_map.2 ⟨x, hx, by simpa using hxk⟩)
    rw [ho, combined, dictGet, Option.map_eq_none_iff, List.find?_eq_none]
    intro x hx hxk
    rw [dictOf, List.mem_map] at hx
    obtain ⟨j, hj, rfl⟩ := hx
    simp only [decide_eq_true_eq] at hxk
    subst hxk
    exact hk (by simpa using hj)

/-! ### texts of definitions -/

/-- Specification: texts of definitions and what they define: names with simple values, names with blocks of text, and names with
structures of definitions between braces, in any order, separated by line ends, with any indentation and blank lines.  In structures as
well, no name has an array as the last of several values. -/
inductive TextOf (C : Classes) : List Char → List (List Char × TVal) → Prop
  | nil (ws : List Char) : (∀ c ∈ ws, C.space c = true) → TextOf C ws []
  | last (h : Heading C) (v : List Char) (x : TVal) : ValueText C v → ValueOf C v x →
      TextOf C (h.indent ++ (h.key ++ (h.spaces ++ '=' :: (h.gap ++ v)))) [(definedName h.key, x)]
  | simple (h : Heading C) (v : List Char) (x : TVal) (rest : List Char) (ds : List (List Char × TVal)) : ValueText C v →
      ValueOf C v x → TextOf C rest ds →
      TextOf C (h.indent ++ (h.key ++ (h.spaces ++ '=' :: (h.gap ++ (v ++ '\n' :: rest))))) ((definedName h.key, x) :: ds)
  | struct (h : Heading C) (ws1 inner ws2 trail rest : List Char) (c1 : Char) (w1 w2 : List Char) (c2 : Char)
      (ids ds : List (List Char × TVal)) :
      ws1 ≠ [] → (∀ c ∈ ws1, C.space c = true) → inner = c1 :: w1 → C.space c1 = false → inner = w2 ++ [c2, '\n'] →
      C.space c2 = false → Inside inner → TextOf C inner ids → ids ≠ [] → NoLastArray ids → (∀ c ∈ ws2, C.space c = true) →
      '\n' ∉ trail → TextOf C rest ds →
      TextOf C (h.indent ++ (h.key ++ (h.spaces ++ '=' :: (h.gap ++ ('{' :: (ws1 ++ (inner ++ (ws2 ++ '}' ::
        (trail ++ '\n' :: rest)))))))))
        ((definedName h.key, .dict (dictOf ids)) :: ds)
  | structLast (h : Heading C) (ws1 inner ws2 trail : List Char) (c1 : Char) (w1 w2 : List Char) (c2 : Char)
      (ids : List (List Char × TVal)) :
      ws1 ≠ [] → (∀ c ∈ ws1, C.space c = true) → inner = c1 :: w1 → C.space c1 = false → inner = w2 ++ [c2, '\n'] →
      C.space c2 = false → Inside inner → TextOf C inner ids → ids ≠ [] → NoLastArray ids → (∀ c ∈ ws2, C.space c = true) →
      '\n' ∉ trail →
      TextOf C (h.indent ++ (h.key ++ (h.spaces ++ '=' :: (h.gap ++ ('{' :: (ws1 ++ (inner ++ (ws2 ++ '}' :: trail))))))))
        [(definedName h.key, .dict (dictOf ids))]
  | block (h : Heading C) (ws0 body ws1 trail rest : List Char) (ds : List (List Char × TVal)) :
      BlockText C ws0 body ws1 trail rest → TextOf C rest ds →
      TextOf C (h.indent ++ (h.key ++ (h.spaces ++ '=' :: (h.gap ++ ('"' :: (ws0 ++ '\n' :: (body ++ (ws1 ++ '"' ::
        (trail ++ '\n' :: rest))))))))) ((definedName h.key, .str ('\n' :: body)) :: ds)
  | blockLast (h : Heading C) (ws0 body ws1 trail : List Char) : BlockText C ws0 body ws1 trail [] →
      TextOf C (h.indent ++ (h.key ++ (h.spaces ++ '=' :: (h.gap ++ ('"' :: (ws0 ++ '\n' :: (body ++ (ws1 ++ '"' :: trail))))))))
        [(definedName h.key, .str ('\n' :: body))]

theorem TextOf.definitions {C : Classes} {s : List Char} {ds : List (List Char × TVal)} (h : TextOf C s ds) : Definitions C s ds := by
  induction h with
  | nil ws h => exact .nil ws h
  | last h v x hv hx => rw [← keyName_eq h.key_ok]; exact .last h v x hv (simpleValue_of hx hv)
  | simple h v x rest ds hv hx _ ih => rw [← keyName_eq h.key_ok]; exact .simple h v x rest ds hv (simpleValue_of hx hv) ih
  | struct h ws1 inner ws2 trail rest c1 w1 w2 c2 ids ds a1 a2 a3 a4 a5 a6 a7 _ hne hl a8 a9 _ ih1 ih2 =>
    rw [← keyName_eq h.key_ok, ← mergeAll_eq hne hl]
    exact .struct h ws1 inner ws2 trail rest c1 w1 w2 c2 ids ds a1 a2 a3 a4 a5 a6 a7 ih1 a8 a9 ih2
  | structLast h ws1 inner ws2 trail c1 w1 w2 c2 ids a1 a2 a3 a4 a5 a6 a7 _ hne hl a8 a9 ih1 =>
    rw [← keyName_eq h.key_ok, ← mergeAll_eq hne hl]
    exact .structLast h ws1 inner ws2 trail c1 w1 w2 c2 ids a1 a2 a3 a4 a5 a6 a7 ih1 a8 a9
  | block h ws0 body ws1 trail rest ds hb _ ih => rw [← keyName_eq h.key_ok]; exact .block h ws0 body ws1 trail rest ds hb ih
  | blockLast h ws0 body ws1 trail hb => rw [← keyName_eq h.key_ok]; exact .blockLast h ws0 body ws1 trail hb

/-- **C33 (partial): what is read.** A text of definitions reads as the dictionary of what it defines, structures within it
included: every name with its value, and a name defined several times with the list of its values in the order of the text.
The value of a block of text between quotation marks is the text after the line of the opening one up to the line of the closing one.
Missing: names whose last of several values is an array (see `C33_list_counterexample`), and texts outside `TextOf`: several blocks of
text with no structure between them (see `C33_blocks_counterexample`), empty values (see `C33_empty_counterexample`), names followed by a
tab (see `C33_tab_counterexample`). -/
theorem C33_read_partial (C : Classes) (s : List Char) (ds : List (List Char × TVal)) (h : TextOf C s ds) (hne : ds ≠ [])
    (hl : NoLastArray ds) :
    readStructure C s = .ok (.dict (dictOf ds)) ∧ ∀ k, dictGet (dictOf ds) k = combined (occurrences ds k) :=
  ⟨by rw [C33_value_partial h.definitions, mergeAll_eq hne hl], dictOf_get ds⟩

/-- a text without definitions reads as nothing -/
theorem C33_blank (C : Classes) (s : List Char) (h : ∀ c ∈ s, C.space c = true) : readStructure C s = .ok .none :=
  C33_value_partial (.nil s h)

/-! examples: the hypotheses hold of a text with a pointer, a quoted text, a structure, an array and a repeated name -/

theorem valueText_line (v : String) (h0 : v.toList ≠ []) (h1 : ∀ c ∈ v.toList, c ≠ '\n' ∧ c ≠ '{' ∧ c ≠ '"')
    (h2 : ∀ c ∈ v.toList.head?, asciiSpace c = false) (h3 : ∀ c ∈ v.toList.getLast?, asciiSpace c = false) :
    ValueText .ascii v.toList := by
  refine ⟨h0, h2, h3, ?_, ?_⟩
  · intro c hc h
    have := h1 c (List.mem_of_mem_head? hc)
    rcases h with h | h
    · exact absurd h this.2.1
    · exact absurd h this.2.2
  · intro a b e
    exact absurd rfl (h1 '\n' (by rw [e]; simp)).1

theorem inside_noBraces : ∀ v : List Char, (∀ c ∈ v, c ≠ '{' ∧ c ≠ '}') → Inside v
  | [], _ => .nil
  | c :: v, h => .char c v (h c (by simp)).1 (h c (by simp)).2 (inside_noBraces v (fun d hd => h d (by simp [hd])))

theorem plain_text (v : String) (h : ∀ c ∈ v.toList.head?, c ≠ '[' ∧ c ≠ '(' ∧ c ≠ '{' ∧ c ≠ '*' ∧ c ≠ '"' ∧ c ≠ '\'') :
    ValueOf .ascii v.toList (.str v.toList) := by
  refine .plain _ _ ?_ (.text _ _ (fun c hc => ⟨(h c hc).1, (h c hc).2.1, (h c hc).2.2.1⟩) (.plain _ ?_))
  · intro e; exact (h '*' (by rw [e]; simp)).2.2.2.1 rfl
  · intro q t e
    have := (h q (by rw [e]; simp)).2.2.2.2
    exact this

example : readStructure .ascii "p^ = 'a b'\n set={\n  b=[1, x]\n}\nc=2\nc=*3".toList =
    .ok (.dict [("c".toList, .list [.str "2".toList, .str "3".toList]),
      ("set".toList, .dict [("b".toList, .list [.str "1".toList, .str "x".toList])]), ("ptr_p".toList, .str "a b".toList)]) := by
  have hitem : ∀ x : String, (∀ c ∈ x.toList, c ≠ ' ' ∧ c ≠ '\n' ∧ c ≠ ',' ∧ c ≠ '[' ∧ c ≠ ']' ∧ c ≠ '(' ∧ c ≠ ')' ∧ c ≠ '"' ∧ c ≠ '\'') →
      ∀ b : List Char, (∀ c ∈ b, c = ' ' ∨ c = '\n') → (⟨b, x.toList, [], x.toList⟩ : Item).Ok := by
    intro x h b hb
    refine ⟨hb, by simp, fun c hc => ?_, fun c hc => ?_, fun c hc => ?_, .plain _ ?_⟩
    · have := h c (List.mem_of_mem_head? hc); exact ⟨this.1, this.2.1⟩
    · have := h c (List.mem_of_getLast? hc); exact ⟨this.1, this.2.1⟩
    · have := h c hc; exact ⟨this.2.2.1, this.2.2.2.1, this.2.2.2.2.1, this.2.2.2.2.2.1, this.2.2.2.2.2.2.1⟩
    · intro q t e
      have := h q (by simp only at e; rw [e]; simp)
      exact this.2.2.2.2.2.2.2
  have hb : TextOf .ascii "b=[1, x]\n".toList [("b".toList, .list [.str "1".toList, .str "x".toList])] :=
    .simple (headingOf "" "b" "" "" (by decide) (keyText_ascii (by decide) (by decide)) (by decide) (by decide))
      "[1, x]".toList _ [] [] (valueText_line _ (by decide) (by decide) (by decide) (by decide))
      (.plain _ _ (by decide) (PlainOf.array '[' ']' [⟨[], "1".toList, [], "1".toList⟩, ⟨[' '], "x".toList, [], "x".toList⟩]
        (Or.inl ⟨rfl, rfl⟩) (by simp) (by
          intro i hi
          rcases List.mem_cons.1 hi with rfl | hi
          · exact hitem "1" (by decide) [] (by simp)
          · rw [List.mem_singleton] at hi; subst hi
            exact hitem "x" (by decide) [' '] (by simp)))) (.nil [] (by simp))
  have hN : NoLastArray [("b".toList, .list [.str "1".toList, .str "x".toList])] := by
    intro k l h
    exfalso
    have : (occurrences [("b".toList, TVal.list [.str "1".toList, .str "x".toList])] k).length ≤ 1 := by
      rw [occurrences, List.length_map]
      exact (List.length_filter_le _ _)
    omega
  have key : TextOf .ascii "p^ = 'a b'\n set={\n  b=[1, x]\n}\nc=2\nc=*3".toList
      [("ptr_p".toList, .str "a b".toList), ("set".toList, .dict [("b".toList, .list [.str "1".toList, .str "x".toList])]),
        ("c".toList, .str "2".toList), ("c".toList, .str "3".toList)] :=
    .simple (headingOf "" "p^" " " " " (by decide) ⟨['p'], by decide, by decide, Or.inr rfl⟩ (by decide) (by decide))
      "'a b'".toList _ _ _ (valueText_line _ (by decide) (by decide) (by decide) (by decide))
      (.plain _ _ (by decide) (.text _ _ (by decide) (.quoted '\'' "a b".toList (Or.inr rfl))))
      (.struct (headingOf " " "set" "" "" (by decide) (keyText_ascii (by decide) (by decide)) (by decide) (by decide))
        "\n  ".toList "b=[1, x]\n".toList [] [] "c=2\nc=*3".toList 'b' "=[1, x]\n".toList "b=[1, x".toList ']' _ _
        (by decide) (by decide) (by decide) (by decide) (by decide) (by decide) (inside_noBraces _ (by decide)) hb (by simp) hN
        (by simp) (by simp)
        (.simple (headingOf "" "c" "" "" (by decide) (keyText_ascii (by decide) (by decide)) (by decide) (by decide))
          "2".toList _ _ _ (valueText_line _ (by decide) (by decide) (by decide) (by decide)) (plain_text "2" (by decide))
          (.last (headingOf "" "c" "" "" (by decide) (keyText_ascii (by decide) (by decide)) (by decide) (by decide))
            "*3".toList _ (valueText_line _ (by decide) (by decide) (by decide) (by decide))
            (.star "3".toList _ (by decide) (.text _ _ (by decide) (.plain _ (by
              intro q t e
              cases t <;> simp at e)))))))
  rw [(C33_read_partial _ _ _ key (by simp) (by
    intro k l _
    by_cases hk : "c".toList = k
    · subst hk
      have : (occurrences [("ptr_p".toList, TVal.str "a b".toList), ("set".toList, .dict [("b".toList, .list [.str "1".toList,
        .str "x".toList])]), ("c".toList, .str "2".toList), ("c".toList, .str "3".toList)] "c".toList).getLast? =
          some (.str "3".toList) := by decide +kernel
      rw [this]; simp
    · intro e
      have hm := List.mem_of_getLast? e
      rw [occurrences, List.mem_map] at hm
      obtain ⟨x, hx, hxe⟩ := hm
      rw [List.mem_filter] at hx
      have hx1 := hx.1
      simp only [List.mem_cons, List.not_mem_nil, or_false] at hx1
      rcases hx1 with rfl | rfl | rfl | rfl <;> simp at hxe)).1]
  decide +kernel

/-- **C33**: `[]` is not read as an empty array: it is an array of one empty text. -/
theorem C33_empty_array_counterexample : readStructure .ascii "a=[]".toList =
    .ok (.dict [("a".toList, .list [.str []])]) := by decide +kernel

/-- **C33**: of two blocks of text the second is lost: the first goes on up to the end of the second. -/
theorem C33_blocks_counterexample : readStructure .ascii "a=\"\n x=1\n\"\nb=\"\n y=2\n\"\nc=3".toList =
    .ok (.dict [("c".toList, .str "3".toList), ("a".toList, .str "\n x=1\n\"\nb=\"\n y=2\n".toList)]) := by decide +kernel

/-! an example with a block of text with lines like definitions, as for the code of a chronology -/

example : readStructure .ascii "c={\n name=N\n n1_code=\"\n  t_o = 4.56\n  n1=t*t_o\n  \"\n v=1\n}\n".toList =
    .ok (.dict [("c".toList, .dict [("v".toList, .str "1".toList), ("n1_code".toList, .str "\n  t_o = 4.56\n  n1=t*t_o\n".toList),
      ("name".toList, .str "N".toList)])]) := by
  have hb : BlockText .ascii [] "  t_o = 4.56\n  n1=t*t_o\n".toList "  ".toList [] " v=1\n".toList := by
    refine ⟨by simp, by decide +kernel, ?_, ?_, ?_, by simp, ?_⟩
    · intro a b e
      refine ⟨'t', ?_, by decide⟩
      match a with
      | [] => exact absurd (congrArg List.head? e) (by simp)
      | [_] => exact absurd (congrArg (fun l => (l.drop 1).head?) e) (by simp)
      | [_, _] => exact absurd (congrArg (fun l => (l.drop 2).head?) e) (by simp)
      | c :: d :: x :: a' =>
        have := congrArg (fun l => (l.drop 2).head?) e
        simp at this
        rw [← this]; simp
    · decide +kernel
    · decide +kernel
    · intro a ws b e _
      exfalso
      have : '"' ∈ ([] ++ '\n' :: " v=1\n".toList : List Char) := by rw [e]; simp
      revert this
      decide +kernel
  have hi : TextOf .ascii "name=N\n n1_code=\"\n  t_o = 4.56\n  n1=t*t_o\n  \"\n v=1\n".toList
      [("name".toList, .str "N".toList), ("n1_code".toList, .str "\n  t_o = 4.56\n  n1=t*t_o\n".toList), ("v".toList, .str "1".toList)] :=
    .simple (headingOf "" "name" "" "" (by decide) (keyText_ascii (by decide) (by decide)) (by decide) (by decide))
      "N".toList _ _ _ (valueText_line _ (by decide) (by decide) (by decide) (by decide)) (plain_text "N" (by decide))
      (.block (headingOf " " "n1_code" "" "" (by decide) (keyText_ascii (by decide) (by decide)) (by decide) (by decide))
        [] "  t_o = 4.56\n  n1=t*t_o\n".toList "  ".toList [] " v=1\n".toList _ hb
        (.simple (headingOf " " "v" "" "" (by decide) (keyText_ascii (by decide) (by decide)) (by decide) (by decide))
          "1".toList _ [] [] (valueText_line _ (by decide) (by decide) (by decide) (by decide)) (plain_text "1" (by decide))
          (.nil [] (by simp))))
  have hN : NoLastArray [("name".toList, TVal.str "N".toList), ("n1_code".toList, .str "\n  t_o = 4.56\n  n1=t*t_o\n".toList),
      ("v".toList, .str "1".toList)] := by
    intro k l _ e
    have hm := List.mem_of_getLast? e
    rw [occurrences, List.mem_map] at hm
    obtain ⟨x, hx, hxe⟩ := hm
    have hx1 := (List.mem_filter.1 hx).1
    simp only [List.mem_cons, List.not_mem_nil, or_false] at hx1
    rcases hx1 with rfl | rfl | rfl <;> simp at hxe
  have key : TextOf .ascii "c={\n name=N\n n1_code=\"\n  t_o = 4.56\n  n1=t*t_o\n  \"\n v=1\n}\n".toList _ :=
    .struct (headingOf "" "c" "" "" (by decide) (keyText_ascii (by decide) (by decide)) (by decide) (by decide))
      "\n ".toList "name=N\n n1_code=\"\n  t_o = 4.56\n  n1=t*t_o\n  \"\n v=1\n".toList [] [] [] 'n'
      "ame=N\n n1_code=\"\n  t_o = 4.56\n  n1=t*t_o\n  \"\n v=1\n".toList "name=N\n n1_code=\"\n  t_o = 4.56\n  n1=t*t_o\n  \"\n v=".toList '1'
      _ _ (by decide) (by decide) (by decide) (by decide) (by decide) (by decide) (inside_noBraces _ (by decide)) hi
      (by simp) hN (by simp) (by simp) (.nil [] (by simp))
  rw [(C33_read_partial _ _ _ key (by simp) (by
    intro k l h
    exfalso
    rw [occurrences, List.length_map] at h
    have := List.length_filter_le (fun d => decide (d.1 = k)) [(definedName "c".toList, TVal.dict (dictOf
      [("name".toList, TVal.str "N".toList), ("n1_code".toList, .str "\n  t_o = 4.56\n  n1=t*t_o\n".toList), ("v".toList, .str "1".toList)]))]
    simp only [List.length_singleton] at this
    exact absurd (h.trans this) (by decide))).1]
  decide +kernel

end Verif.Props
