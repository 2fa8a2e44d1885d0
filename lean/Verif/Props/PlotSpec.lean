import Verif.Model.PlotSpec

/-! Property C40: plot specifications. -/

namespace Verif.Props

open Verif.Py Verif.Cli

/-- `l` starts with a word and an equals sign -/
def KeyAhead (C : Classes) (l : List Char) : Prop := ∃ w v, l = w ++ '=' :: v ∧ w ≠ [] ∧ ∀ c ∈ w, C.word c = true

/-- no comma inside `l` is directly followed by `word=` -/
def NoKeyComma (C : Classes) (l : List Char) : Prop := ∀ a b, l = a ++ ',' :: b → ¬ KeyAhead C b

theorem word_eq (C : Classes) : C.word '=' = false ∧ C.word ',' = false := by
  constructor
  · rw [C.word_ascii _ (by decide)]; decide
  · rw [C.word_ascii _ (by decide)]; decide

theorem keyAhead_run (C : Classes) (s : St) : (Re.seq (.some1 (.chr C.word)) (.lit '=')).run s ≠ [] ↔ KeyAhead C s.rest := by
  constructor
  · intro h
    obtain ⟨t, ht⟩ := List.exists_mem_of_ne_nil _ h
    rw [run_seq, List.mem_flatMap] at ht
    obtain ⟨u, hu, ht⟩ := ht
    obtain ⟨w, hw, h1, _, _, h2⟩ := mem_some1 hu
    obtain ⟨c, h3, _, _, h4⟩ := mem_chr ht
    simp only [beq_iff_eq] at h4
    subst h4
    exact ⟨w, t.rest, by rw [h1, h3], hw, h2⟩
  · rintro ⟨w, v, h, hw, hall⟩
    cases w with
    | nil => exact absurd rfl hw
    | cons c w =>
      have h1 := some1_head C.word s c (w ++ '=' :: v) (by rw [h]; rfl) (hall c (by simp))
      have hrl : runLen C.word s.rest = (c :: w).length := by
        rw [h, runLen_append hall, runLen_cons_neg (by rw [(word_eq C).1]; simp)]; simp
      have h2 : ((Re.lit '=').run (s.adv (runLen C.word s.rest))).head? = some ((s.adv (runLen C.word s.rest)).adv 1) := by
        have : (s.adv (runLen C.word s.rest)).rest = '=' :: v := by rw [adv_rest, hrl, h, List.drop_left]
        rw [Re.lit, run_chr_adv, this]; simp
      intro h0
      have := seq_head h1 h2
      rw [h0] at this
      simp at this

open Classical in
theorem reKeyComma_run (C : Classes) (pre : List Char) (c : Char) (l : List Char) :
    (reKeyComma C).run ⟨pre, c :: l, []⟩ = if c = ',' ∧ KeyAhead C l then [⟨c :: pre, l, []⟩] else [] := by
  have h0 : (Re.lit ',').run ⟨pre, c :: l, []⟩ = if c == ',' then [⟨c :: pre, l, []⟩] else [] := rfl
  rw [reKeyComma, run_seq, h0]
  by_cases hc : c = ','
  · rw [if_pos (by simpa using hc), List.flatMap_singleton]
    show (if _ then _ else _) = _
    by_cases hk : KeyAhead C l
    · have h1 := (keyAhead_run C ⟨c :: pre, l, []⟩).2 hk
      rw [if_neg (by rwa [List.isEmpty_iff]), if_pos (And.intro hc hk)]
    · have h1 : ¬ _ ≠ _ := fun h => hk ((keyAhead_run C ⟨c :: pre, l, []⟩).1 h)
      rw [if_pos (by rw [List.isEmpty_iff]; exact not_not.1 h1), if_neg (fun h => hk h.2)]
  · rw [if_neg (by simpa using hc), if_neg (fun h => hc h.1)]
    rfl

theorem reKeyComma_end (C : Classes) (pre : List Char) : (reKeyComma C).run ⟨pre, [], []⟩ = [] := rfl

/-- a key is recognised before the next comma -/
theorem keyAhead_comma {C : Classes} {p r : List Char} : KeyAhead C (p ++ ',' :: r) ↔ KeyAhead C p := by
  constructor
  · rintro ⟨w, v, h, hw, hall⟩
    have hlen : w.length + 1 ≤ p.length := by
      by_contra hc
      push Not at hc
      have hcomma : (w ++ '=' :: v)[p.length]? = some ',' := by rw [← h]; simp
      rcases Nat.lt_or_ge p.length w.length with h1 | h1
      · rw [List.getElem?_append_left h1] at hcomma
        have := hall _ (List.mem_of_getElem? hcomma)
        rw [(word_eq C).2] at this
        exact absurd this (by decide)
      · have : p.length = w.length := by omega
        rw [this, List.getElem?_append_right le_rfl] at hcomma
        simp at hcomma
    refine ⟨w, p.drop (w.length + 1), ?_, hw, hall⟩
    have h2 := congrArg (List.take (w.length + 1)) h
    rw [List.take_append_of_le_length hlen] at h2
    have h3 : (w ++ '=' :: v).take (w.length + 1) = w ++ ['='] := by
      rw [show w ++ '=' :: v = (w ++ ['=']) ++ v by simp, List.take_left' (by simp)]
    rw [h3] at h2
    conv_lhs => rw [← List.take_append_drop (w.length + 1) p, h2]
    simp
  · rintro ⟨w, v, rfl, hw, hall⟩
    exact ⟨w, v ++ ',' :: r, by simp, hw, hall⟩

/-- what follows a piece -/
def IsTail' (after : List Char) : Prop := after = [] ∨ ∃ r, after = ',' :: r

/-- scanning a stretch without splitting comma -/
theorem searchFrom_stretch (C : Classes) (l after : List Char) (ht : IsTail' after) : NoKeyComma C l → ∀ pre,
    (reKeyComma C).searchFrom pre (l ++ after) = (reKeyComma C).searchFrom (l.reverse ++ pre) after := by
  induction l with
  | nil => intro _ pre; rfl
  | cons c l ih =>
    intro h pre
    have h0 : (reKeyComma C).run ⟨pre, c :: (l ++ after), []⟩ = [] := by
      rw [reKeyComma_run, if_neg]
      rintro ⟨rfl, hk⟩
      refine h [] l rfl ?_
      rcases ht with rfl | ⟨r, rfl⟩
      · simpa using hk
      · exact keyAhead_comma.1 hk
    rw [List.cons_append, Re.searchFrom, h0]
    simp only [List.head?_nil]
    rw [ih (fun a b e => h (c :: a) b (by rw [e]; rfl))]
    simp

/-- Specification: `ps` are the items of a specification - no item contains a comma directly followed by `word=`, and
all but the first start with `word=` -/
def IsPieces (C : Classes) (ps : List (List Char)) : Prop :=
  ps ≠ [] ∧ (∀ p ∈ ps, NoKeyComma C p) ∧ ∀ p ∈ ps.tail, KeyAhead C p

/-- every text has a decomposition into items -/
theorem exists_pieces (C : Classes) (s : List Char) : ∃ ps, IsPieces C ps ∧ join [','] ps = s := by
  induction s with
  | nil => exact ⟨[[]], ⟨by simp, by simp [NoKeyComma], by simp⟩, rfl⟩
  | cons c l ih =>
    obtain ⟨ps, ⟨h1, h2, h3⟩, h4⟩ := ih
    cases ps with
    | nil => exact absurd rfl h1
    | cons p ps =>
      by_cases h : c = ',' ∧ KeyAhead C l
      · obtain ⟨rfl, hk⟩ := h
        refine ⟨[] :: p :: ps, ⟨by simp, ?_, ?_⟩, by rw [join]; simp [h4]⟩
        · intro q hq
          rcases List.mem_cons.1 hq with rfl | hq
          · intro a b e; simp at e
          · exact h2 q hq
        · intro q hq
          rw [List.tail_cons] at hq
          rcases List.mem_cons.1 hq with rfl | hq
          · cases ps with
            | nil => rw [← h4, join] at hk; exact hk
            | cons r ps =>
              rw [← h4, join, List.append_assoc, List.singleton_append] at hk
              exact keyAhead_comma.1 hk
          · exact h3 q hq
      · refine ⟨(c :: p) :: ps, ⟨by simp, ?_, h3⟩, ?_⟩
        · intro q hq
          rcases List.mem_cons.1 hq with rfl | hq
          · intro a b e hk
            cases a with
            | nil =>
              obtain ⟨rfl, rfl⟩ := List.cons.inj e
              apply h
              refine ⟨rfl, ?_⟩
              cases ps with
              | nil => rw [← h4, join]; exact hk
              | cons r ps =>
                rw [← h4, join, List.append_assoc, List.singleton_append]
                exact keyAhead_comma.2 hk
            | cons x a =>
              obtain ⟨rfl, rfl⟩ := List.cons.inj e
              exact h2 _ (by simp) a b rfl hk
          · exact h2 q (by simp [hq])
        · rw [join_cons] at h4 ⊢
          rw [List.cons_append, h4]

/-- the pattern splits exactly between the items -/
theorem split_pieces (C : Classes) : ∀ (ps : List (List Char)) (fuel : ℕ) (pre : List Char), IsPieces C ps →
    (join [','] ps).length < fuel → (reKeyComma C).pieces fuel pre (join [','] ps) = ps := by
  intro ps
  induction ps with
  | nil => intro fuel pre h; exact absurd rfl h.1
  | cons p ps ih =>
    intro fuel pre ⟨h1, h2, h3⟩ hf
    cases fuel with
    | zero => omega
    | succ fuel =>
      cases ps with
      | nil =>
        rw [join, Re.pieces]
        have := searchFrom_stretch C p [] (Or.inl rfl) (h2 p (by simp)) pre
        rw [List.append_nil] at this
        rw [this, Re.searchFrom, reKeyComma_end]
        rfl
      | cons q ps =>
        have hj : join [','] (p :: q :: ps) = p ++ ',' :: join [','] (q :: ps) := by rw [join]; simp
        have hq : KeyAhead C (join [','] (q :: ps)) := by
          have := h3 q (by simp)
          cases ps with
          | nil => exact this
          | cons r ps =>
            rw [join, List.append_assoc, List.singleton_append]
            exact keyAhead_comma.2 this
        rw [hj] at hf ⊢
        rw [Re.pieces, searchFrom_stretch C p _ (Or.inr ⟨_, rfl⟩) (h2 p (by simp)) pre, Re.searchFrom, reKeyComma_run,
          if_pos ⟨rfl, hq⟩]
        simp only [List.head?_cons]
        rw [if_pos (by simp), ih fuel _ ⟨by simp, fun r hr => h2 r (by simp [hr]), fun r hr => h3 r (by
          simp only [List.tail_cons] at hr ⊢; exact List.mem_cons_of_mem _ hr)⟩ (by simp at hf; omega)]
        simp

theorem parseItem_eq (kv : List Char) : parseItem kv = if kv.count '=' = 1 then
    .ok (kv.takeWhile (· != '='), (kv.dropWhile (· != '=')).drop 1) else .error .system := by
  have hlen : ∀ s : List Char, (split '=' s).length = s.count '=' + 1 := by
    intro s
    induction s with
    | nil => rfl
    | cons c l ih =>
      by_cases hc : c = '='
      · subst hc; simp [split, ih]
      · simp only [split, if_neg hc]
        cases h : split '=' l with
        | nil => exact absurd h (split_ne_nil _ _)
        | cons a t =>
          rw [h] at ih
          simp only [List.length_cons] at ih ⊢
          rw [List.count_cons_of_ne hc]; exact ih
  unfold parseItem
  split
  · rename_i k v h
    have h1 := hlen kv
    rw [h] at h1
    simp only [List.length_cons, List.length_nil] at h1
    rw [if_pos (by omega)]
    have hk := split_not_mem '=' kv k (by rw [h]; simp)
    have hkv : kv = k ++ '=' :: v := by rw [← join_split '=' kv, h]; simp [join]
    have hall : ∀ c ∈ k, (c != '=') = true := by
      intro c hc; simp only [bne_iff_ne, ne_eq]; rintro rfl; exact hk hc
    rw [hkv, List.takeWhile_append_of_pos hall, dropWhile_append_of_all hall]
    simp
  · rename_i h
    rw [if_neg]
    intro h1
    have h2 := hlen kv
    rw [h1] at h2
    match hs : split '=' kv, h2 with
    | [a, b], _ => exact h a b hs

theorem mapM_parseItem (ps : List (List Char)) : ps.mapM parseItem =
    if ∀ p ∈ ps, p.count '=' = 1 then
      .ok (ps.map (fun kv => (kv.takeWhile (· != '='), (kv.dropWhile (· != '=')).drop 1))) else .error .system := by
  induction ps with
  | nil => rfl
  | cons p ps ih =>
    rw [List.mapM_cons, parseItem_eq]
    by_cases hp : p.count '=' = 1
    · rw [if_pos hp, ih]
      by_cases hps : ∀ q ∈ ps, q.count '=' = 1
      · rw [if_pos hps, if_pos (by simpa [hp] using hps)]; rfl
      · rw [if_neg hps, if_neg (fun h => hps (fun q hq => h q (by simp [hq])))]; rfl
    · rw [if_neg hp, if_neg (fun h => hp (h p (by simp)))]; rfl

/-- **C40, every specification.** The text (the words after `-p` joined by blanks) has exactly one decomposition into
items; if every item contains exactly one equals sign the result is the dictionary of the texts before and after it (the
last one winning for a repeated key), otherwise the program exits. -/
theorem C40_items (C : Classes) (values : List (List Char)) :
    ∃ ps, IsPieces C ps ∧ join [','] ps = join [' '] values ∧ (∀ qs, IsPieces C qs → join [','] qs = join [' '] values → qs = ps) ∧
      parsePlot C values = if ∀ p ∈ ps, p.count '=' = 1 then
        .ok ((ps.map (fun kv => (kv.takeWhile (· != '='), (kv.dropWhile (· != '=')).drop 1))).foldl
          (fun d x => dictSet d x.1 x.2) []) else .error .system := by
  have hsplit : ∀ ps, IsPieces C ps → join [','] ps = join [' '] values → (reKeyComma C).split (join [' '] values) = ps := by
    intro ps h1 h2
    rw [← h2]
    exact split_pieces C ps _ _ h1 (by omega)
  obtain ⟨ps, h1, h2⟩ := exists_pieces C (join [' '] values)
  refine ⟨ps, h1, h2, fun qs g1 g2 => (hsplit qs g1 g2).symm.trans (hsplit ps h1 h2), ?_⟩
  rw [parsePlot, hsplit ps h1 h2, mapM_parseItem]
  split <;> rfl

/-- **C40, round trip.** A specification written as comma separated `key=value` items with distinct keys made of word
characters, values without equals sign (commas and blanks being allowed), parses to exactly these pairs, however the
shell divides it into words at blanks. -/
theorem C40_roundtrip (C : Classes) (items : List (List Char × List Char)) (hne : items ≠ [])
    (hk : ∀ x ∈ items, x.1 ≠ [] ∧ ∀ c ∈ x.1, C.word c = true) (hv : ∀ x ∈ items, '=' ∉ x.2)
    (hd : (items.map Prod.fst).Nodup) (values : List (List Char))
    (hval : join [' '] values = join [','] (items.map (fun x => x.1 ++ '=' :: x.2))) :
    parsePlot C values = .ok items := by
  have hpieces : IsPieces C (items.map (fun x => x.1 ++ '=' :: x.2)) := by
    refine ⟨by simpa using hne, ?_, ?_⟩
    · intro p hp a b e hkey
      obtain ⟨x, hx, rfl⟩ := List.mem_map.1 hp
      obtain ⟨w, v, hb, _, _⟩ := hkey
      -- the equals sign of the key would be a second one
      have hcount : (x.1 ++ '=' :: x.2).count '=' = 1 := by
        have h1 : x.1.count '=' = 0 := List.count_eq_zero.2 (fun h => by
          have := (hk x hx).2 _ h; rw [(word_eq C).1] at this; exact absurd this (by decide))
        have h2 : x.2.count '=' = 0 := List.count_eq_zero.2 (hv x hx)
        simp [List.count_append, h1, h2]
      have hpos : 1 ≤ a.count '=' := by
        -- the comma lies behind the first equals sign
        have hlen : x.1.length < a.length := by
          by_contra hcon
          push Not at hcon
          have hg : (x.1 ++ '=' :: x.2)[a.length]? = some ',' := by rw [e]; simp
          rcases Nat.lt_or_ge a.length x.1.length with h1 | h1
          · rw [List.getElem?_append_left h1] at hg
            have := (hk x hx).2 _ (List.mem_of_getElem? hg)
            rw [(word_eq C).2] at this
            exact absurd this (by decide)
          · have : a.length = x.1.length := by omega
            rw [this, List.getElem?_append_right le_rfl] at hg
            simp at hg
        have h3 : a[x.1.length]? = some '=' := by
          have : (x.1 ++ '=' :: x.2)[x.1.length]? = some '=' := by simp
          rwa [e, List.getElem?_append_left hlen] at this
        exact List.one_le_count_iff.2 (List.mem_of_getElem? h3)
      rw [e, hb] at hcount
      simp [List.count_append] at hcount
      omega
    · intro p hp
      obtain ⟨x, hx, rfl⟩ := List.mem_map.1 (List.mem_of_mem_tail hp)
      exact ⟨x.1, x.2, rfl, (hk x hx).1, (hk x hx).2⟩
  obtain ⟨ps, _, _, huniq, hres⟩ := C40_items C values
  have := huniq _ hpieces hval.symm
  subst this
  rw [hres, if_pos]
  · congr 1
    have hmap : (items.map (fun x => x.1 ++ '=' :: x.2)).map
        (fun kv => (kv.takeWhile (· != '='), (kv.dropWhile (· != '=')).drop 1)) = items := by
      rw [List.map_map]
      conv_rhs => rw [← List.map_id items]
      apply List.map_congr_left
      intro x hx
      have hall : ∀ c ∈ x.1, (c != '=') = true := by
        intro c hc; simp only [bne_iff_ne, ne_eq]; rintro rfl
        have := (hk x hx).2 _ hc; rw [(word_eq C).1] at this; exact absurd this (by decide)
      simp only [Function.comp]
      rw [List.takeWhile_append_of_pos hall, dropWhile_append_of_all hall]
      simp
    rw [hmap, foldl_dictSet]
    · simp
    · simpa using hd
  · intro p hp
    obtain ⟨x, hx, rfl⟩ := List.mem_map.1 hp
    have h1 : x.1.count '=' = 0 := List.count_eq_zero.2 (fun h => by
      have := (hk x hx).2 _ h; rw [(word_eq C).1] at this; exact absurd this (by decide))
    have h2 : x.2.count '=' = 0 := List.count_eq_zero.2 (hv x hx)
    simp [List.count_append, h1, h2]

/-- **C40, collection.** Successive `-p` options give the list of their dictionaries in order. -/
theorem C40_collect (C : Classes) (vs : List (List (List Char))) (ds : List (List (List Char × List Char)))
    (h : List.Forall₂ (fun v d => parsePlot C v = .ok d) vs ds) (hne : vs ≠ []) :
    vs.foldlM (fun s v => (appendPlot C s v).map some) none = .ok (some ds) := by
  have key : ∀ (vs : List (List (List Char))) (ds l : List (List (List Char × List Char))),
      List.Forall₂ (fun v d => parsePlot C v = .ok d) vs ds →
      vs.foldlM (fun s v => (appendPlot C s v).map some) (some l) = .ok (some (l ++ ds)) := by
    intro vs
    induction vs with
    | nil => intro ds l h; cases h; simp; rfl
    | cons v vs ih =>
      intro ds l h
      cases h with
      | cons h1 h2 =>
        rename_i d ds
        rw [List.foldlM_cons]
        have : (appendPlot C (some l) v).map some = .ok (some (l ++ [d])) := by
          simp only [appendPlot, h1]; rfl
        rw [this]
        show List.foldlM _ (some (l ++ [d])) vs = _
        rw [ih ds _ h2]; simp
  cases h with
  | nil => exact absurd rfl hne
  | cons h1 h2 =>
    rename_i v d vs ds
    rw [List.foldlM_cons]
    have : (appendPlot C none v).map some = .ok (some [d]) := by
      simp only [appendPlot, h1]; rfl
    rw [this]
    show List.foldlM _ (some [d]) vs = _
    rw [key vs ds _ h2]; rfl

/-- a range with a comma and a name with blanks and commas; a second equals sign is rejected -/
example : parsePlot .ascii ["range=[.2,.7],name=Area".toList, "1,".toList, "west,snap=0".toList] =
    .ok [("range".toList, "[.2,.7]".toList), ("name".toList, "Area 1, west".toList), ("snap".toList, "0".toList)] ∧
    parsePlot .ascii ["name=a=b".toList] = .error .system ∧ parsePlot .ascii ["data".toList] = .error .system := by
  refine ⟨?_, ?_, ?_⟩ <;> decide +kernel

end Verif.Props
