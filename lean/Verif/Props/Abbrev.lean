import Verif.Model.Abbrev
import Mathlib.Tactic.Linarith

/-! Properties C41 and C140: abbreviations, names with brackets. -/

namespace Verif.Props

open Verif.Py Verif.Cli

/-- Specification: the characters of `v` which are looked for -/
def lettersOf (v : List Char) : List Char := v.filter (fun c => c != '(' && c != ')')

/-- Specification: the characters of `v` (brackets apart) occur in `e` in this order, ignoring case; a full stop stands for any
character. -/
def Abbreviates (lower : Char → Char) (v e : List Char) : Prop :=
  ∃ l, l.Sublist e ∧ List.Forall₂ (fun c d => c = '.' ∨ lower d = lower c) (lettersOf v) l

/-- Specification: no star, and every bracket opened is closed -/
structure WellFormed (v : List Char) : Prop where
  star : '*' ∉ v
  opened : ∀ a, a <+: v → a.count ')' ≤ a.count '('
  closed : v.count '(' = v.count ')'

theorem search_isSome (r : Re) (s : List Char) : ∀ pre, (r.searchFrom pre s).isSome = true ↔
    ∃ k ≤ s.length, r.run (St.adv ⟨pre, s, []⟩ k) ≠ [] := by
  induction s with
  | nil =>
    intro pre
    simp only [Re.searchFrom, Option.isSome_map, List.length_nil, Nat.le_zero]
    constructor
    · intro h; exact ⟨0, rfl, by rw [adv_zero]; rw [List.isSome_head?] at h; simpa using h⟩
    · rintro ⟨k, rfl, h⟩; rw [adv_zero] at h; rw [List.isSome_head?]; simpa using h
  | cons c l ih =>
    intro pre
    by_cases h0 : r.run ⟨pre, c :: l, []⟩ = []
    · rw [Re.searchFrom, h0]
      simp only [List.head?_nil]
      rw [ih]
      constructor
      · rintro ⟨k, hk, h⟩
        exact ⟨k + 1, by simpa using hk, by simpa [St.adv] using h⟩
      · rintro ⟨k, hk, h⟩
        cases k with
        | zero => rw [adv_zero] at h; exact absurd h0 h
        | succ k => exact ⟨k, by simpa using hk, by simpa [St.adv] using h⟩
    · constructor
      · intro _; exact ⟨0, by simp, by rwa [adv_zero]⟩
      · intro _
        rw [Re.searchFrom]
        cases h : r.run ⟨pre, c :: l, []⟩ with
        | nil => exact absurd h h0
        | cons a b => simp

/-- what a pattern consists of -/
inductive PatItem
  | char (p : Char → Bool)
  | gap

/-- a way through the items, from state `s` to state `t` -/
def PatPath : List PatItem → St → St → Prop
  | [], s, t => t = s
  | .char p :: l, s, t => ∃ d r, s.rest = d :: r ∧ p d = true ∧ PatPath l (s.adv 1) t
  | .gap :: l, s, t => ∃ k ≤ runLen (fun d => d != '\n') s.rest, PatPath l (s.adv k) t

theorem path_append (a b : List PatItem) : ∀ s t, PatPath (a ++ b) s t ↔ ∃ u, PatPath a s u ∧ PatPath b u t := by
  induction a with
  | nil => intro s t; simp [PatPath]
  | cons x a ih =>
    intro s t
    cases x with
    | char p =>
      simp only [List.cons_append, PatPath, ih]
      constructor
      · rintro ⟨d, r, h1, h2, u, h3, h4⟩; exact ⟨u, ⟨d, r, h1, h2, h3⟩, h4⟩
      · rintro ⟨u, ⟨d, r, h1, h2, h3⟩, h4⟩; exact ⟨d, r, h1, h2, u, h3, h4⟩
    | gap =>
      simp only [List.cons_append, PatPath, ih]
      constructor
      · rintro ⟨k, h1, u, h3, h4⟩; exact ⟨u, ⟨k, h1, h3⟩, h4⟩
      · rintro ⟨u, ⟨k, h1, h3⟩, h4⟩; exact ⟨k, h1, u, h3, h4⟩

/-- a pattern made of these items -/
def PatMeans (r : Re) (l : List PatItem) : Prop := ∀ s t, t ∈ r.run s ↔ PatPath l s t

theorem means_eps : PatMeans .eps [] := fun s t => by simp [PatPath]

theorem means_seq {a b : Re} {l m : List PatItem} (ha : PatMeans a l) (hb : PatMeans b m) : PatMeans (.seq a b) (l ++ m) := by
  intro s t
  rw [run_seq, List.mem_flatMap, path_append]
  constructor
  · rintro ⟨u, h1, h2⟩; exact ⟨u, (ha s u).1 h1, (hb u t).1 h2⟩
  · rintro ⟨u, h1, h2⟩; exact ⟨u, (ha s u).2 h1, (hb u t).2 h2⟩

theorem means_chr (p : Char → Bool) : PatMeans (.chr p) [.char p] := by
  intro s t
  rw [run_chr_adv]
  cases h : s.rest with
  | nil => simp [PatPath, h]
  | cons d r =>
    simp only [PatPath, h]
    by_cases hp : p d = true
    · simp [hp]
    · simp [hp]

theorem means_many : PatMeans (.many .dot) [.gap] := by
  intro s t
  rw [Re.many, Re.dot, run_star_chr_greedy]
  simp only [List.mem_map, List.mem_reverse, List.mem_range, PatPath]
  constructor
  · rintro ⟨k, h1, rfl⟩; exact ⟨k, by omega, rfl⟩
  · rintro ⟨k, h1, rfl⟩; exact ⟨k, by omega, rfl⟩

/-- `.*` and the rest of the pattern -/
def gapTail : List Char → List Char
  | [] => []
  | d :: l => '.' :: '*' :: abbrevPattern (d :: l)

theorem pattern_cons (c : Char) (v : List Char) : abbrevPattern (c :: v) = c :: gapTail v := by
  cases v <;> rfl

/-- the item of a character of the abbreviation; brackets have none -/
def charItems (lower : Char → Char) (c : Char) : List PatItem :=
  if c = '(' ∨ c = ')' then [] else [.char (if c = '.' then (fun d => d != '\n') else (fun d => lower d == lower c))]

def tailItems (lower : Char → Char) : List Char → List PatItem
  | [] => []
  | c :: v => .gap :: (charItems lower c ++ tailItems lower v)

/-- the brackets of `v` close `n` open ones and all of their own; no star -/
def Ends : ℕ → List Char → Prop
  | n, [] => n = 0
  | n, c :: v => if c = '(' then Ends (n + 1) v else if c = ')' then ∃ m, n = m + 1 ∧ Ends m v else c ≠ '*' ∧ Ends n v

/-- the sequences around the open groups -/
inductive PatOuter : List Re → List PatItem → Prop
  | nil : PatOuter [] []
  | cons {r : Re} {o : List Re} {i l : List PatItem} : PatMeans r i → PatOuter o l → PatOuter (r :: o) (l ++ i)

theorem parse_plain (lower : Char → Char) (c : Char) (t : List Char) (cur : Re) (outer : List Re) (h1 : c ≠ '(') (h2 : c ≠ ')') (h3 : c ≠ '*')
    (ht : t.head? ≠ some '*') : parsePattern lower (c :: t) cur outer = parsePattern lower t (.seq cur (reAtom lower c)) outer := by
  cases t with
  | nil => rw [parsePattern] <;> simp_all
  | cons d t =>
    rw [parsePattern] <;> simp_all

theorem gapTail_head (v : List Char) : (gapTail v).head? ≠ some '*' := by
  cases v <;> simp [gapTail]

theorem parse_gap (lower : Char → Char) (c : Char) (v : List Char) (cur : Re) (outer : List Re) :
    parsePattern lower (gapTail (c :: v)) cur outer = parsePattern lower (c :: gapTail v) (.seq cur (.many .dot)) outer := by
  rw [gapTail, pattern_cons, parsePattern] <;> simp [reAtom]

/-- the outcome of reading a pattern -/
def PatReads (o : Except Exc Re) (ok : Prop) (m : List PatItem) (cur : Re) (outer : List Re) : Prop :=
  (ok → ∃ r, o = .ok r ∧ ∀ ic io, PatMeans cur ic → PatOuter outer io → PatMeans r (io ++ ic ++ m)) ∧ (¬ ok → o = .error .value)

theorem means_atom (lower : Char → Char) (c : Char) (h1 : c ≠ '(') (h2 : c ≠ ')') : PatMeans (reAtom lower c) (charItems lower c) := by
  rw [charItems, if_neg (by tauto), reAtom]
  by_cases h : c = '.'
  · rw [if_pos h, if_pos h]; exact means_chr _
  · rw [if_neg h, if_neg h]; exact means_chr _

theorem parse_char (lower : Char → Char) (v : List Char)
    (ih : ∀ cur outer, PatReads (parsePattern lower (gapTail v) cur outer) (Ends outer.length v) (tailItems lower v) cur outer)
    (c : Char) (cur : Re) (outer : List Re) :
    PatReads (parsePattern lower (c :: gapTail v) cur outer) (Ends outer.length (c :: v)) (charItems lower c ++ tailItems lower v) cur outer := by
  by_cases h1 : c = '('
  · subst h1
    rw [parsePattern]
    obtain ⟨i1, i2⟩ := ih .eps (cur :: outer)
    rw [List.length_cons] at i1 i2
    have e : Ends outer.length ('(' :: v) ↔ Ends (outer.length + 1) v := by rw [Ends, if_pos rfl]
    refine ⟨fun h => ?_, fun h => i2 (fun h' => h (e.2 h'))⟩
    obtain ⟨r, hr, hm⟩ := i1 (e.1 h)
    refine ⟨r, hr, fun ic io hc ho => ?_⟩
    have := hm [] (io ++ ic) means_eps (.cons hc ho)
    simpa [charItems] using this
  by_cases h2 : c = ')'
  · subst h2
    cases outer with
    | nil =>
      rw [parsePattern]
      refine ⟨fun h => ?_, fun _ => rfl⟩
      rw [Ends, if_neg (by decide), if_pos rfl] at h
      obtain ⟨m, h, _⟩ := h
      simp at h
    | cons r outer =>
      rw [parsePattern]
      obtain ⟨i1, i2⟩ := ih (.seq r cur) outer
      have e : Ends (r :: outer).length (')' :: v) ↔ Ends outer.length v := by
        rw [Ends, if_neg (by decide), if_pos rfl]
        constructor
        · rintro ⟨m, hm, h⟩
          simp only [List.length_cons, Nat.add_right_cancel_iff] at hm
          rw [hm]; exact h
        · intro h; exact ⟨_, rfl, h⟩
      refine ⟨fun h => ?_, fun h => i2 (fun h' => h (e.2 h'))⟩
      obtain ⟨q, hq, hm⟩ := i1 (e.1 h)
      refine ⟨q, hq, fun ic io hc ho => ?_⟩
      cases ho with
      | cons hr ho =>
        rename_i i l
        have := hm (i ++ ic) l (means_seq hr hc) ho
        simpa [charItems] using this
  by_cases h3 : c = '*'
  · subst h3
    rw [parsePattern]
    · refine ⟨fun h => ?_, fun _ => rfl⟩
      rw [Ends, if_neg (by decide), if_neg (by decide)] at h
      exact absurd rfl h.1
  rw [parse_plain lower c _ cur outer h1 h2 h3 (gapTail_head v)]
  obtain ⟨i1, i2⟩ := ih (.seq cur (reAtom lower c)) outer
  have e : Ends outer.length (c :: v) ↔ Ends outer.length v := by
    rw [Ends, if_neg h1, if_neg h2]; simp [h3]
  refine ⟨fun h => ?_, fun h => i2 (fun h' => h (e.2 h'))⟩
  obtain ⟨q, hq, hm⟩ := i1 (e.1 h)
  refine ⟨q, hq, fun ic io hc ho => ?_⟩
  have := hm (ic ++ charItems lower c) io (means_seq hc (means_atom lower c h1 h2)) ho
  simpa using this

theorem parse_tail (lower : Char → Char) (v : List Char) :
    ∀ cur outer, PatReads (parsePattern lower (gapTail v) cur outer) (Ends outer.length v) (tailItems lower v) cur outer := by
  induction v with
  | nil =>
    intro cur outer
    cases outer with
    | nil =>
      refine ⟨fun _ => ⟨cur, by rw [gapTail, parsePattern], fun ic io hc ho => ?_⟩, fun h => absurd rfl h⟩
      cases ho
      simpa [tailItems] using hc
    | cons r o =>
      refine ⟨fun h => ?_, fun _ => by rw [gapTail, parsePattern]⟩
      simp [Ends] at h
  | cons c v ih =>
    intro cur outer
    rw [parse_gap]
    obtain ⟨h1, h2⟩ := parse_char lower v ih c (.seq cur (.many .dot)) outer
    refine ⟨fun h => ?_, h2⟩
    obtain ⟨r, hr, hm⟩ := h1 h
    refine ⟨r, hr, fun ic io hc ho => ?_⟩
    have := hm (ic ++ [.gap]) io (means_seq hc means_many) ho
    simpa [tailItems] using this

theorem ends_iff (v : List Char) : ∀ n, Ends n v ↔ '*' ∉ v ∧ (∀ a, a <+: v → a.count ')' ≤ a.count '(' + n) ∧ v.count '(' + n = v.count ')' := by
  induction v with
  | nil => intro n; simp [Ends]
  | cons c v ih =>
    intro n
    have pre : ∀ P : List Char → Prop, (∀ a, a <+: c :: v → P a) ↔ P [] ∧ ∀ a, a <+: v → P (c :: a) := by
      intro P
      constructor
      · intro h; exact ⟨h [] (by simp), fun a ha => h _ (by simpa using ha)⟩
      · rintro ⟨h1, h2⟩ a ha
        cases a with
        | nil => exact h1
        | cons x a =>
          rw [List.cons_prefix_cons] at ha
          rw [ha.1]; exact h2 a ha.2
    rw [pre]
    by_cases h1 : c = '('
    · subst h1
      rw [Ends, if_pos rfl, ih]
      simp only [List.mem_cons, List.count_cons, List.count_nil]
      constructor
      · rintro ⟨a1, a2, a3⟩
        refine ⟨fun h => h.elim (fun h => absurd h (by decide)) a1, ⟨by omega, fun a ha => ?_⟩, ?_⟩
        · have := a2 a ha; simp; omega
        · simp; omega
      · rintro ⟨a1, ⟨_, a2⟩, a3⟩
        refine ⟨fun h => a1 (Or.inr h), fun a ha => ?_, ?_⟩
        · have := a2 a ha; simp at this; omega
        · simp at a3; omega
    · by_cases h2 : c = ')'
      · subst h2
        rw [Ends, if_neg (by decide), if_pos rfl]
        simp only [List.mem_cons, List.count_cons, List.count_nil]
        constructor
        · rintro ⟨m, rfl, h⟩
          obtain ⟨a1, a2, a3⟩ := (ih m).1 h
          refine ⟨fun h => h.elim (fun h => absurd h (by decide)) a1, ⟨by omega, fun a ha => ?_⟩, ?_⟩
          · have := a2 a ha; simp; omega
          · simp; omega
        · rintro ⟨a1, ⟨_, a2⟩, a3⟩
          have h0 := a2 [] (by simp)
          simp at h0
          obtain ⟨m, rfl⟩ : ∃ m, n = m + 1 := ⟨n - 1, by omega⟩
          refine ⟨m, rfl, (ih m).2 ⟨fun h => a1 (Or.inr h), fun a ha => ?_, ?_⟩⟩
          · have := a2 a ha; simp at this; omega
          · simp at a3; omega
      · rw [Ends, if_neg h1, if_neg h2, ih]
        have k1 : (c == '(') = false := by simpa using h1
        have k2 : (c == ')') = false := by simpa using h2
        simp only [List.mem_cons, List.count_cons, List.count_nil, k1, k2]
        constructor
        · rintro ⟨a0, a1, a2, a3⟩
          exact ⟨fun h => h.elim (fun h => a0 h.symm) a1, ⟨by omega, fun a ha => by simpa using a2 a ha⟩, by simpa using a3⟩
        · rintro ⟨a1, ⟨_, a2⟩, a3⟩
          exact ⟨fun h => a1 (Or.inl h.symm), fun h => a1 (Or.inr h), fun a ha => by simpa using a2 a ha, by simpa using a3⟩

theorem ends_wellFormed (v : List Char) : Ends 0 v ↔ WellFormed v := by
  rw [ends_iff]
  exact ⟨fun ⟨a, b, c⟩ => ⟨a, by simpa using b, by simpa using c⟩, fun ⟨a, b, c⟩ => ⟨a, by simpa using b, by simpa using c⟩⟩

/-- a way through the pattern exists iff the characters follow in order -/
theorem path_iff (lower : Char → Char) (v : List Char) : ∀ s : St, '\n' ∉ s.rest →
    ((∃ t, PatPath (tailItems lower v) s t) ↔ Abbreviates lower v s.rest) := by
  induction v with
  | nil =>
    intro s _
    exact ⟨fun _ => ⟨[], by simp, by simp [lettersOf]⟩, fun _ => ⟨s, rfl⟩⟩
  | cons c v ih =>
    intro s hs
    have hrl : runLen (fun d => d != '\n') s.rest = s.rest.length := by
      apply le_antisymm (runLen_le _ _)
      rw [runLen_eq_length_iff]
      intro d hd
      simp only [bne_iff_ne, ne_eq]; rintro rfl; exact hs hd
    simp only [tailItems, PatPath, hrl]
    by_cases hc : c = '(' ∨ c = ')'
    · have e : lettersOf (c :: v) = lettersOf v := by
        rw [lettersOf, List.filter_cons_of_neg (by rcases hc with rfl | rfl <;> decide)]; rfl
      have e2 : charItems lower c = [] := by rw [charItems, if_pos hc]
      rw [Abbreviates, e, ← Abbreviates, e2, List.nil_append]
      constructor
      · rintro ⟨t, k, hk, h⟩
        obtain ⟨l, h1, h2⟩ := (ih (s.adv k) (fun h => hs (List.mem_of_mem_drop h))).1 ⟨t, h⟩
        exact ⟨l, h1.trans (List.drop_sublist _ _), h2⟩
      · intro h
        obtain ⟨t, ht⟩ := (ih s hs).2 h
        exact ⟨t, 0, by omega, by rwa [adv_zero]⟩
    · have e : lettersOf (c :: v) = c :: lettersOf v := by
        rw [lettersOf, List.filter_cons_of_pos (by push Not at hc; simp [hc.1, hc.2])]; rfl
      have e2 : charItems lower c = [.char (if c = '.' then (fun d => d != '\n') else (fun d => lower d == lower c))] := by
        rw [charItems, if_neg hc]
      rw [Abbreviates, e, e2]
      simp only [List.cons_append, List.nil_append, PatPath]
      constructor
      · rintro ⟨t, k, hk, d, r, hd, hp, h⟩
        have hsub : '\n' ∉ (s.adv k).rest := fun h => hs (List.mem_of_mem_drop h)
        have hr : ((s.adv k).adv 1).rest = r := by rw [adv_rest, hd]; rfl
        obtain ⟨l, h1, h2⟩ := (ih ((s.adv k).adv 1) (by rw [hr]; intro h; exact hsub (by rw [hd]; simp [h]))).1 ⟨t, h⟩
        rw [hr] at h1
        refine ⟨d :: l, ?_, .cons ?_ h2⟩
        · have : (d :: l).Sublist (s.rest.drop k) := by
            rw [← adv_rest, hd]; exact h1.cons_cons d
          exact this.trans (List.drop_sublist _ _)
        · by_cases h : c = '.'
          · exact Or.inl h
          · rw [if_neg h] at hp
            exact Or.inr (by simpa using hp)
      · rintro ⟨l, h1, h2⟩
        cases h2 with
        | cons hd h2 =>
          rename_i d l
          obtain ⟨r1, r2, e1, hm, hl⟩ := List.cons_sublist_iff.1 h1
          obtain ⟨x, y, rfl⟩ := List.append_of_mem hm
          have hdr : s.rest.drop x.length = d :: (y ++ r2) := by rw [e1]; simp
          have hsub : '\n' ∉ (s.adv x.length).rest := fun h => hs (List.mem_of_mem_drop h)
          have hr : ((s.adv x.length).adv 1).rest = y ++ r2 := by rw [adv_rest, adv_rest, hdr]; rfl
          obtain ⟨t, ht⟩ := (ih ((s.adv x.length).adv 1) (by
            rw [hr]; intro h; exact hsub (by rw [adv_rest, hdr]; exact List.mem_cons_of_mem _ h))).2
              ⟨l, by rw [hr]; exact hl.trans (List.sublist_append_right _ _), h2⟩
          refine ⟨t, x.length, by rw [e1]; simp, d, y ++ r2, by rw [adv_rest, hdr], ?_, ht⟩
          by_cases h : c = '.'
          · rw [if_pos h]
            simp only [bne_iff_ne, ne_eq]
            rintro rfl
            exact hs (by rw [e1]; simp)
          · rw [if_neg h]
            rcases hd with h' | h'
            · exact absurd h' h
            · simpa using h'

/-- what the pattern finds -/
theorem search_abbrev (lower : Char → Char) (v : List Char) :
    (WellFormed v → ∃ r, parsePattern lower (abbrevPattern v) .eps [] = .ok r ∧
      ∀ e : List Char, '\n' ∉ e → ((r.search e).isSome = true ↔ Abbreviates lower v e)) ∧
    (¬ WellFormed v → parsePattern lower (abbrevPattern v) .eps [] = .error .value) := by
  cases v with
  | nil =>
    refine ⟨fun _ => ⟨.eps, rfl, fun e he => ?_⟩, fun h => absurd (by rw [← ends_wellFormed]; rfl) h⟩
    rw [Re.search, search_isSome]
    exact ⟨fun _ => ⟨[], by simp, by simp [lettersOf]⟩, fun _ => ⟨0, by simp, by simp⟩⟩
  | cons c v =>
    rw [pattern_cons, ← ends_wellFormed]
    obtain ⟨h1, h2⟩ := parse_char lower v (parse_tail lower v) c .eps []
    refine ⟨fun h => ?_, h2⟩
    obtain ⟨r, hr, hm⟩ := h1 h
    refine ⟨r, hr, fun e he => ?_⟩
    have hM : PatMeans r (charItems lower c ++ tailItems lower v) := by simpa using hm [] [] means_eps .nil
    have hrl : runLen (fun d => d != '\n') e = e.length := by
      apply le_antisymm (runLen_le _ _)
      rw [runLen_eq_length_iff]
      intro d hd
      simp only [bne_iff_ne, ne_eq]; rintro rfl; exact he hd
    rw [Re.search, search_isSome, ← path_iff lower (c :: v) ⟨[], e, []⟩ he]
    simp only [tailItems, PatPath, hrl]
    constructor
    · rintro ⟨k, hk, h⟩
      obtain ⟨t, ht⟩ := List.exists_mem_of_ne_nil _ h
      exact ⟨t, k, hk, (hM _ _).1 ht⟩
    · rintro ⟨t, k, hk, h⟩
      exact ⟨k, hk, List.ne_nil_of_mem ((hM _ _).2 h)⟩

/-- which positions match -/
theorem mem_abbrevMatches (lower : Char → Char) (s : List (List Char)) (hs : ∀ e ∈ s, '\n' ∉ e) (v : List Char) (hw : WellFormed v) :
    ∃ l, abbrevMatches lower s v = .ok l ∧ (∀ (i : ℕ) (e : List Char), (i, e) ∈ l ↔ s[i]? = some e ∧ Abbreviates lower v e) ∧
      l.Pairwise (fun a b => a.1 < b.1) := by
  obtain ⟨r, hr, hm⟩ := (search_abbrev lower v).1 hw
  have key : ∃ l, (Except.ok (List.filter (fun x : ℕ × List Char => (r.search x.2).isSome) (s.zipIdx.map (fun x => (x.2, x.1)))) : Except Exc _) = .ok l ∧
      (∀ (i : ℕ) (e : List Char), (i, e) ∈ l ↔ s[i]? = some e ∧ Abbreviates lower v e) ∧ l.Pairwise (fun a b => a.1 < b.1) := by
    refine ⟨_, rfl, ?_, ?_⟩
    · intro i e
      rw [List.mem_filter, List.mem_map]
      constructor
      · rintro ⟨⟨⟨e', i'⟩, hx, he⟩, h⟩
        simp only [Prod.mk.injEq] at he
        obtain ⟨rfl, rfl⟩ := he
        have h1 : s[i']? = some e' := by
          have := List.mem_zipIdx_iff_getElem?.1 hx
          simpa using this
        exact ⟨h1, (hm e' (hs e' (List.mem_of_getElem? h1))).1 h⟩
      · rintro ⟨h1, h2⟩
        refine ⟨⟨(e, i), ?_, rfl⟩, (hm e (hs e (List.mem_of_getElem? h1))).2 h2⟩
        exact List.mem_zipIdx_iff_getElem?.2 (by simpa using h1)
    · apply List.Pairwise.filter
      rw [List.pairwise_map, List.pairwise_iff_getElem]
      intro i j hi hj hij
      simp [List.getElem_zipIdx]
      exact hij
  cases s with
  | nil => exact ⟨[], rfl, by simp, .nil⟩
  | cons a s =>
    rw [abbrevMatches, hr]
    · exact key
    · simp

/-- insertion sort by a length: the head is shortest, and among equally long entries the earliest -/
theorem insertionSort_head {α : Type} (len pos : α → ℕ) (l : List α) (hl : l.Pairwise (fun a b => pos a < pos b))
    (x : α) (r : List α) (h : l.insertionSort (fun a b => len a ≤ len b) = x :: r) :
    x ∈ l ∧ ∀ y ∈ l, len x < len y ∨ len x = len y ∧ pos x ≤ pos y := by
  have hperm := List.perm_insertionSort (fun a b : α => len a ≤ len b) l
  rw [h] at hperm
  have hx : x ∈ l := hperm.mem_iff.1 (by simp)
  refine ⟨hx, ?_⟩
  intro y hy
  have : Std.Total (fun a b : α => len a ≤ len b) := ⟨fun a b => le_total _ _⟩
  have : IsTrans α (fun a b => len a ≤ len b) := ⟨fun a b c => le_trans⟩
  have hs := List.pairwise_insertionSort (fun a b : α => len a ≤ len b) l
  rw [h] at hs
  have hle : len x ≤ len y := by
    rcases List.mem_cons.1 (hperm.mem_iff.2 hy) with rfl | hy'
    · exact le_rfl
    · exact (List.pairwise_cons.1 hs).1 y hy'
  rcases lt_or_eq_of_le hle with h1 | h1
  · exact Or.inl h1
  · refine Or.inr ⟨h1, ?_⟩
    by_contra hc
    push Not at hc
    -- y comes before x in the list, so also after sorting
    have hxy : [y, x].Sublist l := by
      obtain ⟨i, hi, rfl⟩ := List.getElem_of_mem hy
      obtain ⟨j, hj, rfl⟩ := List.getElem_of_mem hx
      have hij : i < j := by
        by_contra hcon
        rcases Nat.lt_or_ge j i with h2 | h2
        · have := (List.pairwise_iff_getElem.1 hl) j i hj hi h2
          omega
        · have : i = j := by omega
          subst this
          omega
      have h3 : [l[i]].Sublist (l.take j) := List.singleton_sublist.2 (List.mem_take_iff_getElem.2 ⟨i, by omega, rfl⟩)
      have h4 : [l[j]].Sublist (l.drop j) := List.singleton_sublist.2 (by
        rw [List.mem_iff_getElem]; exact ⟨0, by simp [hj], by simp⟩)
      have := h3.append h4
      rwa [List.take_append_drop] at this
    have h4 := List.pair_sublist_insertionSort (r := fun a b : α => len a ≤ len b) (a := y) (b := x) (by rw [h1]) hxy
    rw [h] at h4
    rcases List.sublist_cons_iff.1 h4 with h5 | ⟨r', h5, h6⟩
    · -- x would occur twice
      have hnd : l.Nodup := hl.imp (fun h => by rintro rfl; omega)
      have : (x :: r).Nodup := hperm.nodup_iff.2 hnd
      rw [List.nodup_cons] at this
      exact this.1 (h5.subset (by simp))
    · obtain ⟨rfl, _⟩ := List.cons.inj h5
      omega

/-- **C140, brackets and stars.** An abbreviation with a bracket that is not opened or not closed, or with a star, ends with an error (of the
pattern matcher, not the program's own message). -/
theorem C140_malformed (lower : Char → Char) (s : List (List Char)) (hs : s ≠ []) (v : List Char) (hv : ¬ WellFormed v) (amb inv : Bool) :
    decodeAbbreviation lower s v amb inv = .error .value := by
  have : abbrevMatches lower s v = .error .value := by
    cases s with
    | nil => exact absurd rfl hs
    | cons a s =>
      rw [abbrevMatches, (search_abbrev lower v).2 hv]
      · rfl
      · simp
  rw [decodeAbbreviation, this]
  rfl

/-- **C41.** For entries without line feeds and abbreviations without stars and unmatched brackets: if no entry has the characters of the
abbreviation in this order (ignoring case), the result is -1 if allowed and program exit otherwise; if several have and ambiguity is
not allowed, program exit; otherwise the result is the position of a matching entry such that no matching entry is shorter and none of
the same length comes earlier. -/
theorem C41_abbreviation (lower : Char → Char) (s : List (List Char)) (hs : ∀ e ∈ s, '\n' ∉ e) (v : List Char) (hw : WellFormed v)
    (amb inv : Bool) :
    ((∀ e ∈ s, ¬ Abbreviates lower v e) →
      decodeAbbreviation lower s v amb inv = if inv then .ok (-1) else .error .system) ∧
    ((∃ (i j : ℕ) (ei ej : List Char), i ≠ j ∧ s[i]? = some ei ∧ s[j]? = some ej ∧ Abbreviates lower v ei ∧ Abbreviates lower v ej) →
      amb = false → decodeAbbreviation lower s v amb inv = .error .system) ∧
    ((∃ e ∈ s, Abbreviates lower v e) →
      (amb = true ∨ ∀ (i j : ℕ) (ei ej : List Char), s[i]? = some ei → s[j]? = some ej → Abbreviates lower v ei → Abbreviates lower v ej → i = j) →
      ∃ (i : ℕ) (e : List Char), decodeAbbreviation lower s v amb inv = .ok (i : ℤ) ∧ s[i]? = some e ∧ Abbreviates lower v e ∧
        ∀ (j : ℕ) (e' : List Char), s[j]? = some e' → Abbreviates lower v e' → e.length < e'.length ∨ e.length = e'.length ∧ i ≤ j) := by
  obtain ⟨l, hl, hmem, hord⟩ := mem_abbrevMatches lower s hs v hw
  have hperm := List.perm_insertionSort (fun a b : ℕ × List Char => a.2.length ≤ b.2.length) l
  have hnd : l.Nodup := hord.imp (fun h => by rintro rfl; omega)
  rw [decodeAbbreviation, hl]
  simp only [bind, Except.bind]
  refine ⟨?_, ?_, ?_⟩
  · intro h
    have : l = [] := by
      rw [List.eq_nil_iff_forall_not_mem]
      rintro ⟨i, e⟩ hm
      obtain ⟨h1, h2⟩ := (hmem i e).1 hm
      exact h e (List.mem_of_getElem? h1) h2
    rw [this]
    rfl
  · rintro ⟨i, j, ei, ej, hij, h1, h2, h3, h4⟩ rfl
    have m1 := (hmem i ei).2 ⟨h1, h3⟩
    have m2 := (hmem j ej).2 ⟨h2, h4⟩
    split
    · rename_i h0
      rw [h0] at hperm
      have := hperm.mem_iff.2 m1
      simp at this
    · rename_i x rest h0
      rw [if_pos]
      rw [h0] at hperm
      simp only [Bool.not_false, Bool.and_true, decide_eq_true_eq]
      cases rest with
      | nil =>
        have e1 := hperm.mem_iff.2 m1
        have e2 := hperm.mem_iff.2 m2
        rw [List.mem_singleton] at e1 e2
        rw [← e1] at e2
        exact absurd (Prod.mk.inj e2).1.symm hij
      | cons y r => simp
  · rintro ⟨e, he, hab⟩ huniq
    obtain ⟨i, hi, rfl⟩ := List.getElem_of_mem he
    have m1 := (hmem i s[i]).2 ⟨List.getElem?_eq_getElem hi, hab⟩
    split
    · rename_i h0
      rw [h0] at hperm
      have := hperm.mem_iff.2 m1
      simp at this
    · rename_i x rest h0
      obtain ⟨hx, hmin⟩ := insertionSort_head (fun a : ℕ × List Char => a.2.length) (fun a => a.1) _ hord x rest h0
      obtain ⟨k, e⟩ := x
      obtain ⟨hk1, hk2⟩ := (hmem k e).1 hx
      refine ⟨k, e, ?_, hk1, hk2, ?_⟩
      · rw [if_neg]
        rcases huniq with h | h
        · simp [h]
        · rw [h0] at hperm
          cases rest with
          | nil => simp
          | cons y r =>
            exfalso
            obtain ⟨j, e'⟩ := y
            have hy : (j, e') ∈ l := hperm.mem_iff.1 (by simp)
            obtain ⟨hj1, hj2⟩ := (hmem j e').1 hy
            have := h k j e e' hk1 hj1 hk2 hj2
            subst this
            rw [hk1] at hj1
            have e2 := Option.some.inj hj1
            subst e2
            have := hperm.nodup_iff.2 hnd
            rw [List.nodup_cons] at this
            exact this.1 (by simp)
      · intro j e' h1 h2
        exact hmin (j, e') ((hmem j e').2 ⟨h1, h2⟩)

/-- the palette: `gr` is ambiguous; `Grey` is the first of the shortest names containing g..r in order -/
example : decodeAbbreviation Char.toLower ["Black".toList, "Red".toList, "Green".toList, "Grey".toList, "orange".toList]
    "gR".toList true false = .ok 3 ∧
    decodeAbbreviation Char.toLower ["Black".toList, "Green".toList, "Grey".toList] "gr".toList false false = .error .system ∧
    decodeAbbreviation Char.toLower ["Black".toList, "Green".toList] "xy".toList true true = .ok (-1) := by
  refine ⟨?_, ?_, ?_⟩ <;> decide +kernel

/-! ### names in full -/

/-- abbreviations without brackets, full stops and stars -/
def Plain41 (v : List Char) : Prop := ∀ c ∈ v, c ≠ '(' ∧ c ≠ ')' ∧ c ≠ '.' ∧ c ≠ '*'

instance (v : List Char) : Decidable (Plain41 v) := by unfold Plain41; infer_instance

theorem Plain41.wellFormed {v : List Char} (h : Plain41 v) : WellFormed v := by
  have h1 : ∀ a, a <+: v → a.count ')' = 0 := fun a ha => List.count_eq_zero.2 (fun hc => (h _ (ha.subset hc)).2.1 rfl)
  have h2 : ∀ a, a <+: v → a.count '(' = 0 := fun a ha => List.count_eq_zero.2 (fun hc => (h _ (ha.subset hc)).1 rfl)
  exact ⟨fun hc => (h _ hc).2.2.2 rfl, fun a ha => by rw [h1 a ha]; omega, by rw [h1 v (List.prefix_refl _), h2 v (List.prefix_refl _)]⟩

theorem Plain41.letters {v : List Char} (h : Plain41 v) : lettersOf v = v := by
  rw [lettersOf, List.filter_eq_self]
  intro c hc
  simp [(h c hc).1, (h c hc).2.1]

/-- plain characters: those of the entry in the same order, ignoring case -/
theorem abbreviates_plain {lower : Char → Char} {v : List Char} (h : Plain41 v) (e : List Char) :
    Abbreviates lower v e ↔ (v.map lower).Sublist (e.map lower) := by
  rw [Abbreviates, h.letters]
  constructor
  · rintro ⟨l, h1, h2⟩
    have : v.map lower = l.map lower := by
      clear h1
      induction h2 with
      | nil => rfl
      | @cons c d v l hc _ ih =>
        rw [List.map_cons, List.map_cons, ih (fun x hx => h x (by simp [hx]))]
        rcases hc with hc | hc
        · exact absurd hc (h c (by simp)).2.2.1
        · rw [hc]
    rw [this]
    exact h1.map _
  · intro hs
    obtain ⟨l, h1, h2⟩ := List.sublist_map_iff.1 hs
    refine ⟨l, h1, ?_⟩
    clear hs h1
    induction v generalizing l with
    | nil =>
      cases l with
      | nil => exact .nil
      | cons d l => simp at h2
    | cons c v ih =>
      cases l with
      | nil => simp at h2
      | cons d l =>
        rw [List.map_cons, List.map_cons] at h2
        obtain ⟨h3, h4⟩ := List.cons.inj h2
        exact .cons (Or.inr h3.symm) (ih (fun x hx => h x (by simp [hx])) _ h4)

/-- an entry is found by its own name -/
theorem abbreviates_self (lower : Char → Char) (v e : List Char) (h : v.map lower = e.map lower) : Abbreviates lower v e := by
  have key : ∀ (v e : List Char), v.map lower = e.map lower → ∃ l, l.Sublist e ∧
      List.Forall₂ (fun c d => c = '.' ∨ lower d = lower c) (lettersOf v) l := by
    intro v
    induction v with
    | nil => intro e _; exact ⟨[], by simp, by simp [lettersOf]⟩
    | cons c v ih =>
      intro e h
      cases e with
      | nil => simp at h
      | cons d e =>
        rw [List.map_cons, List.map_cons] at h
        obtain ⟨h1, h2⟩ := List.cons.inj h
        obtain ⟨l, h3, h4⟩ := ih e h2
        by_cases hc : (c != '(' && c != ')') = true
        · refine ⟨d :: l, h3.cons_cons d, ?_⟩
          rw [lettersOf, List.filter_cons_of_pos (by exact hc)]
          exact .cons (Or.inr h1.symm) h4
        · refine ⟨l, h3.cons d, ?_⟩
          rw [lettersOf, List.filter_cons_of_neg (by exact hc)]
          exact h4
  exact key v e h

/-- **C41, full names.** A plain entry of the list, written in full in any case, selects the first entry equal to it up to
case. -/
theorem C41_full_name (lower : Char → Char) (s : List (List Char)) (hs : ∀ e ∈ s, '\n' ∉ e) (v e : List Char) (hp : Plain41 v) (he : e ∈ s)
    (hv : v.map lower = e.map lower) (inv : Bool) : ∃ i f, decodeAbbreviation lower s v true inv = .ok (i : ℕ) ∧
      s[i]? = some f ∧ f.map lower = v.map lower ∧ ∀ j g, s[j]? = some g → g.map lower = v.map lower → i ≤ j := by
  have hself : ∀ g : List Char, g.map lower = v.map lower → Abbreviates lower v g := fun g hg => abbreviates_self lower v g hg.symm
  obtain ⟨i, f, h1, h2, h3, h4⟩ := (C41_abbreviation lower s hs v hp.wellFormed true inv).2.2 ⟨e, he, hself e hv.symm⟩ (Or.inl rfl)
  obtain ⟨j, hj⟩ := List.mem_iff_getElem?.1 he
  have h3 := (abbreviates_plain hp f).1 h3
  have hle : v.length ≤ f.length := by simpa using h3.length_le
  have hvl : v.length = e.length := by simpa using congrArg List.length hv
  have hfl : f.length = v.length := by
    rcases h4 j e hj (hself e hv.symm) with h | ⟨h, _⟩ <;> omega
  have hfe : v.map lower = f.map lower := h3.eq_of_length (by simp [hfl])
  refine ⟨i, f, h1, h2, hfe.symm, ?_⟩
  intro j' g hg hgv
  have hgl : g.length = v.length := by simpa using congrArg List.length hgv
  rcases h4 j' g hg (hself g hgv) with h | ⟨_, h⟩
  · omega
  · exact h

/-- **C140, full names with brackets and full stops.** An entry written in full, with brackets all closed, selects its first occurrence, if no
other entry which is at most as long has its characters, brackets apart, in the same order. -/
theorem C140_full_name_partial (lower : Char → Char) (s : List (List Char)) (hs : ∀ e ∈ s, '\n' ∉ e) (v : List Char) (hv : v ∈ s) (hw : WellFormed v)
    (hother : ∀ e ∈ s, e ≠ v → e.length ≤ v.length → ¬ Abbreviates lower v e) (inv : Bool) :
    ∃ i : ℕ, decodeAbbreviation lower s v true inv = .ok (i : ℤ) ∧ s[i]? = some v ∧ ∀ j : ℕ, s[j]? = some v → i ≤ j := by
  have hself := abbreviates_self lower v v rfl
  obtain ⟨i, f, h1, h2, h3, h4⟩ := (C41_abbreviation lower s hs v hw true inv).2.2 ⟨v, hv, hself⟩ (Or.inl rfl)
  obtain ⟨j, hj⟩ := List.mem_iff_getElem?.1 hv
  have hfl : f.length ≤ v.length := by
    rcases h4 j v hj hself with h | ⟨h, _⟩ <;> omega
  have hfv : f = v := by
    by_contra hne
    exact hother f (List.mem_of_getElem? h2) hne hfl h3
  subst hfv
  refine ⟨i, h1, h2, fun j hj => ?_⟩
  rcases h4 j f hj hself with h | ⟨_, h⟩
  · omega
  · exact h

/-- **C140** fails for full names with brackets if the same name without the brackets is in the list: this one is taken. -/
theorem C140_bracket_counterexample (lower : Char → Char) (v : List Char) (hn : '\n' ∉ v) (hw : WellFormed v) (hb : '(' ∈ v) (inv : Bool) :
    lettersOf v ≠ v ∧ decodeAbbreviation lower [v, lettersOf v] v true inv = .ok 1 := by
  have hlt : (lettersOf v).length < v.length := by
    rw [lettersOf, ← List.countP_eq_length_filter]
    have := List.countP_le_length (p := fun c => c != '(' && c != ')') (l := v)
    rcases Nat.lt_or_ge (v.countP (fun c => c != '(' && c != ')')) v.length with h | h
    · exact h
    · exfalso
      have := (List.countP_eq_length.1 (le_antisymm this h)) '(' hb
      simp at this
  refine ⟨fun h => by rw [h] at hlt; omega, ?_⟩
  have hl : Abbreviates lower v (lettersOf v) := by
    refine ⟨lettersOf v, List.Sublist.refl _, ?_⟩
    rw [List.forall₂_same]
    exact fun c _ => Or.inr rfl
  obtain ⟨i, f, h1, h2, h3, h4⟩ := (C41_abbreviation lower [v, lettersOf v] (by
    intro e he
    simp only [List.mem_cons, List.not_mem_nil, or_false] at he
    rcases he with rfl | rfl
    · exact hn
    · exact fun h => hn (List.mem_of_mem_filter h)) v hw true inv).2.2 ⟨v, by simp, abbreviates_self lower v v rfl⟩ (Or.inl rfl)
  have h5 := h4 1 (lettersOf v) rfl hl
  match i, h2 with
  | 0, h2 =>
    simp only [List.getElem?_cons_zero, Option.some.injEq] at h2
    subst h2
    omega
  | 1, _ => exact h1

/-! ### the lists of functions -/

/-- whether the characters occur in this order -/
def inOrder (lower : Char → Char) : List Char → List Char → Bool
  | [], _ => true
  | _ :: _, [] => false
  | c :: v, d :: e => if c == '.' || lower d == lower c then inOrder lower v e else inOrder lower (c :: v) e

theorem inOrder_of (lower : Char → Char) (e : List Char) : ∀ v l : List Char, l.Sublist e →
    List.Forall₂ (fun c d => c = '.' ∨ lower d = lower c) v l → inOrder lower v e = true := by
  induction e with
  | nil =>
    intro v l h1 h2
    rw [List.sublist_nil] at h1
    subst h1
    cases h2
    rfl
  | cons x e ih =>
    intro v l h1 h2
    cases h2 with
    | nil => rw [inOrder]
    | @cons c d v l hcd h2 =>
      rw [inOrder]
      split
      · -- the first place will do
        apply ih v l _ h2
        rcases List.sublist_cons_iff.1 h1 with h | ⟨r, h, h'⟩
        · exact (List.sublist_cons_self d l).trans h
        · rw [(List.cons.inj h).2]; exact h'
      · rename_i hx
        rcases List.sublist_cons_iff.1 h1 with h | ⟨r, h, h'⟩
        · exact ih (c :: v) (d :: l) h (.cons hcd h2)
        · exfalso
          apply hx
          rw [← (List.cons.inj h).1]
          rcases hcd with h | h <;> simp [h]

/-- names of `config/functions.txt` (the entries `chronology_system`, `equilibrium` and `epochs`) -/
def shippedSystems : List (List Char) :=
  ["Moon, Neukum (1983)", "Moon, Neukum et al. (2001)", "Moon, Hartmann 2010 iteration", "Moon, Yue et al. (2022)", "Mars, Neukum-Ivanov (2001)",
   "Mars, Ivanov (2001)", "Mars, Hartmann 2004 iteration", "Mars, Hartmann & Daubar (2016)", "Mercury, Strom & Neukum (1988)",
   "Mercury, Neukum et al. (2001)", "Mercury, Le Feuvre and Wieczorek 2011 non-porous", "Mercury, Le Feuvre and Wieczorek 2011 porous",
   "Vesta, Rev4, Schmedemann et al (2014)", "Vesta, Rev3, Schmedemann et al (2014)", "Vesta, Marchi & O'Brien (2014)",
   "Ceres, Hiesinger et al. (2016)", "Ida, Schmedemann et al (2014)", "Gaspra, Schmedemann et al (2014)", "Lutetia, Schmedemann et al (2014)",
   "Phobos, Case A - SOM, Schmedemann et al (2014)", "Phobos, Case B - MBA, Schmedemann et al (2014)"].map String.toList

def shippedEquilibrium : List (List Char) := ["Lunar equilibrium (Trask, 1966)", "Hartmann (1984)"].map String.toList

def shippedEpochs : List (List Char) := ["Moon, Wilhelms (1987)", "Moon, Guo et al (2024)", "Mars, Michael (2013)"].map String.toList

/-- **C140, the functions supplied.** Every chronology system, equilibrium function and set of epochs of the supplied list is selected by its
name in full. -/
theorem C140_supplied (inv : Bool) : ∀ s ∈ [shippedSystems, shippedEquilibrium, shippedEpochs], ∀ (i : ℕ) (v : List Char), s[i]? = some v →
    decodeAbbreviation Char.toLower s v true inv = .ok (i : ℤ) := by
  have hall : ∀ s ∈ [shippedSystems, shippedEquilibrium, shippedEpochs], (∀ e ∈ s, '\n' ∉ e) ∧ s.Nodup ∧
      ∀ v ∈ s, ∀ e ∈ s, e ≠ v → e.length ≤ v.length → inOrder Char.toLower (lettersOf v) e = false := by decide +kernel
  have hform : ∀ s ∈ [shippedSystems, shippedEquilibrium, shippedEpochs], ∀ v ∈ s, '*' ∉ v ∧ (∀ n ∈ List.range (v.length + 1),
      (v.take n).count ')' ≤ (v.take n).count '(') ∧ v.count '(' = v.count ')' := by decide +kernel
  intro s hs i v hi
  obtain ⟨h1, h2, h3⟩ := hall s hs
  have hv := List.mem_of_getElem? hi
  obtain ⟨f1, f2, f3⟩ := hform s hs v hv
  have hw : WellFormed v := ⟨f1, fun a ha => by
    have := f2 a.length (by have := ha.length_le; simp; omega)
    rwa [← List.prefix_iff_eq_take.1 ha] at this, f3⟩
  obtain ⟨k, hk, hk1, hk2⟩ := C140_full_name_partial Char.toLower s h1 v hv hw (fun e he hne hle ⟨l, hl1, hl2⟩ => by
    have := h3 v hv e he hne hle
    rw [inOrder_of Char.toLower e _ l hl1 hl2] at this
    exact absurd this (by decide)) inv
  obtain ⟨hki, _⟩ := List.getElem?_eq_some_iff.1 hk1
  rw [hk, (List.getElem?_inj hki h2).1 (hk1.trans hi.symm)]

/-- a name with brackets and a full stop; the wildcards of file names are no abbreviations -/
example : WellFormed "Moon, Neukum et al. (2001)".toList ∧ ¬ WellFormed "Moon*".toList ∧ ¬ WellFormed "Neukum (2001".toList :=
  ⟨by rw [← ends_wellFormed]; simp [Ends], fun h => h.star (by decide), fun h => absurd h.closed (by decide)⟩

end Verif.Props
