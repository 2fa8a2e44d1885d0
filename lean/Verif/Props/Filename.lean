import Verif.Model.Filename
import Mathlib.Data.List.DropRight

/-! Properties C30 and C72: file name splitting. -/

namespace Verif.Props

open Verif.Py Verif.Text

/-- `w` is an extension: a dot and 1 to `m` word characters -/
def IsExt (C : Classes) (m : ℕ) (w : List Char) : Prop :=
  ∃ v, w = '.' :: v ∧ 1 ≤ v.length ∧ v.length ≤ m ∧ ∀ c ∈ v, C.word c = true

theorem word_dot (C : Classes) : C.word '.' = false := by rw [C.word_ascii _ (by decide)]; decide
theorem word_nl (C : Classes) : C.word '\n' = false := by rw [C.word_ascii _ (by decide)]; decide

theorem IsExt.nameCh {C : Classes} {m : ℕ} {w : List Char} (h : IsExt C m w) : ∀ c ∈ w, nameCh C c = true := by
  obtain ⟨v, rfl, _, _, hw⟩ := h
  intro c hc
  rcases List.mem_cons.1 hc with rfl | hc
  · simp [Text.nameCh]
  · simp [Text.nameCh, hw c hc]

/-- repetition up to the end of the string -/
theorem flatMap_eol (s : St) (hs : '\n' ∉ s.rest) (M : ℕ) (hM : M ≤ s.rest.length) :
    (((List.range (M + 1)).reverse).map s.adv).flatMap (Re.eol false).run =
      if s.rest.length ≤ M then [s.adv s.rest.length] else [] := by
  have hrun : ∀ k, (Re.eol false).run (s.adv k) = if s.rest.length ≤ k then [s.adv k] else [] := by
    intro k
    rw [run_eol_false _ (fun h => hs (List.mem_of_mem_drop h))]
    simp [List.drop_eq_nil_iff]
  have hlow : ∀ l : List ℕ, (∀ k ∈ l, k < s.rest.length) → (l.map s.adv).flatMap (Re.eol false).run = [] := by
    intro l hl
    rw [List.flatMap_eq_nil_iff]
    intro t ht
    obtain ⟨k, hk, rfl⟩ := List.mem_map.1 ht
    rw [hrun, if_neg (by have := hl k hk; omega)]
  by_cases h : s.rest.length ≤ M
  · have hMe : M = s.rest.length := by omega
    rw [if_pos h, List.range_succ, List.reverse_append, List.reverse_singleton, List.singleton_append, List.map_cons,
      List.flatMap_cons, hlow _ (by intro k hk; rw [List.mem_reverse, List.mem_range] at hk; omega), hrun, hMe]
    simp
  · rw [if_neg h]
    exact hlow _ (by intro k hk; rw [List.mem_reverse, List.mem_range] at hk; omega)

open Classical in
theorem reExt_run (C : Classes) (m : ℕ) (hm : 1 ≤ m) (s : St) (hs : '\n' ∉ s.rest) :
    (reExt C m).run s = if s.rest = [] ∨ IsExt C m s.rest then [s.adv s.rest.length] else [] := by
  obtain ⟨pre, rest, caps⟩ := s
  have hopt : (Re.opt (.seq (.lit '.') (.seq (.chr C.word) (.upto (m - 1) (.chr C.word))))).run ⟨pre, rest, caps⟩ =
      (Re.seq (.lit '.') (.seq (.chr C.word) (.upto (m - 1) (.chr C.word)))).run ⟨pre, rest, caps⟩ ++ [⟨pre, rest, caps⟩] := by
    show uptoRun _ 1 _ = _
    simp [uptoRun]
  have heol : (Re.eol false).run ⟨pre, rest, caps⟩ = if rest = [] then [⟨pre, rest, caps⟩] else [] := run_eol_false _ hs
  rw [reExt, run_seq, hopt, List.flatMap_append, List.flatMap_singleton, heol]
  cases rest with
  | nil => simp [Re.run, Re.lit]
  | cons c l =>
    simp only [reduceCtorEq, if_false, List.append_nil, false_or]
    rw [run_seq, Re.lit, run_chr_cons]
    by_cases hc : c = '.'
    swap
    · rw [if_neg (by simpa using hc), if_neg]
      · rfl
      · rintro ⟨v, hv, _⟩; exact hc (List.cons.inj hv).1
    subst hc
    rw [if_pos (by simp), List.flatMap_singleton, run_seq]
    cases l with
    | nil =>
      rw [run_chr_nil, if_neg]
      · rfl
      · rintro ⟨v, hv, h1, _⟩
        have := (List.cons.inj hv).2
        subst this; simp at h1
    | cons d l =>
      rw [run_chr_cons]
      by_cases hd : C.word d = true
      swap
      · rw [if_neg hd, if_neg]
        · rfl
        · rintro ⟨v, hv, _, _, hw⟩
          have := (List.cons.inj hv).2
          subst this
          exact hd (hw d (by simp))
      rw [if_pos hd, List.flatMap_singleton, run_upto_chr]
      have hl : '\n' ∉ l := fun h => hs (by simp [h])
      rw [flatMap_eol ⟨d :: '.' :: pre, l, caps⟩ hl _ (by have := runLen_le C.word l; simp only; omega)]
      have hiff : l.length ≤ min (m - 1) (runLen C.word l) ↔ IsExt C m ('.' :: d :: l) := by
        rw [Nat.le_min, runLen_eq_length_iff]
        constructor
        · rintro ⟨h1, h2⟩
          exact ⟨d :: l, rfl, by simp, by simp; omega, by intro x hx; rcases List.mem_cons.1 hx with rfl | hx; exacts [hd, h2 x hx]⟩
        · rintro ⟨v, hv, _, h2, h3⟩
          have := (List.cons.inj hv).2
          subst this
          exact ⟨by simp at h2; omega, fun x hx => h3 x (by simp [hx])⟩
      simp only [hiff]
      by_cases hx : IsExt C m ('.' :: d :: l)
      · rw [if_pos hx, if_pos hx]; simp [St.adv]
      · rw [if_neg hx, if_neg hx]

/-- a run of name characters and an extension cannot jump over a character outside the class -/
theorem tail_run_none (C : Classes) (m : ℕ) (hm : 1 ≤ m) (s : St) (hs : '\n' ∉ s.rest)
    (h : ∃ c ∈ s.rest, nameCh C c ≠ true) :
    (Re.seq (.grp 2 (.lazy (.chr (nameCh C)))) (.grp 3 (reExt C m))).run s = [] := by
  rw [run_lazy_grp_seq, List.flatMap_eq_nil_iff]
  intro k hk
  rw [run_grp, reExt_run C m hm _ (fun h => hs (List.mem_of_mem_drop h)), if_neg, List.map_nil]
  simp only [cap_rest]
  intro hr
  obtain ⟨c, hc, hcn⟩ := h
  rw [← List.take_append_drop k s.rest, List.mem_append] at hc
  rcases hc with hc | hc
  · exact hcn (take_runLen (by have := List.mem_range.1 hk; omega) c hc)
  · rcases hr with hr | hr
    · rw [hr] at hc; simp at hc
    · exact hcn (hr.nameCh c hc)

/-- the match of the file name pattern, for a decomposition of the name -/
theorem reName_search (C : Classes) (m : ℕ) (hm : 1 ≤ m) (p n e : List Char) (hnl : '\n' ∉ p ++ n ++ e)
    (hp : p = [] ∨ ∃ c, p.getLast? = some c ∧ nameCh C c ≠ true) (hn : ∀ c ∈ n, nameCh C c = true)
    (he : e = [] ∨ IsExt C m e) (hmax : e = [] → ∀ k ≤ n.length, ¬ IsExt C m (n.drop k)) :
    ∃ t, (reName C m).search (p ++ n ++ e) = some (⟨[], p ++ n ++ e, []⟩, t) ∧
      t.group 1 = some p ∧ t.group 2 = some n ∧ t.group 3 = some e := by
  have hdot : runLen (fun d => d != '\n') (p ++ n ++ e) = (p ++ n ++ e).length := by
    apply le_antisymm (runLen_le _ _)
    rw [runLen_eq_length_iff]
    intro c hc
    simp only [bne_iff_ne, ne_eq]
    rintro rfl; exact hnl hc
  have hne : ∀ c ∈ n ++ e, nameCh C c = true := by
    intro c hc
    rcases List.mem_append.1 hc with h | h
    · exact hn c h
    · rcases he with rfl | he
      · simp at h
      · exact he.nameCh c h
  -- first, the name and the extension
  have hB : ∀ (pre : List Char) (caps : List (ℕ × ℕ × List Char)), ∃ t,
      ((Re.seq (.grp 2 (.lazy (.chr (nameCh C)))) (.grp 3 (reExt C m))).run ⟨pre, n ++ e, caps⟩).head? = some t ∧
      t.caps = (3, pre.length + n.length, e) :: (2, pre.length, n) :: caps := by
    intro pre caps
    have hnl' : '\n' ∉ n ++ e := fun h => hnl (by rw [List.append_assoc]; exact List.mem_append_right _ h)
    refine ⟨⟨e.reverse ++ (n.reverse ++ pre), [], (3, pre.length + n.length, e) :: (2, pre.length, n) :: caps⟩,
      lazy_grp_seq_head _ _ _ _ _ n.length ?_ ?_ ?_, rfl⟩
    · have : runLen (nameCh C) (n ++ e) = (n ++ e).length := le_antisymm (runLen_le _ _) ((runLen_eq_length_iff _ _).2 hne)
      simp only [this, List.length_append]
      omega
    · rw [run_grp, reExt_run C m hm _ (fun h => hnl' (List.mem_of_mem_drop h)), if_pos (by simpa using he)]
      simp only [List.map_cons, List.map_nil, List.head?_cons]
      rw [matched_adv _ _ le_rfl]
      simp [St.adv, St.cap, Nat.add_comm]
    · intro j hj
      rw [run_grp, reExt_run C m hm _ (fun h => hnl' (List.mem_of_mem_drop h)), if_neg, List.map_nil]
      simp only [cap_rest]
      rintro (h | h)
      · rw [List.drop_eq_nil_iff] at h; simp at h; omega
      · rw [List.drop_append_of_le_length hj.le] at h
        rcases he with rfl | ⟨v, rfl, _, _, hv⟩
        · rw [List.append_nil] at h
          exact hmax rfl j hj.le h
        · obtain ⟨w, hw, _, _, hww⟩ := h
          have hc : n.drop j ≠ [] := by
            intro h0; rw [List.drop_eq_nil_iff] at h0; omega
          cases hd : n.drop j with
          | nil => exact hc hd
          | cons x y =>
            rw [hd, List.cons_append] at hw
            have h2 := (List.cons.inj hw).2
            have : '.' ∈ w := by rw [← h2]; simp
            have := hww _ this
            rw [word_dot] at this
            exact absurd this (by decide)
  -- then the path
  have hhead : ∃ t, ((reName C m).run ⟨[], p ++ n ++ e, []⟩).head? = some t ∧
      t.caps = (3, p.length + n.length, e) :: (2, p.length, n) :: [(1, 0, p)] := by
    obtain ⟨t, ht, hcaps⟩ := hB p.reverse [(1, 0, p)]
    refine ⟨t, lazy_grp_seq_head _ _ _ _ _ p.length ?_ ?_ ?_, by simpa using hcaps⟩
    · simp only [hdot]; simp
    · have e1 : St.cap ⟨[], p ++ n ++ e, []⟩ 1 p.length = ⟨p.reverse, n ++ e, [(1, 0, p)]⟩ := by
        simp [St.cap, List.append_assoc]
      rw [e1]; exact ht
    · intro j hj
      rw [tail_run_none C m hm]
      · intro h
        exact hnl (List.mem_of_mem_drop h)
      · rcases hp with rfl | ⟨c, hc, hcn⟩
        · simp at hj
        · refine ⟨c, ?_, hcn⟩
          simp only [cap_rest]
          rw [List.append_assoc, List.drop_append_of_le_length hj.le, List.mem_append]
          left
          rw [List.getLast?_eq_getElem?, List.getElem?_eq_some_iff] at hc
          obtain ⟨h1, h2⟩ := hc
          rw [← h2, List.mem_iff_getElem]
          exact ⟨p.length - 1 - j, by rw [List.length_drop]; omega, by rw [List.getElem_drop]; congr 1; omega⟩
  obtain ⟨t, ht, hcaps⟩ := hhead
  refine ⟨t, search_zero ht, ?_, ?_, ?_⟩ <;> simp [St.group, hcaps]

/-- every name without line feed has such a decomposition -/
theorem exists_parts (C : Classes) (m : ℕ) (f : List Char) : ∃ p n e, f = p ++ n ++ e ∧
    (p = [] ∨ ∃ c, p.getLast? = some c ∧ nameCh C c ≠ true) ∧ (∀ c ∈ n, nameCh C c = true) ∧
    (e = [] ∨ IsExt C m e) ∧ (e = [] → ∀ k ≤ n.length, ¬ IsExt C m (n.drop k)) := by
  have hsplit : f.rdropWhile (nameCh C) ++ f.rtakeWhile (nameCh C) = f := by
    rw [List.rdropWhile, List.rtakeWhile, ← List.reverse_append, List.takeWhile_append_dropWhile, List.reverse_reverse]
  have hp : f.rdropWhile (nameCh C) = [] ∨ ∃ c, (f.rdropWhile (nameCh C)).getLast? = some c ∧ nameCh C c ≠ true := by
    by_cases h : f.rdropWhile (nameCh C) = []
    · exact Or.inl h
    · right
      exact ⟨_, List.getLast?_eq_some_getLast h, List.rdropWhile_last_not _ _ h⟩
  have hb : ∀ c ∈ f.rtakeWhile (nameCh C), nameCh C c = true := fun c hc => List.mem_rtakeWhile_imp hc
  by_cases h : ∃ k ≤ (f.rtakeWhile (nameCh C)).length, IsExt C m ((f.rtakeWhile (nameCh C)).drop k)
  · obtain ⟨k, hk, hx⟩ := h
    refine ⟨_, (f.rtakeWhile (nameCh C)).take k, (f.rtakeWhile (nameCh C)).drop k, ?_, hp, ?_, Or.inr hx, ?_⟩
    · rw [List.append_assoc, List.take_append_drop, hsplit]
    · intro c hc; exact hb c (List.mem_of_mem_take hc)
    · intro h0
      obtain ⟨v, hv, _⟩ := hx
      rw [h0] at hv; simp at hv
  · push Not at h
    exact ⟨_, _, [], by rw [List.append_nil, hsplit], hp, hb, Or.inl rfl, fun _ => h⟩

/-- what a code string asks for, for the codes which do not change the path -/
def codeText (p n e : List Char) (i1 i2 : List Char) (ch : Char) : List Char :=
  if ch = 'p' then p else if ch = 'n' then n else if ch = 'e' then e else if ch = '1' then i1 else if ch = '2' then i2 else []

theorem fold_codes (n e : List Char) (i1 i2 : List Char) (code : List Char) (hcode : ∀ ch ∈ code, ch ≠ 'u' ∧ ch ≠ 'b')
    (p out : List Char) :
    code.reverse.foldlM (codeStep n e (some i1) (some i2)) (p, out) =
      .ok (p, code.flatMap (codeText p n e i1 i2) ++ out) := by
  have hstep : ∀ (ch : Char) (o : List Char), ch ≠ 'u' ∧ ch ≠ 'b' →
      codeStep n e (some i1) (some i2) (p, o) ch = .ok (p, codeText p n e i1 i2 ch ++ o) := by
    intro ch o h
    simp only [codeStep, codeText, h.1, h.2, or_self, if_false]
    split_ifs <;> simp
  rw [List.foldlM_reverse]
  induction code with
  | nil => rfl
  | cons ch code ih =>
    rw [List.foldrM_cons, ih (fun d hd => hcode d (by simp [hd]))]
    show codeStep n e (some i1) (some i2) (p, _) ch = _
    rw [hstep ch _ (hcode ch (by simp)), List.flatMap_cons, List.append_assoc]

/-- **C30.** For every file name without line feed: the parts are read off by the codes `p`, `n`, `e`; every other
combination of codes concatenates parts and inserts in the order of the code string; path, name and extension
reproduce the name; the extension is empty or a dot followed by 1..max word characters, and is empty only if the name
does not end in such an extension; the path is empty or ends in a character which cannot be part of a name; the name
consists of characters which can. -/
theorem C30_split (C : Classes) (m : ℕ) (hm : 1 ≤ m) (f : List Char) (hf : '\n' ∉ f) :
    ∃ p n e, p ++ n ++ e = f ∧
      (∀ code i1 i2, (∀ ch ∈ code, ch ≠ 'u' ∧ ch ≠ 'b') →
        filename C f code (some i1) (some i2) m = .ok (code.flatMap (codeText p n e i1 i2))) ∧
      (e = [] ∨ IsExt C m e) ∧ (e = [] → ∀ a b, a ++ b = f → ¬ IsExt C m b) ∧
      (p = [] ∨ ∃ c, p.getLast? = some c ∧ nameCh C c ≠ true) ∧ (∀ c ∈ n, nameCh C c = true) := by
  obtain ⟨p, n, e, rfl, hp, hn, he, hmax⟩ := exists_parts C m f
  obtain ⟨t, ht, h1, h2, h3⟩ := reName_search C m hm p n e hf hp hn he hmax
  refine ⟨p, n, e, rfl, ?_, he, ?_, hp, hn⟩
  · intro code i1 i2 hcode
    have := fold_codes n e i1 i2 code hcode p []
    simp only [filename, ht, h1, h2, h3, Option.getD_some, this, List.append_nil]
    rfl
  · rintro rfl a b hab hx
    rw [List.append_nil] at hab
    -- the extension would lie inside the name
    have hcase : p.length ≤ a.length := by
      by_contra hlt
      push Not at hlt
      rcases hp with rfl | ⟨c, hc, hcn⟩
      · simp at hlt
      · apply hcn
        apply hx.nameCh
        have hb : b = p.drop a.length ++ n := by
          have := congrArg (List.drop a.length) hab
          rwa [List.drop_left, List.drop_append_of_le_length hlt.le] at this
        rw [hb, List.mem_append]
        left
        rw [List.getLast?_eq_getElem?, List.getElem?_eq_some_iff] at hc
        obtain ⟨h1, h2⟩ := hc
        rw [← h2, List.mem_iff_getElem]
        exact ⟨p.length - 1 - a.length, by rw [List.length_drop]; omega, by rw [List.getElem_drop]; congr 1; omega⟩
    have hb : b = n.drop (a.length - p.length) := by
      have := congrArg (List.drop a.length) hab
      rwa [List.drop_left, List.drop_append, List.drop_eq_nil_of_le hcase, List.nil_append] at this
    rw [hb] at hx
    by_cases hk : a.length - p.length ≤ n.length
    · exact hmax rfl _ hk hx
    · rw [List.drop_eq_nil_of_le (by omega)] at hx
      obtain ⟨v, hv, _⟩ := hx
      simp at hv

/-- path separators -/
def isSep (c : Char) : Bool := c == '\\' || c == '/'

/-- the state after the separator at position `k`, with its two groups -/
def upSt (s : St) (k : ℕ) : St :=
  { s.adv (k + 1) with caps := (1, s.pre.length, s.rest.take (k + 1)) :: (2, s.pre.length + k, (s.rest.drop k).take 1) :: s.caps }

theorem reUp_run (s : St) : reUp.run s = (List.range (runLen (fun d => d != '\n') s.rest + 1)).reverse.flatMap (fun k =>
    if (s.rest[k]?).any isSep then (Re.grp 3 (.some1 .dot)).run (upSt s k) else []) := by
  rw [reUp, run_seq, run_grp, Re.dot, run_many_seq, List.map_flatMap, List.flatMap_assoc]
  apply List.flatMap_congr
  intro k hk
  have hk' : k ≤ s.rest.length := by
    have := runLen_le (fun d => d != '\n') s.rest; have := List.mem_range.1 (List.mem_reverse.1 hk); omega
  have hsep : (Re.alt (.lit '\\') (.lit '/')).run (s.adv k) =
      if (s.rest[k]?).any isSep then [s.adv (k + 1)] else [] := by
    rw [run_alt, Re.lit, Re.lit, run_chr_adv, run_chr_adv, adv_rest]
    cases hd : s.rest.drop k with
    | nil =>
      rw [List.getElem?_eq_none (by simpa [List.drop_eq_nil_iff] using hd)]
      rfl
    | cons c l =>
      have : s.rest[k]? = some c := by
        have := congrArg List.head? hd
        rwa [List.head?_drop, List.head?_cons] at this
      rw [this, adv_adv]
      by_cases h1 : c = '\\'
      · subst h1; simp [isSep]
      · by_cases h2 : c = '/'
        · subst h2; simp [isSep]
        · simp [isSep, h1, h2]
  rw [run_grp, hsep]
  by_cases h : (s.rest[k]?).any isSep = true
  · rw [if_pos h, if_pos h]
    simp only [List.map_cons, List.map_nil, List.flatMap_singleton]
    have hlt : k < s.rest.length := by
      by_contra hc
      rw [List.getElem?_eq_none (by omega)] at h
      simp at h
    have e1 : matched (s.adv k) (s.adv (k + 1)) = (s.rest.drop k).take 1 := by
      rw [← adv_adv, matched_adv _ _ (by simp; omega)]; rfl
    have e2 : matched s { s.adv (k + 1) with caps := (2, (s.adv k).pre.length, (s.rest.drop k).take 1) :: (s.adv (k + 1)).caps }
        = s.rest.take (k + 1) := by
      have := matched_adv s (k + 1) (by omega)
      simpa [matched] using this
    rw [e1, e2]
    congr 2
    simp only [upSt, adv_caps, adv_pre, List.length_append, List.length_reverse, List.length_take, Nat.min_eq_left hk']
    simp [Nat.add_comm]
  · rw [if_neg h, if_neg h]
    rfl

theorem dots_run (s : St) : (Re.grp 3 (.some1 .dot)).run s = [] ∨ s.rest ≠ [] := by
  by_cases h : s.rest = []
  · left
    rw [run_grp, Re.some1, run_seq, Re.dot, run_chr_adv, h]
    rfl
  · exact Or.inr h

theorem dots_head (s : St) (h : s.rest ≠ []) (hnl : '\n' ∉ s.rest) : ∃ t, ((Re.grp 3 (.some1 .dot)).run s).head? = some t ∧
    t.caps = (3, s.pre.length, s.rest) :: s.caps := by
  obtain ⟨pre, rest, caps⟩ := s
  cases rest with
  | nil => simp at h
  | cons c l =>
    have hc : (c != '\n') = true := by simp only [bne_iff_ne, ne_eq]; rintro rfl; exact hnl (by simp)
    have hl : runLen (fun d => d != '\n') l = l.length := by
      apply le_antisymm (runLen_le _ _)
      rw [runLen_eq_length_iff]
      intro d hd
      simp only [bne_iff_ne, ne_eq]; rintro rfl; exact hnl (by simp [hd])
    have hrun : ((Re.some1 .dot).run ⟨pre, c :: l, caps⟩).head? = some (St.adv ⟨pre, c :: l, caps⟩ (l.length + 1)) := by
      rw [Re.some1, run_seq, Re.dot, run_chr_cons, if_pos hc, List.flatMap_singleton, run_star_chr_greedy, List.head?_map,
        hl, List.range_succ, List.reverse_append]
      simp [St.adv]
    refine ⟨{ St.adv ⟨pre, c :: l, caps⟩ (l.length + 1) with caps := (3, pre.length, c :: l) :: caps }, ?_, rfl⟩
    rw [run_grp, List.head?_map, hrun, Option.map_some]
    simp only [adv_caps]
    rw [matched_adv _ _ (by simp)]
    simp

/-- the parent: everything up to the last separator which is not the final character -/
theorem reUp_search (u b : List Char) (c : Char) (hc : isSep c = true) (hb : b ≠ []) (hs : ∀ d ∈ b.dropLast, isSep d = false)
    (hnl : '\n' ∉ u ++ c :: b) :
    ∃ t, reUp.search (u ++ c :: b) = some (⟨[], u ++ c :: b, []⟩, t) ∧ t.group 1 = some (u ++ [c]) ∧ t.group 3 = some b := by
  have hrl : runLen (fun d => d != '\n') (u ++ c :: b) = (u ++ c :: b).length := by
    apply le_antisymm (runLen_le _ _)
    rw [runLen_eq_length_iff]
    intro d hd
    simp only [bne_iff_ne, ne_eq]; rintro rfl; exact hnl hd
  have hup : (upSt ⟨[], u ++ c :: b, []⟩ u.length).rest = b := by simp [upSt, adv_rest]
  obtain ⟨t, ht, hcaps⟩ := dots_head (upSt ⟨[], u ++ c :: b, []⟩ u.length) (by rw [hup]; exact hb)
    (by rw [hup]; intro h; exact hnl (by simp [h]))
  rw [hup] at hcaps
  have hhead : (reUp.run ⟨[], u ++ c :: b, []⟩).head? = some t := by
    rw [reUp_run, flatMap_head?, hrl]
    apply findSome?_range_reverse _ _ u.length _ (by simp; omega)
    · rw [if_pos (by simp [hc])]; exact ht
    · intro j hj hj'
      simp only [List.head?_eq_none_iff]
      split
      swap
      · rfl
      rename_i hsep
      rcases dots_run (upSt ⟨[], u ++ c :: b, []⟩ j) with h | h
      · exact h
      · exfalso
        have hlen : j + 1 < (u ++ c :: b).length := by
          by_contra hcon
          apply h
          simp only [upSt, adv_rest]
          rw [List.drop_eq_nil_of_le (by omega)]
        have hge : (u ++ c :: b)[j]? = b.dropLast[j - u.length - 1]? := by
          rw [List.getElem?_append_right (by omega), List.getElem?_dropLast]
          have : j - u.length = (j - u.length - 1) + 1 := by omega
          rw [this, List.getElem?_cons_succ]
          simp only [List.length_append, List.length_cons] at hlen
          rw [if_pos (by omega)]
          simp
        rw [hge] at hsep
        cases hq : b.dropLast[j - u.length - 1]? with
        | none => rw [hq] at hsep; simp at hsep
        | some d =>
          rw [hq, Option.any_some] at hsep
          rw [hs d (List.mem_of_getElem? hq)] at hsep
          exact absurd hsep (by decide)
  refine ⟨t, search_zero hhead, ?_, ?_⟩
  · have : (u ++ c :: b).take (u.length + 1) = u ++ [c] := by
      rw [show u ++ c :: b = (u ++ [c]) ++ b by simp, List.take_left' (by simp)]
    simp [St.group, hcaps, upSt, this]
  · simp [St.group, hcaps]

/-- no parent: no separator except possibly the final character -/
theorem reUp_search_none (p : List Char) (hs : ∀ d ∈ p.dropLast, isSep d = false) : reUp.search p = none := by
  apply searchFrom_none
  intro k hk
  rw [reUp_run, List.flatMap_eq_nil_iff]
  intro j hj
  split
  swap
  · rfl
  rename_i hsep
  rcases dots_run (upSt (St.adv ⟨[], p, []⟩ k) j) with h | h
  · exact h
  · exfalso
    simp only [upSt, adv_rest, List.drop_drop, ne_eq, List.drop_eq_nil_iff] at h
    simp only [adv_rest, List.getElem?_drop] at hsep
    have hge : p[k + j]? = p.dropLast[k + j]? := by
      rw [List.getElem?_dropLast, if_pos (by omega)]
    rw [hge] at hsep
    cases hq : p.dropLast[k + j]? with
    | none => rw [hq] at hsep; simp at hsep
    | some d =>
      rw [hq, Option.any_some, hs d (List.mem_of_getElem? hq)] at hsep
      exact absurd hsep (by decide)

/-- **C30, parents.** If the path part `p` has a separator before its final character, the codes `u` and `b` give the
part `u` up to the last such separator and the directory name `b` after it, and `pbne` reproduces the file name;
otherwise asking for a parent is an error. -/
theorem C30_parent (C : Classes) (m : ℕ) (hm : 1 ≤ m) (f p : List Char) (hf : '\n' ∉ f)
    (hp : filename C f ['p'] none none m = .ok p) :
    ((∃ d ∈ p.dropLast, isSep d = true) → ∃ u b, p = u ++ b ∧ b ≠ [] ∧ (∃ c, u.getLast? = some c ∧ isSep c = true) ∧
      (∀ d ∈ b.dropLast, isSep d = false) ∧ filename C f ['u'] none none m = .ok u ∧
      filename C f ['b'] none none m = .ok b ∧ filename C f ['p', 'b', 'n', 'e'] none none m = .ok f) ∧
    ((∀ d ∈ p.dropLast, isSep d = false) → filename C f ['u'] none none m = .error .type ∧
      filename C f ['b'] none none m = .error .type) := by
  obtain ⟨p', n, e, rfl, hp', hn, he, hmax⟩ := exists_parts C m f
  obtain ⟨t, ht, h1, h2, h3⟩ := reName_search C m hm p' n e hf hp' hn he hmax
  have : p' = p := by
    have : filename C (p' ++ n ++ e) ['p'] none none m = .ok (p' ++ []) := by
      simp only [filename, ht, h1, h2, h3, Option.getD_some, List.reverse_cons, List.reverse_nil, List.nil_append]
      rfl
    rw [this] at hp
    simpa using hp
  subst this
  constructor
  · intro hex
    -- the last separator which is not final
    have hsplit : ∃ u b c, p' = u ++ c :: b ∧ isSep c = true ∧ b ≠ [] ∧ ∀ d ∈ b.dropLast, isSep d = false := by
      have hne : p' ≠ [] := by rintro rfl; simp at hex
      obtain ⟨x, hx⟩ : ∃ x, p' = p'.dropLast ++ [x] := ⟨_, (List.dropLast_append_getLast hne).symm⟩
      have hd : p'.dropLast.rdropWhile (fun c => !isSep c) ≠ [] := by
        intro h0
        rw [List.rdropWhile_eq_nil_iff] at h0
        obtain ⟨d, hd, hd'⟩ := hex
        have := h0 d hd
        simp [hd'] at this
      have hs : p'.dropLast.rdropWhile (fun c => !isSep c) ++ p'.dropLast.rtakeWhile (fun c => !isSep c) = p'.dropLast := by
        rw [List.rdropWhile, List.rtakeWhile, ← List.reverse_append, List.takeWhile_append_dropWhile, List.reverse_reverse]
      have hl := List.rdropWhile_last_not (fun c => !isSep c) p'.dropLast hd
      refine ⟨(p'.dropLast.rdropWhile (fun c => !isSep c)).dropLast, p'.dropLast.rtakeWhile (fun c => !isSep c) ++ [x],
        (p'.dropLast.rdropWhile (fun c => !isSep c)).getLast hd, ?_, by simpa using hl, by simp, ?_⟩
      · rw [← List.singleton_append (l := _ ++ [x]), ← List.append_assoc, List.dropLast_append_getLast, ← List.append_assoc, hs]
        exact hx
      · intro d hd
        rw [List.dropLast_concat] at hd
        simpa using List.mem_rtakeWhile_imp hd
    obtain ⟨u, b, c, hpe, hc, hb, hs⟩ := hsplit
    have hnl : '\n' ∉ u ++ c :: b := by rw [← hpe]; intro h; exact hf (by simp [h])
    obtain ⟨t', ht', g1, g3⟩ := reUp_search u b c hc hb hs hnl
    rw [← hpe] at ht'
    refine ⟨u ++ [c], b, by simp [hpe], hb, ⟨c, by simp, hc⟩, hs, ?_, ?_, ?_⟩
    · simp only [filename, ht, h1, h2, h3, Option.getD_some, List.reverse_cons, List.reverse_nil, List.nil_append]
      have : codeStep n e none none (p', []) 'u' = .ok (u ++ [c], u ++ [c]) := by
        simp [codeStep, ht', g1, g3]
      simp only [List.foldlM_cons, List.foldlM_nil, this]
      rfl
    · simp only [filename, ht, h1, h2, h3, Option.getD_some, List.reverse_cons, List.reverse_nil, List.nil_append]
      have : codeStep n e none none (p', []) 'b' = .ok (u ++ [c], b) := by
        simp [codeStep, ht', g1, g3]
      simp only [List.foldlM_cons, List.foldlM_nil, this]
      rfl
    · simp only [filename, ht, h1, h2, h3, Option.getD_some, List.reverse_cons, List.reverse_nil, List.nil_append, List.cons_append]
      have e1 : codeStep n e none none (p', []) 'e' = .ok (p', e) := by simp [codeStep]
      have e2 : codeStep n e none none (p', e) 'n' = .ok (p', n ++ e) := by simp [codeStep]
      have e3 : codeStep n e none none (p', n ++ e) 'b' = .ok (u ++ [c], b ++ (n ++ e)) := by
        simp [codeStep, ht', g1, g3]
      have e4 : codeStep n e none none (u ++ [c], b ++ (n ++ e)) 'p' = .ok (u ++ [c], u ++ [c] ++ (b ++ (n ++ e))) := by
        simp [codeStep]
      have : List.foldlM (codeStep n e none none) (p', []) ['e', 'n', 'b', 'p'] = .ok (u ++ [c], u ++ [c] ++ (b ++ (n ++ e))) := by
        simp only [List.foldlM_cons, List.foldlM_nil, e1]
        show (do let s ← codeStep n e none none (p', e) 'n'; _) = _
        rw [e2]
        show (do let s ← codeStep n e none none (p', n ++ e) 'b'; _) = _
        rw [e3]
        show (do let s ← codeStep n e none none (u ++ [c], b ++ (n ++ e)) 'p'; _) = _
        rw [e4]
        rfl
      rw [this]
      show Except.ok _ = _
      simp [hpe]
  · intro hs
    have hnone := reUp_search_none p' hs
    constructor <;>
    · simp only [filename, ht, h1, h2, h3, Option.getD_some, List.reverse_cons, List.reverse_nil, List.nil_append,
        List.foldlM_cons, codeStep, hnone]
      rfl

/-- **C72, partial: base names of ordinary characters.** If a file name consists of a directory part (empty or ending
in a separator) and a base name made only of letters, digits, and `_ . , = -` and blanks, the path is the directory
part and name and extension are the base name. -/
theorem C72_base_name_partial (C : Classes) (m : ℕ) (hm : 1 ≤ m) (d b : List Char) (hnl : '\n' ∉ d ++ b)
    (hd : d = [] ∨ ∃ c, d.getLast? = some c ∧ isSep c = true) (hb : ∀ c ∈ b, nameCh C c = true) :
    filename C (d ++ b) ['p'] none none m = .ok d ∧ filename C (d ++ b) ['n', 'e'] none none m = .ok b := by
  have hsepn : ∀ c, isSep c = true → nameCh C c ≠ true := by
    intro c hc
    simp only [isSep, Bool.or_eq_true, beq_iff_eq] at hc
    rcases hc with rfl | rfl
    · have : C.word '\\' = false := by rw [C.word_ascii _ (by decide)]; decide
      simp [nameCh, this]
    · have : C.word '/' = false := by rw [C.word_ascii _ (by decide)]; decide
      simp [nameCh, this]
  have hd' : d = [] ∨ ∃ c, d.getLast? = some c ∧ nameCh C c ≠ true := by
    rcases hd with h | ⟨c, h1, h2⟩
    · exact Or.inl h
    · exact Or.inr ⟨c, h1, hsepn c h2⟩
  obtain ⟨n, e, rfl, hn, he, hmax⟩ : ∃ n e, b = n ++ e ∧ (∀ c ∈ n, nameCh C c = true) ∧ (e = [] ∨ IsExt C m e) ∧
      (e = [] → ∀ k ≤ n.length, ¬ IsExt C m (n.drop k)) := by
    by_cases h : ∃ k ≤ b.length, IsExt C m (b.drop k)
    · obtain ⟨k, hk, hx⟩ := h
      refine ⟨b.take k, b.drop k, (List.take_append_drop k b).symm, fun c hc => hb c (List.mem_of_mem_take hc), Or.inr hx, ?_⟩
      intro h0
      obtain ⟨v, hv, _⟩ := hx
      rw [h0] at hv; simp at hv
    · push Not at h
      exact ⟨b, [], by simp, hb, Or.inl rfl, fun _ => h⟩
  rw [← List.append_assoc] at hnl ⊢
  obtain ⟨t, ht, h1, h2, h3⟩ := reName_search C m hm d n e hnl hd' hn he hmax
  constructor
  · simp only [filename, ht, h1, h2, h3, Option.getD_some, List.reverse_cons, List.reverse_nil, List.nil_append]
    show Except.ok (d ++ []) = _
    simp
  · simp only [filename, ht, h1, h2, h3, Option.getD_some, List.reverse_cons, List.reverse_nil, List.nil_append]
    show Except.ok (n ++ (e ++ [])) = _
    simp

/-- **C72 is false in general**: of a base name with a bracket, everything up to the bracket counts as path. -/
theorem C72_bracket_counterexample : filename .ascii "data/site(1).diam".toList ['p'] none none 4 = .ok "data/site(1)".toList ∧
    filename .ascii "data/site(1).diam".toList ['n'] none none 4 = .ok [] := by
  constructor <;> decide +kernel

/-- **C72 is false for lists** with a longer maximal extension: the limit is not handed on. -/
theorem C72_list_counterexample :
    filename .ascii "a.geojson".toList ['e'] none none 8 = .ok ".geojson".toList ∧
    filenameList .ascii ["a.geojson".toList] ['e'] none none 8 = .ok [[]] := by
  constructor <;> decide +kernel

/-- a directory, a name with dots and an extension; and a name with an insert -/
example : filename .ascii "d:\\tmp\\nd.l3_he330.tif".toList "pn1e".toList (some "_en".toList) none 4 =
    .ok "d:\\tmp\\nd.l3_he330_en.tif".toList := by decide +kernel

/-- the hypotheses of the base name theorem: a path with blanks and dots -/
example : ("my data/".toList = [] ∨ ∃ c, "my data/".toList.getLast? = some c ∧ isSep c = true) ∧
    (∀ c ∈ "crater count, v1.2.diam".toList, nameCh .ascii c = true) ∧
    filename .ascii ("my data/".toList ++ "crater count, v1.2.diam".toList) ['n'] none none 4 = .ok "crater count, v1.2".toList := by
  refine ⟨Or.inr ⟨'/', by decide, by decide⟩, by decide, by decide +kernel⟩

/-- a path with a parent directory -/
example : filename .ascii "d:\\tmp\\a.txt".toList ['p'] none none 4 = .ok "d:\\tmp\\".toList ∧
    (∃ d ∈ "d:\\tmp\\".toList.dropLast, isSep d = true) ∧
    filename .ascii "d:\\tmp\\a.txt".toList ['b'] none none 4 = .ok "tmp\\".toList := by
  refine ⟨by decide +kernel, by decide, by decide +kernel⟩

end Verif.Props
