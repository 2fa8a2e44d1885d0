import Verif.Model.Selection
import Verif.Py.Str
import Mathlib.Data.Nat.Digits.Defs

/-! Property C43: bin selection lists. -/

namespace Verif.Props

open Verif.Py Verif.Text

/-- Specification: the value of a field of the selection list - blanks around it are ignored, then an optional sign and
at least one digit; anything else is not an integer. -/
def fieldVal (C : Classes) (fld : List Char) : Option ℤ :=
  let num (ds : List Char) : Option ℤ := if ds ≠ [] ∧ ∀ c ∈ ds, C.digit c = true then some ((Nat.ofDigits 10 (ds.map C.dval).reverse : ℕ) : ℤ) else none
  match strip C.space fld with
  | '+' :: ds => num ds
  | '-' :: ds => (num ds).map Neg.neg
  | ds => num ds

theorem digitsVal_eq (C : Classes) (ds : List Char) : digitsVal C ds = Nat.ofDigits 10 (ds.map C.dval).reverse := by
  induction ds using List.reverseRecOn with
  | nil => rfl
  | append_singleton ds c ih =>
    rw [digitsVal, List.foldl_append, ← digitsVal, ih]
    simp [Nat.ofDigits_cons]
    omega

theorem digit_sign (C : Classes) : C.digit '+' = false ∧ C.digit '-' = false ∧ C.digit ',' = false ∧
    C.space '+' = false ∧ C.space '-' = false ∧ C.space ',' = false ∧ C.space '\n' = true := by
  refine ⟨?_, ?_, ?_, ?_, ?_, ?_, ?_⟩
  · rw [C.digit_ascii _ (by decide)]; decide
  · rw [C.digit_ascii _ (by decide)]; decide
  · rw [C.digit_ascii _ (by decide)]; decide
  · rw [C.space_ascii _ (by decide)]; decide
  · rw [C.space_ascii _ (by decide)]; decide
  · rw [C.space_ascii _ (by decide)]; decide
  · rw [C.space_ascii _ (by decide)]; decide

/-- a signed number -/
def IsNum (C : Classes) (w : List Char) : Prop :=
  ∃ sg ds, w = sg ++ ds ∧ (sg = [] ∨ sg = ['+'] ∨ sg = ['-']) ∧ ds ≠ [] ∧ ∀ c ∈ ds, C.digit c = true

theorem digit_not_space (C : Classes) {c : Char} (h : C.digit c = true) : C.space c = false := by
  by_contra hc
  have h1 := C.space_word c (by simpa using hc)
  rw [C.digit_word c h] at h1
  exact absurd h1 (by decide)

theorem IsNum.ends {C : Classes} {w : List Char} (h : IsNum C w) :
    (∀ c ∈ w.head?, C.space c = false) ∧ (∀ c ∈ w.getLast?, C.space c = false) ∧ w ≠ [] ∧ ',' ∉ w := by
  obtain ⟨sg, ds, rfl, hsg, hne, hd⟩ := h
  obtain ⟨d1, d2, d3, s1, s2, s3, s4⟩ := digit_sign C
  have hlast : ∀ c ∈ (sg ++ ds).getLast?, C.space c = false := by
    intro c hc
    rw [List.getLast?_append_of_ne_nil _ hne] at hc
    exact digit_not_space C (hd c (List.mem_of_getLast? hc))
  have hcomma : ',' ∉ ds := fun hc => by have := hd _ hc; rw [d3] at this; exact absurd this (by decide)
  rcases hsg with rfl | rfl | rfl
  · refine ⟨?_, hlast, by simpa using hne, by simpa using hcomma⟩
    intro c hc
    exact digit_not_space C (hd c (List.mem_of_mem_head? hc))
  · refine ⟨by simpa using s1, hlast, by simp, by simpa using hcomma⟩
  · refine ⟨by simpa using s2, hlast, by simp, by simpa using hcomma⟩

/-- the specification in terms of a decomposition of the field -/
theorem fieldVal_of_num {C : Classes} {a w b : List Char} (ha : ∀ c ∈ a, C.space c = true) (hb : ∀ c ∈ b, C.space c = true)
    (hw : IsNum C w) : fieldVal C (a ++ w ++ b) = some (intOf C w) := by
  obtain ⟨h1, h2, _, _⟩ := hw.ends
  obtain ⟨d1, d2, d3, _⟩ := digit_sign C
  obtain ⟨sg, ds, rfl, hsg, hne, hd⟩ := hw
  simp only [fieldVal]
  rw [strip_eq ha hb h1 h2]
  rcases hsg with rfl | rfl | rfl
  · cases ds with
    | nil => exact absurd rfl hne
    | cons c ds =>
      have hc := hd c (by simp)
      have hp : c ≠ '+' := by rintro rfl; rw [d1] at hc; exact absurd hc (by decide)
      have hm : c ≠ '-' := by rintro rfl; rw [d2] at hc; exact absurd hc (by decide)
      have hd' : ∀ a ∈ ds, C.digit a = true := fun a ha => hd a (by simp [ha])
      simp [intOf, hp, hm, hc, digitsVal_eq]
      exact hd'
  · simp [intOf, hne, digitsVal_eq]
    exact hd
  · simp [intOf, hne, digitsVal_eq]
    exact hd

theorem fieldVal_none {C : Classes} {fld : List Char} (h : fieldVal C fld = none) (a w b : List Char)
    (ha : ∀ c ∈ a, C.space c = true) (hb : ∀ c ∈ b, C.space c = true) (hw : IsNum C w) : fld ≠ a ++ w ++ b := by
  rintro rfl
  rw [fieldVal_of_num ha hb hw] at h
  exact absurd h (by simp)

theorem fieldVal_some {C : Classes} {fld : List Char} {v : ℤ} (h : fieldVal C fld = some v) : ∃ a w b, fld = a ++ w ++ b ∧
    (∀ c ∈ a, C.space c = true) ∧ (∀ c ∈ b, C.space c = true) ∧ IsNum C w := by
  obtain ⟨a, b, he, ha, hb⟩ := strip_decomp C.space fld
  refine ⟨a, _, b, he, ha, hb, ?_⟩
  simp only [fieldVal] at h
  split at h
  · rename_i ds hs
    rw [hs]
    split at h
    · rename_i hc; exact ⟨['+'], ds, rfl, by simp, hc.1, hc.2⟩
    · simp at h
  · rename_i ds hs
    rw [hs]
    split at h
    · rename_i hc; exact ⟨['-'], ds, rfl, by simp, hc.1, hc.2⟩
    · simp at h
  · split at h
    · rename_i hc; exact ⟨[], _, rfl, by simp, hc.1, hc.2⟩
    · simp at h

/-- the part of the pattern after the separator -/
def reField (C : Classes) : Re :=
  .seq (.many (.chr C.space))
    (.seq (.grp 1 (.seq (.opt (.chr (fun c => c == '+' || c == '-'))) (.some1 (.chr C.digit))))
      (.seq (.many (.chr C.space)) (.look (.alt (.lit ',') (.eol false)))))

/-- rest of the string after a field -/
def IsTail (tl : List Char) : Prop := tl = [] ∨ ∃ l, tl = ',' :: l

theorem runLen_stop {p : Char → Bool} {a b : List Char} (ha : ∀ c ∈ a, p c = true) (hb : ∀ c ∈ b.head?, p c = false) :
    runLen p (a ++ b) = a.length := by
  rw [runLen_append ha]
  cases b with
  | nil => simp [runLen]
  | cons c b => rw [runLen_cons_neg (by rw [hb c (by simp)]; simp)]; simp

theorem reNum_head (C : Classes) (s : St) (w r : List Char) (hs : s.rest = w ++ r) (hw : IsNum C w)
    (hr : ∀ c ∈ r.head?, C.digit c = false) :
    ((Re.grp 1 (.seq (.opt (.chr (fun c => c == '+' || c == '-'))) (.some1 (.chr C.digit)))).run s).head? =
      some (s.cap 1 w.length) := by
  obtain ⟨sg, ds, rfl, hsg, hne, hd⟩ := hw
  obtain ⟨d1, d2, d3, _⟩ := digit_sign C
  have h1 : ((Re.opt (.chr (fun c => c == '+' || c == '-'))).run s).head? = some (s.adv sg.length) := by
    rw [opt_head, run_chr_adv, hs]
    rcases hsg with rfl | rfl | rfl
    · cases ds with
      | nil => exact absurd rfl hne
      | cons c ds =>
        have hc := hd c (by simp)
        have hp : c ≠ '+' := by rintro rfl; rw [d1] at hc; exact absurd hc (by decide)
        have hm : c ≠ '-' := by rintro rfl; rw [d2] at hc; exact absurd hc (by decide)
        simp [hp, hm]
    · simp
    · simp
  have h2 : ((Re.some1 (.chr C.digit)).run (s.adv sg.length)).head? = some ((s.adv sg.length).adv ds.length) := by
    have hrest : (s.adv sg.length).rest = ds ++ r := by simp [hs, List.append_assoc]
    cases hds : ds with
    | nil => exact absurd hds hne
    | cons c l =>
      rw [some1_head C.digit _ c (l ++ r) (by rw [hrest, hds]; rfl) (hd c (by simp [hds])), hrest, runLen_stop hd hr, hds]
  have h3 := seq_head h1 h2
  rw [run_grp, List.head?_map, h3, Option.map_some, adv_adv, matched_adv _ _ (by rw [hs]; simp)]
  simp [St.cap, St.adv]

/-- an integer field matches as a whole -/
theorem reField_head (C : Classes) (s : St) (a w b tl : List Char) (hs : s.rest = a ++ w ++ b ++ tl)
    (ha : ∀ c ∈ a, C.space c = true) (hb : ∀ c ∈ b, C.space c = true) (hw : IsNum C w) (ht : IsTail tl) :
    ∃ t, ((reField C).run s).head? = some t ∧ t.group 1 = some w ∧ t.rest = tl ∧
      t.pre = (a ++ w ++ b).reverse ++ s.pre := by
  obtain ⟨h1, h2, hne, _⟩ := hw.ends
  obtain ⟨d1, d2, d3, s1, s2, s3, s4⟩ := digit_sign C
  have e1 : ((Re.many (.chr C.space)).run s).head? = some (s.adv a.length) := by
    rw [many_head, hs, List.append_assoc, List.append_assoc, runLen_stop ha]
    intro c hc
    apply h1
    rwa [List.head?_append_of_ne_nil _ hne] at hc
  have r1 : (s.adv a.length).rest = w ++ (b ++ tl) := by simp [hs, List.append_assoc]
  have htd : ∀ c ∈ (b ++ tl).head?, C.digit c = false := by
    intro c hc
    cases b with
    | nil =>
      rcases ht with rfl | ⟨l, rfl⟩
      · simp at hc
      · simp at hc; subst hc; exact d3
    | cons d b =>
      simp at hc; subst hc
      by_contra hcon
      have := digit_not_space C (c := d) (by simpa using hcon)
      rw [hb d (by simp)] at this
      exact absurd this (by decide)
  have e2 := reNum_head C (s.adv a.length) w (b ++ tl) r1 hw htd
  have r2 : ((s.adv a.length).cap 1 w.length).rest = b ++ tl := by rw [cap_rest, r1, List.drop_left]
  have e3 : ((Re.many (.chr C.space)).run ((s.adv a.length).cap 1 w.length)).head? =
      some (((s.adv a.length).cap 1 w.length).adv b.length) := by
    rw [many_head, r2, runLen_stop hb]
    intro c hc
    rcases ht with rfl | ⟨l, rfl⟩
    · simp at hc
    · simp at hc; subst hc; exact s3
  have r3 : (((s.adv a.length).cap 1 w.length).adv b.length).rest = tl := by rw [adv_rest, r2, List.drop_left]
  have e4 : ((Re.look (.alt (.lit ',') (.eol false))).run (((s.adv a.length).cap 1 w.length).adv b.length)).head? =
      some (((s.adv a.length).cap 1 w.length).adv b.length) := by
    have hn : (Re.alt (.lit ',') (.eol false)).run (((s.adv a.length).cap 1 w.length).adv b.length) ≠ [] := by
      rw [run_alt]
      rcases ht with rfl | ⟨l, rfl⟩
      · rw [run_eol_false _ (by rw [r3]; simp), if_pos r3]; simp
      · rw [Re.lit, run_chr_adv, r3]; simp
    have : (Re.look (.alt (.lit ',') (.eol false))).run (((s.adv a.length).cap 1 w.length).adv b.length) =
        [((s.adv a.length).cap 1 w.length).adv b.length] := by
      show (if _ then _ else _) = _
      rw [if_neg]
      simpa [List.isEmpty_iff] using hn
    rw [this]; rfl
  refine ⟨_, seq_head e1 (seq_head e2 (seq_head e3 e4)), ?_, r3, ?_⟩
  · simp only [St.group, adv_caps, cap_caps, r1, List.take_left]
    simp
  · rw [adv_pre, r2, List.take_left]
    simp [St.cap, r1, St.adv, hs]

/-- a field which is not an integer does not match -/
theorem reField_none (C : Classes) (s : St) (fld tl : List Char) (hs : s.rest = fld ++ tl) (hc : ',' ∉ fld)
    (ht : IsTail tl) (hv : fieldVal C fld = none) : (reField C).run s = [] := by
  obtain ⟨d1, d2, d3, s1, s2, s3, s4⟩ := digit_sign C
  rw [List.eq_nil_iff_forall_not_mem]
  intro t h
  rw [reField, run_seq, List.mem_flatMap] at h
  obtain ⟨u1, h1, h⟩ := h
  rw [run_seq, List.mem_flatMap] at h
  obtain ⟨u2, h2, h⟩ := h
  rw [run_seq, List.mem_flatMap] at h
  obtain ⟨u3, h3, h⟩ := h
  obtain ⟨a, a1, _, _, ha⟩ := mem_many h1
  obtain ⟨b, b1, _, _, hb⟩ := mem_many h3
  rw [run_grp, List.mem_map] at h2
  obtain ⟨u4, h4, rfl⟩ := h2
  rw [run_seq, List.mem_flatMap] at h4
  obtain ⟨u5, h5, h6⟩ := h4
  obtain ⟨ds, hne, c1, _, _, hd⟩ := mem_some1 h6
  -- the number
  obtain ⟨sg, hsg, hu5⟩ : ∃ sg, (sg = [] ∨ sg = ['+'] ∨ sg = ['-']) ∧ u1.rest = sg ++ u5.rest := by
    rcases mem_opt h5 with h | rfl
    · obtain ⟨c, e, _, _, hcc⟩ := mem_chr h
      simp only [Bool.or_eq_true, beq_iff_eq] at hcc
      refine ⟨[c], ?_, by rw [e]; rfl⟩
      rcases hcc with rfl | rfl <;> simp
    · exact ⟨[], Or.inl rfl, rfl⟩
  have hw : IsNum C (sg ++ ds) := ⟨sg, ds, rfl, hsg, hne, hd⟩
  have hall : fld ++ tl = a ++ (sg ++ ds) ++ b ++ u3.rest := by
    rw [← hs, a1, hu5, c1]
    simp only at b1
    rw [b1]; simp
  have hnoc : ',' ∉ a ++ (sg ++ ds) ++ b := by
    obtain ⟨_, _, _, hn⟩ := hw.ends
    rw [List.mem_append, List.mem_append, not_or, not_or]
    refine ⟨⟨?_, hn⟩, ?_⟩
    · intro hx; have := ha _ hx; rw [s3] at this; exact absurd this (by decide)
    · intro hx; have := hb _ hx; rw [s3] at this; exact absurd this (by decide)
  -- the end of the match
  have hlook : (Re.alt (.lit ',') (.eol false)).run u3 ≠ [] := by
    intro h0
    have : (Re.look (.alt (.lit ',') (.eol false))).run u3 = [] := by
      show (if _ then _ else _) = _
      rw [h0]; rfl
    rw [this] at h
    simp at h
  have hend : (∃ l, u3.rest = ',' :: l) ∨ u3.rest = [] ∨ u3.rest = ['\n'] := by
    rw [run_alt, Re.lit, run_chr_adv] at hlook
    cases hr : u3.rest with
    | nil => simp
    | cons c l =>
      by_cases hcc : c = ','
      · left; exact ⟨l, by rw [hcc]⟩
      · right; right
        rw [hr] at hlook
        simp only [beq_iff_eq, hcc, if_false, List.nil_append, ne_eq] at hlook
        have : ¬ (Re.eol false).run u3 = [] := hlook
        simp only [Re.run, hr] at this
        split at this
        · rename_i hx
          simp only [Bool.false_or, Bool.and_eq_true, beq_iff_eq, List.isEmpty_iff] at hx
          rw [hx.1, hx.2]
        · simp at this
  rcases hend with ⟨l, hl⟩ | hl | hl
  · -- up to the same comma
    have : fld = a ++ (sg ++ ds) ++ b := by
      rw [hl] at hall
      rcases ht with rfl | ⟨l', rfl⟩
      · exfalso
        apply hc
        rw [List.append_nil] at hall
        rw [hall]; simp
      · have h1 := split_append hc l'
        rw [hall, split_append hnoc l] at h1
        exact (List.cons.inj h1).1.symm
    exact fieldVal_none hv _ _ _ ha hb hw this
  · have : fld = a ++ (sg ++ ds) ++ b := by
      rw [hl, List.append_nil] at hall
      rcases ht with rfl | ⟨l', rfl⟩
      · simpa using hall
      · exfalso; apply hnoc; rw [← hall]; simp
    exact fieldVal_none hv _ _ _ ha hb hw this
  · have : fld = a ++ (sg ++ ds) ++ (b ++ ['\n']) := by
      rw [hl] at hall
      rcases ht with rfl | ⟨l', rfl⟩
      · simpa using hall
      · exfalso
        have : ',' ∈ a ++ (sg ++ ds) ++ b ++ ['\n'] := by rw [← hall]; simp
        rw [List.mem_append] at this
        rcases this with h | h
        · exact hnoc h
        · simp at h
    refine fieldVal_none hv _ _ _ ha ?_ hw this
    intro c hcc
    rcases List.mem_append.1 hcc with h | h
    · exact hb c h
    · rw [List.mem_singleton] at h; subst h; exact s4

theorem reSel_eq (C : Classes) : reSel C = .seq (.alt (.bol false) (.lit ',')) (reField C) := rfl

/-- nothing matches in the middle of a field -/
theorem reSel_mid (C : Classes) (pre : List Char) (hp : pre ≠ []) (rest : List Char) (hr : ∀ c ∈ rest.head?, c ≠ ',')
    (caps) : (reSel C).run ⟨pre, rest, caps⟩ = [] := by
  rw [reSel_eq, run_seq, run_alt]
  have h1 : (Re.bol false).run ⟨pre, rest, caps⟩ = [] := by
    cases pre with
    | nil => exact absurd rfl hp
    | cons c l => simp [Re.run]
  have h2 : (Re.lit ',').run ⟨pre, rest, caps⟩ = [] := by
    cases rest with
    | nil => rfl
    | cons c l => rw [Re.lit, run_chr_cons, if_neg]; simpa using hr c (by simp)
  rw [h1, h2]; rfl

/-- at a comma the next field decides -/
theorem reSel_comma (C : Classes) (pre l : List Char) : (reSel C).run ⟨pre, ',' :: l, []⟩ =
    (reField C).run ⟨',' :: pre, l, []⟩ := by
  have h2 : (Re.lit ',').run ⟨pre, ',' :: l, []⟩ = [⟨',' :: pre, l, []⟩] := by
    rw [Re.lit, run_chr_cons, if_pos (by simp)]
  rw [reSel_eq, run_seq, run_alt, h2, List.flatMap_append, List.flatMap_singleton]
  cases pre with
  | cons c q =>
    have : (Re.bol false).run ⟨c :: q, ',' :: l, []⟩ = [] := by simp [Re.run]
    rw [this]; rfl
  | nil =>
    have : (Re.bol false).run ⟨[], ',' :: l, []⟩ = [⟨[], ',' :: l, []⟩] := rfl
    rw [this, List.flatMap_singleton, reField_none C _ [] (',' :: l) rfl (by simp) (Or.inr ⟨l, rfl⟩)]
    · rfl
    · simp [fieldVal, strip, lstrip, rstrip]

/-- skipping the rest of a field -/
theorem searchFrom_skip (C : Classes) (g tl : List Char) (hg : ',' ∉ g) : ∀ pre, pre ≠ [] →
    (reSel C).searchFrom pre (g ++ tl) = (reSel C).searchFrom (g.reverse ++ pre) tl := by
  induction g with
  | nil => intro pre _; rfl
  | cons c g ih =>
    intro pre hp
    rw [List.cons_append, Re.searchFrom, reSel_mid C pre hp (c :: (g ++ tl)) (by
      intro d hd; simp at hd; subst hd; rintro rfl; simp at hg)]
    simp only [List.head?_nil]
    rw [ih (fun h => hg (by simp [h])) _ (by simp)]
    simp

/-- the texts found from a position at which the next field starts -/
def found (C : Classes) (fuel : ℕ) (pre rest : List Char) : List ℤ :=
  ((reSel C).findIter fuel pre rest).map (fun m => intOf C ((m.2.group 1).getD []))

theorem commas_length (fs : List (List Char)) (f : List Char) :
    ((f :: fs).flatMap (',' :: ·)).length = f.length + 1 + (fs.flatMap (',' :: ·)).length := by
  simp; omega

theorem isTail_commas (fs : List (List Char)) : IsTail (fs.flatMap (',' :: ·)) := by
  cases fs with
  | nil => exact Or.inl rfl
  | cons f fs => exact Or.inr ⟨f ++ fs.flatMap (',' :: ·), by simp⟩

/-- the search from a comma on -/
theorem searchFrom_commas (C : Classes) (fs : List (List Char)) (hfs : ∀ f ∈ fs, ',' ∉ f) : ∀ pre,
    (fs.filterMap (fieldVal C) = [] → ∀ hp : pre ≠ [], (reSel C).searchFrom pre (fs.flatMap (',' :: ·)) = none) ∧
    (∀ v vs, fs.filterMap (fieldVal C) = v :: vs → ∃ (s t : St) (gs : List (List Char)), (reSel C).searchFrom pre (fs.flatMap (',' :: ·)) = some (s, t) ∧
      intOf C ((t.group 1).getD []) = v ∧ t.rest = gs.flatMap (',' :: ·) ∧ gs.filterMap (fieldVal C) = vs ∧
      (∀ f ∈ gs, ',' ∉ f) ∧ t.pre ≠ [] ∧ t.rest.length < s.rest.length ∧ s.rest.length ≤ (fs.flatMap (',' :: ·)).length) := by
  induction fs with
  | nil =>
    intro pre
    refine ⟨?_, by simp⟩
    intro _ hp
    simp only [List.flatMap_nil, Re.searchFrom]
    rw [reSel_mid C pre hp [] (by simp)]
    rfl
  | cons f fs ih =>
    intro pre
    have htl := isTail_commas fs
    have hf := hfs f (by simp)
    have hstr : (f :: fs).flatMap (',' :: ·) = ',' :: (f ++ fs.flatMap (',' :: ·)) := by simp
    cases hv : fieldVal C f with
    | none =>
      have hskip : (reSel C).searchFrom pre ((f :: fs).flatMap (',' :: ·)) =
          (reSel C).searchFrom (f.reverse ++ ',' :: pre) (fs.flatMap (',' :: ·)) := by
        rw [hstr, Re.searchFrom, reSel_comma, reField_none C _ f _ rfl hf htl hv]
        simp only [List.head?_nil]
        exact searchFrom_skip C f _ hf _ (by simp)
      obtain ⟨i1, i2⟩ := ih (fun g hg => hfs g (by simp [hg])) (f.reverse ++ ',' :: pre)
      rw [hskip, List.filterMap_cons_none hv]
      refine ⟨fun h _ => i1 h (by simp), ?_⟩
      intro v vs h
      obtain ⟨s, t, gs, h1, h2, h3, h4, h5, h6, h7, h8⟩ := i2 v vs h
      exact ⟨s, t, gs, h1, h2, h3, h4, h5, h6, h7, by rw [commas_length]; omega⟩
    | some w =>
      rw [List.filterMap_cons_some hv]
      refine ⟨by simp, ?_⟩
      intro v vs h
      obtain ⟨h0, h0'⟩ := List.cons.inj h
      subst h0
      obtain ⟨a, x, b, hfe, ha, hb, hx⟩ := fieldVal_some hv
      obtain ⟨t, ht, hg, hr, hpre⟩ := reField_head C ⟨',' :: pre, f ++ fs.flatMap (',' :: ·), []⟩ a x b _ (by rw [hfe]) ha hb hx htl
      refine ⟨⟨pre, (f :: fs).flatMap (',' :: ·), []⟩, t, fs, ?_, ?_, hr, h0', fun g hg => hfs g (by simp [hg]), ?_, ?_, le_rfl⟩
      · rw [hstr, Re.searchFrom, reSel_comma, ht]
      · rw [hg, Option.getD_some]
        have := fieldVal_of_num ha hb hx
        rw [← hfe, hv] at this
        exact (Option.some.inj this).symm
      · rw [hpre]; simp
      · rw [hr, commas_length]; omega

theorem found_commas (C : Classes) : ∀ (fuel : ℕ) (fs : List (List Char)) (pre : List Char), (∀ f ∈ fs, ',' ∉ f) → pre ≠ [] →
    (fs.flatMap (',' :: ·)).length < fuel → found C fuel pre (fs.flatMap (',' :: ·)) = fs.filterMap (fieldVal C) := by
  intro fuel
  induction fuel with
  | zero => intro fs pre _ _ h; omega
  | succ fuel ih =>
    intro fs pre hfs hp hl
    obtain ⟨i1, i2⟩ := searchFrom_commas C fs hfs pre
    cases hv : fs.filterMap (fieldVal C) with
    | nil =>
      rw [found, Re.findIter, i1 hv hp]; rfl
    | cons v vs =>
      obtain ⟨s, t, gs, h1, h2, h3, h4, h5, h6, h7, h8⟩ := i2 v vs hv
      rw [found, Re.findIter, h1]
      simp only
      rw [if_pos h7, List.map_cons, h2, h3]
      have := ih gs t.pre h5 h6 (by rw [h3] at h7; omega)
      rw [found] at this
      rw [this, h4]

/-- **C43.** An absent or empty selection means no selection.  Any other string yields the ascending list of exactly the
values of those comma separated fields which are integers (with multiplicity), other fields being ignored. -/
theorem C43_selection (C : Classes) : raDecodeSelection C none = none ∧ raDecodeSelection C (some []) = none ∧
    ∀ s ≠ [], ∃ l, raDecodeSelection C (some s) = some l ∧ l.Pairwise (· ≤ ·) ∧
      l.Perm ((split ',' s).filterMap (fieldVal C)) := by
  refine ⟨rfl, rfl, ?_⟩
  intro s hs
  have hfound : ((reSel C).findAll s).map (fun m => intOf C ((m.2.group 1).getD [])) = (split ',' s).filterMap (fieldVal C) := by
    have hj := join_split ',' s
    have hn := split_not_mem ',' s
    cases hsp : split ',' s with
    | nil => exact absurd hsp (split_ne_nil _ _)
    | cons f fs =>
      rw [hsp] at hj hn
      rw [join_cons] at hj
      have hj' : s = f ++ fs.flatMap (',' :: ·) := by rw [← hj]; rfl
      have hf := hn f (by simp)
      have hfs : ∀ g ∈ fs, ',' ∉ g := fun g hg => hn g (by simp [hg])
      have htl := isTail_commas fs
      have hbol : (Re.bol false).run ⟨[], s, []⟩ = [⟨[], s, []⟩] := rfl
      show found C (s.length + 1) [] s = _
      cases hv : fieldVal C f with
      | none =>
        rw [List.filterMap_cons_none hv]
        -- the first field does not match
        have hskip : ((reSel C).searchFrom [] s = (reSel C).searchFrom f.reverse (fs.flatMap (',' :: ·))) := by
          cases f with
          | nil => rw [hj']; rfl
          | cons c f =>
            have hc : c ≠ ',' := by rintro rfl; simp at hf
            have h0 : (reSel C).run ⟨[], s, []⟩ = [] := by
              have hlit : (Re.lit ',').run ⟨[], s, []⟩ = [] := by
                rw [hj', List.cons_append, Re.lit, run_chr_cons, if_neg]; simpa using hc
              rw [reSel_eq, run_seq, run_alt, hbol, hlit, List.append_nil, List.flatMap_singleton]
              exact reField_none C _ (c :: f) _ hj' hf htl hv
            rw [hj', List.cons_append] at h0 ⊢
            rw [Re.searchFrom, h0]
            simp only [List.head?_nil]
            rw [searchFrom_skip C f _ (fun h => hf (by simp [h])) _ (by simp)]
            simp
        obtain ⟨i1, i2⟩ := searchFrom_commas C fs hfs f.reverse
        cases hvs : fs.filterMap (fieldVal C) with
        | nil =>
          by_cases hfn : f.reverse = []
          · -- a leading comma
            have hf0 : f = [] := by simpa using hfn
            subst hf0
            cases fs with
            | nil => exact absurd hj' (by simpa using hs)
            | cons g gs =>
              obtain ⟨j1, _⟩ := searchFrom_commas C gs (fun x hx => hfs x (by simp [hx])) (g.reverse ++ [','])
              have hgv : fieldVal C g = none := by
                cases hgv : fieldVal C g with
                | none => rfl
                | some w => rw [List.filterMap_cons_some hgv] at hvs; simp at hvs
              rw [List.filterMap_cons_none hgv] at hvs
              rw [found, Re.findIter, hskip]
              have e1 : (g :: gs).flatMap (',' :: ·) = ',' :: (g ++ gs.flatMap (',' :: ·)) := by simp
              rw [e1, Re.searchFrom, reSel_comma, reField_none C _ g _ rfl (hfs g (by simp)) (isTail_commas gs) hgv]
              simp only [List.head?_nil]
              rw [searchFrom_skip C g _ (hfs g (by simp)) _ (by simp), List.reverse_nil, j1 hvs (by simp)]
              rfl
          · rw [found, Re.findIter, hskip, i1 hvs hfn]; rfl
        | cons v vs =>
          obtain ⟨s', t, gs, h1, h2, h3, h4, h5, h6, h7, h8⟩ := i2 v vs hvs
          rw [found, Re.findIter, hskip, h1]
          simp only
          rw [if_pos h7, List.map_cons, h2, h3]
          have hlen : (fs.flatMap (',' :: ·)).length ≤ s.length := by rw [hj']; simp
          have := found_commas C s.length gs t.pre h5 h6 (by rw [h3] at h7; omega)
          rw [found] at this
          rw [this, h4]
      | some w =>
        rw [List.filterMap_cons_some hv]
        obtain ⟨a, x, b, hfe, ha, hb, hx⟩ := fieldVal_some hv
        obtain ⟨t, ht, hg, hr, hpre⟩ := reField_head C ⟨[], s, []⟩ a x b (fs.flatMap (',' :: ·)) (by rw [hj', hfe]) ha hb hx htl
        have h0 : ((reSel C).run ⟨[], s, []⟩).head? = some t := by
          rw [reSel_eq, run_seq, run_alt, hbol, List.flatMap_append, List.flatMap_singleton, List.head?_append, ht]
          rfl
        have hlen : (fs.flatMap (',' :: ·)).length < s.length := by
          rw [hj', hfe]
          have : x ≠ [] := hx.ends.2.2.1
          have := List.length_pos_iff.2 this
          simp only [List.length_append]; omega
        have hsearch : (reSel C).searchFrom [] s = some (⟨[], s, []⟩, t) := search_zero h0
        rw [found, Re.findIter, hsearch]
        simp only
        rw [hr, if_pos hlen, List.map_cons, hg, Option.getD_some]
        have hpne : t.pre ≠ [] := by
          rw [hpre]
          have : x ≠ [] := hx.ends.2.2.1
          simp [this]
        have := found_commas C s.length fs t.pre hfs hpne hlen
        rw [found] at this
        rw [this]
        congr 1
        have := fieldVal_of_num ha hb hx
        rw [← hfe, hv] at this
        exact (Option.some.inj this).symm
  refine ⟨((((reSel C).findAll s).map (fun m => intOf C ((m.2.group 1).getD []))).insertionSort (· ≤ ·)), ?_, ?_, ?_⟩
  · cases s with
    | nil => exact absurd rfl hs
    | cons c l => rfl
  · exact List.pairwise_insertionSort _ _
  · exact (List.perm_insertionSort _ _).trans (hfound ▸ List.Perm.refl _)

/-- fields with blanks, signs, rubbish and an empty field -/
example : raDecodeSelection .ascii (some "3, x,,-1 ,+20,2.5,7\n".toList) = some [-1, 3, 7, 20] := by decide +kernel

example : (split ',' "3, x,,-1 ,+20,2.5,7\n".toList).filterMap (fieldVal .ascii) = [3, -1, 20, 7] := by decide +kernel

end Verif.Props
