import Verif.Props.OpenCount
import Verif.Props.Age
import Verif.Props.Binning
import Verif.Model.FileAge

/-!
C144: from the text of a crater file to the age: which craters are counted, over which area, and that the order of the lines does not matter.
-/

namespace Verif.Props

open Verif.Py Verif.Text Verif.Rand Verif.Scc Verif.CountFile Verif.Cratercount Verif.Chronology Verif.Production Verif.Craterpdf Verif.Age
open Verif.FileAge

noncomputable section

/-- Specification: the text of a .diam file: lines, some of them comments, with definitions, one of them the table of craters with these columns -/
def CraterText (C : Classes) (file : List Char) (ds cols : List (List Char × TVal)) : Prop :=
  ∃ sep lines, (sep = ['\n'] ∨ sep = ['\r', '\n']) ∧ FileLines C lines ∧ TextOf C (uncommented lines) ds ∧ NoLastArray ds ∧
    occurrences ds "crater".toList = [.dict cols] ∧ file = writeTextfile sep false lines

/-- Specification: a file listing craters of these diameters and fractions (1 if there is no such column) on this area -/
def ListsCraters (C : Classes) (file : List Char) (diam frac : List ℚ) (a : ℚ) : Prop :=
  ∃ ds cols ra, CraterText C file ds cols ∧ NumberColumn cols "diameter" diam ∧ diam ≠ [] ∧ dictGet cols "reference_area".toList = none ∧
    (NumberColumn cols "fraction" frac ∧ frac.length = diam.length ∨ dictGet cols "fraction".toList = none ∧ frac = diam.map (fun _ => 1)) ∧
    occurrences ds "area".toList = [.str ra] ∧ decVal ra = some a

/-- Specification: a file listing craters of these diameters, each with the area on which it could be seen -/
def ListsReferences (C : Classes) (file : List Char) (diam ref : List ℚ) : Prop :=
  ∃ ds cols, CraterText C file ds cols ∧ NumberColumn cols "diameter" diam ∧ diam ≠ [] ∧ NumberColumn cols "reference_area" ref ∧
    ref.length = diam.length ∧ ∀ r ∈ ref, r ≠ 0

/-- the counts of .diam files have no perimeter and are not tables -/
theorem diam_perimeter {C : Classes} {shp : Except Exc Reading.Count} {file : List Char} {o : Opened}
    (h : openCount C shp ".diam".toList file = .ok o) : ∃ c, o = .craters c ∧ c.perimeter = none ∧ c.prebinned = false := by
  unfold openCount at h
  rw [if_neg (by decide), if_pos rfl] at h
  cases hf : (readStructureFile C file >>= diamFields) with
  | error e => rw [hf] at h; cases h
  | ok f =>
    rw [hf] at h
    dsimp only at h
    cases hr : Reading.readDiam f.toFile with
    | error e => rw [hr] at h; cases h
    | ok c =>
      rw [hr] at h
      dsimp only at h
      injection h with h
      refine ⟨c, h.symm, ?_⟩
      cases hra : f.toFile.referenceArea with
      | none =>
        obtain ⟨_, _, _, _, h5, h6⟩ := C12_diam _ c hra hr
        exact ⟨h6, h5⟩
      | some w =>
        refine ⟨(C12_diam_buffered _ c w hra hr).2.2.2.2.2, ?_⟩
        unfold Reading.readDiam at hr
        rw [hra] at hr
        dsimp only at hr
        obtain ⟨x, _, hr⟩ := except_bind_eq_ok hr
        simp only [except_ok_bind] at hr
        split at hr
        · cases hr
        · split at hr
          · cases hr
          · injection hr with hr
            rw [← hr]

theorem open_lists {C : Classes} (shp : Except Exc Reading.Count) {file : List Char} {diam frac : List ℚ} {a : ℚ}
    (h : ListsCraters C file diam frac a) : ∃ c : Reading.Count, openCount C shp ".diam".toList file = .ok (.craters c) ∧
      c.craters.Perm ((diam.zip frac).map (fun x => ((x.1 : ℝ), (x.2 : ℝ)))) ∧ c.area = (a : ℝ) ∧ c.perimeter = none ∧ c.prebinned = false ∧
      frac.length = diam.length ∧ diam ≠ [] := by
  obtain ⟨ds, cols, ra, ⟨sep, lines, hsep, hf, ht, hl, hcr, rfl⟩, hd, hne, hr, hfr, ha, hra⟩ := h
  obtain ⟨c, h1, h2, _, h3, _, h4⟩ := C103_diam_partial C shp sep hsep lines hf ds ht hl cols hcr diam frac hd hne hr hfr ra a ha hra
  obtain ⟨c', e, hp, _⟩ := diam_perimeter h1
  injection e with e
  subst e
  refine ⟨c, h1, h2, h3, hp, h4, ?_, hne⟩
  rcases hfr with ⟨_, h⟩ | ⟨_, rfl⟩
  · exact h
  · simp

theorem open_references {C : Classes} (shp : Except Exc Reading.Count) {file : List Char} {diam ref : List ℚ}
    (h : ListsReferences C file diam ref) : ∃ c : Reading.Count, openCount C shp ".diam".toList file = .ok (.craters c) ∧
      c.craters.Perm ((diam.zip ref).map (fun x => ((x.1 : ℝ), 1 / (x.2 : ℝ)))) ∧ c.area = 1 ∧ c.perimeter = none ∧
      ref.length = diam.length := by
  obtain ⟨ds, cols, ⟨sep, lines, hsep, hf, ht, hl, hcr, rfl⟩, hd, hne, hr, hlen, hz⟩ := h
  obtain ⟨c, h1, h2, _, h3, _⟩ := C103_reference_partial C shp sep hsep lines hf ds ht hl cols hcr diam ref hd hne hr hlen hz
  obtain ⟨c', e, hp, _⟩ := diam_perimeter h1
  injection e with e
  subst e
  exact ⟨c, h1, h2, h3, hp, hlen⟩

theorem zip_firsts {diam : List ℚ} {w : List ℚ} (g : ℚ → ℝ) (h : w.length = diam.length) :
    ((diam.zip w).map (fun x => ((x.1 : ℝ), g x.2))).map Prod.fst = reals diam := by
  rw [List.map_map, reals]
  have : (Prod.fst ∘ fun x : ℚ × ℚ => ((x.1 : ℝ), g x.2)) = (fun q : ℚ => (q : ℝ)) ∘ Prod.fst := rfl
  rw [this, ← List.map_map, List.map_fst_zip h.ge]

/-- the number of craters in the range does not depend on their order -/
theorem count_perm {l l' : List ℝ} (h : l.Perm l') (a : ℝ) (p : Option ℝ) (lo hi : ℝ) :
    countK none ⟨some l, [], a, p⟩ lo hi = countK none ⟨some l', [], a, p⟩ lo hi := by
  have key : ∀ l : List ℝ, countK none ⟨some l, [], a, p⟩ lo hi = ((l.filter (fun e => decide (lo ≤ e ∧ e < hi))).length : ℝ) := by
    intro l
    cases l with
    | nil => simp [countK]
    | cons d l => rfl
  rw [key, key, (h.filter _).length_eq]

theorem age_perm {l l' : List ℝ} (h : l.Perm l') (a : ℝ) (p : Option ℝ) (pf : PFn) (c : Chron) (simpson : Simpson) (range : EReal × EReal)
    (bcc : Bool) (ref : ℝ) :
    poissonAge pf c simpson ⟨some l, [], a, p⟩ range bcc ref = poissonAge pf c simpson ⟨some l', [], a, p⟩ range bcc ref := by
  unfold poissonAge Craterpdf.init lams
  rw [count_perm h]

/-- **C144, what is counted.** The age of a file listing craters is that of the number of listed craters whose diameters lie in the diameter
range, within the range of the production function; the expected number at each sampled age is the density between these limits on the
isochron, times the area written in the file. -/
theorem C144_age_partial (C : Classes) (shp : Except Exc Reading.Count) (file : List Char) (diam frac : List ℚ) (a : ℚ)
    (h : ListsCraters C file diam frac a) (pf : PFn) (hf : Constructed pf) (c : Chron) (simpson : Simpson) (range : EReal × EReal) (ref : ℝ)
    (p0 p1 p3 : ℝ) (hc : GoodChron c p0 p1 p3) (N1 : ℝ) (hN : c.N1 1 = .ok N1) (h1 : N1 ≠ 1) :
    ∃ o, openCount C shp ".diam".toList file = .ok o ∧ ∀ r, ageOf pf c simpson o range false ref = .ok r → ∃ lo hi : ℝ,
      lo = clipE range.1 pf.range.1 pf.range.2 ∧ hi = clipE range.2 pf.range.1 pf.range.2 ∧
      r.n = (diam.countP (fun d : ℚ => decide (lo ≤ (d : ℝ) ∧ (d : ℝ) < hi)) : ℝ) ∧
      ∀ i < 5000, ∃ Nlo Nhi t, pf.C lo (log10 (sampleDensity N1 5000 i)) = .ok Nlo ∧ pf.C hi (log10 (sampleDensity N1 5000 i)) = .ok Nhi ∧
        r.pdf.lam[i]? = some ((Nlo - Nhi) * (a : ℝ)) ∧ r.pdf.ts[i]? = some t ∧ c.t none (some (sampleDensity N1 5000 i)) = .ok t := by
  obtain ⟨k, ho, hp, ha, hper, _, hlen, hne⟩ := open_lists shp h
  refine ⟨_, ho, ?_⟩
  intro r hr
  have hperm : (k.craters.map Prod.fst).Perm (reals diam) := by
    have := hp.map Prod.fst
    rwa [zip_firsts (fun q => (q : ℝ)) hlen] at this
  have hr' : poissonAge pf c simpson ⟨some (reals diam), [], (a : ℝ), none⟩ range false ref = .ok r := by
    rw [← hr, ageOf, source, ha, hper]
    exact (age_perm hperm _ _ _ _ _ _ _ _).symm
  unfold poissonAge at hr'
  obtain ⟨pdf, e1, hr'⟩ := except_bind_eq_ok hr'
  dsimp only at hr'
  obtain ⟨a0, _, hr'⟩ := except_bind_eq_ok hr'
  obtain ⟨nd, _, hr'⟩ := except_bind_eq_ok hr'
  injection hr' with hr'
  subst hr'
  refine ⟨_, _, rfl, rfl, ?_, ?_⟩
  · obtain ⟨_, _, _, _, _, b⟩ := built e1
    show pdf.k = _
    rw [b.k_eq]
    have hn : reals diam ≠ [] := by rw [reals]; simpa using hne
    obtain ⟨d, l, e⟩ := List.exists_cons_of_ne_nil hn
    have : countK none ⟨some (reals diam), [], (a : ℝ), none⟩ (clipE range.1 pf.range.1 pf.range.2) (clipE range.2 pf.range.1 pf.range.2) =
        (((reals diam).filter (fun e => decide (clipE range.1 pf.range.1 pf.range.2 ≤ e ∧ e < clipE range.2 pf.range.1 pf.range.2))).length : ℝ) := by
      rw [e]; rfl
    rw [this, ← List.countP_eq_length_filter, reals, List.countP_map]
    rfl
  · intro i hi
    obtain ⟨Nlo, Nhi, g1, g2, g3, t, g4, g5⟩ := C81_expected pf hf c simpson _ _ _ none 5000 p0 p1 p3 hc N1 hN h1 pdf e1 i hi
    exact ⟨Nlo, Nhi, t, g1, g2, g3, g4, g5⟩

/-- **C144, order and other contents.** Two files listing the same craters, with the same fractions, on the same area - in any order, with any
other columns, definitions and comments - give the same plot data, the same bins for the diameter range and the same Poisson ages. -/
theorem C144_same_partial (C : Classes) (shp : Except Exc Reading.Count) (file file' : List Char) (diam frac diam' frac' : List ℚ) (a : ℚ)
    (h : ListsCraters C file diam frac a) (h' : ListsCraters C file' diam' frac' a) (hp : (diam.zip frac).Perm (diam'.zip frac')) :
    ∃ o o', openCount C shp ".diam".toList file = .ok o ∧ openCount C shp ".diam".toList file' = .ok o' ∧
      (∀ args, ((object o).getplotdata args).2 = ((object o').getplotdata args).2) ∧
      (∀ l0 l1 b snap, ((object o).decodeRange l0 l1 b snap).2 = ((object o').decodeRange l0 l1 b snap).2) ∧
      ∀ pf c simpson range bcc ref, ageOf pf c simpson o range bcc ref = ageOf pf c simpson o' range bcc ref := by
  obtain ⟨k, ho, hk, ha, hper, hb, _⟩ := open_lists shp h
  obtain ⟨k', ho', hk', ha', hper', hb', _⟩ := open_lists shp h'
  have hperm : k.craters.Perm k'.craters := hk.trans ((hp.map _).trans hk'.symm)
  refine ⟨_, _, ho, ho', ?_, ?_, ?_⟩
  · intro args
    simp only [object, ha, ha', hb, hb']
    exact (C04_plot_order_irrelevant k.craters k'.craters hperm (a : ℝ) args .bad .bad .none false).1
  · intro l0 l1 b snap
    simp only [object, ha, ha', hb, hb']
    exact (C04_plot_order_irrelevant k.craters k'.craters hperm (a : ℝ) ⟨.cumulative, b, none, none, false, none⟩ l0 l1 b snap).2
  · intro pf c simpson range bcc ref
    simp only [ageOf, source, ha, ha', hper, hper']
    exact age_perm (hperm.map Prod.fst) _ _ _ _ _ _ _ _

/-- **C144, fractions.** Poisson ages count whole craters: the column of fractions does not change them. -/
theorem C144_fractions_partial (C : Classes) (shp : Except Exc Reading.Count) (file file' : List Char) (diam frac diam' frac' : List ℚ) (a : ℚ)
    (h : ListsCraters C file diam frac a) (h' : ListsCraters C file' diam' frac' a) (hp : diam.Perm diam') :
    ∃ o o', openCount C shp ".diam".toList file = .ok o ∧ openCount C shp ".diam".toList file' = .ok o' ∧
      ∀ pf c simpson range bcc ref, ageOf pf c simpson o range bcc ref = ageOf pf c simpson o' range bcc ref := by
  obtain ⟨k, ho, hk, ha, hper, _, hlen, _⟩ := open_lists shp h
  obtain ⟨k', ho', hk', ha', hper', _, hlen', _⟩ := open_lists shp h'
  refine ⟨_, _, ho, ho', ?_⟩
  intro pf c simpson range bcc ref
  have e := hk.map Prod.fst
  have e' := hk'.map Prod.fst
  rw [zip_firsts (fun q => (q : ℝ)) hlen] at e
  rw [zip_firsts (fun q => (q : ℝ)) hlen'] at e'
  simp only [ageOf, source, ha, ha', hper, hper']
  exact age_perm (e.trans ((hp.map _).trans e'.symm)) _ _ _ _ _ _ _ _

/-- **C144, reference areas are not used for Poisson ages.** A file giving for each crater the area on which it could be seen has the Poisson ages
of the same craters on one square kilometre, whatever the areas in the file. -/
theorem C144_reference_counterexample (C : Classes) (shp : Except Exc Reading.Count) (file file' : List Char) (diam ref diam' frac' : List ℚ)
    (h : ListsReferences C file diam ref) (h' : ListsCraters C file' diam' frac' 1) (hp : diam.Perm diam') :
    ∃ o o', openCount C shp ".diam".toList file = .ok o ∧ openCount C shp ".diam".toList file' = .ok o' ∧
      ∀ pf c simpson range bcc ref, ageOf pf c simpson o range bcc ref = ageOf pf c simpson o' range bcc ref := by
  obtain ⟨k, ho, hk, ha, hper, hlen⟩ := open_references shp h
  obtain ⟨k', ho', hk', ha', hper', _, hlen', _⟩ := open_lists shp h'
  refine ⟨_, _, ho, ho', ?_⟩
  intro pf c simpson range bcc ref
  have e := hk.map Prod.fst
  have e' := hk'.map Prod.fst
  rw [zip_firsts (fun q => 1 / (q : ℝ)) hlen] at e
  rw [zip_firsts (fun q => (q : ℝ)) hlen'] at e'
  simp only [ageOf, source, ha, ha', hper, hper', Rat.cast_one]
  exact age_perm (e.trans ((hp.map _).trans e'.symm)) _ _ _ _ _ _ _ _

/-- **C144, no buffered ages from .diam files.** Whatever the text of a .diam file - even with a perimeter written in it, as in files of merged
counts - no buffered Poisson age is calculated for it. -/
theorem C144_buffered_counterexample (C : Classes) (shp : Except Exc Reading.Count) (file : List Char) (o : Opened)
    (h : openCount C shp ".diam".toList file = .ok o) (pf : PFn) (c : Chron) (simpson : Simpson) (range : EReal × EReal) (ref : ℝ) :
    ∀ r, ageOf pf c simpson o range true ref ≠ .ok r := by
  obtain ⟨k, rfl, hper, _⟩ := diam_perimeter h
  intro r hr
  unfold ageOf poissonAge at hr
  obtain ⟨pdf, e1, _⟩ := except_bind_eq_ok hr
  obtain ⟨_, _, _, _, _, b⟩ := built e1
  have := b.lam_eq
  simp only [lams, if_true, source, hper] at this
  cases this

/-! ### files meeting the hypotheses -/

/-- a comment, an area and a table with a second column -/
def sampleLines (area tag : List Char) (cs : List (ℚ × ℚ)) : List (List Char) :=
  ["# my craters".toList, "area = ".toList ++ area, "crater = ".toList ++ headerText "diameter".toList [tag]] ++ cs.map mergedRow ++ [['}']]

theorem sample_text (C : Classes) (area tag : List Char) (ha : Plain area) (ht : Plain tag) (hne : "diameter".toList ≠ tag) (cs : List (ℚ × ℚ)) :
    CraterText C (writeTextfile ['\n'] false (sampleLines area tag cs))
      [("area".toList, .str area), ("crater".toList, .dict [("diameter".toList, .list ((cs.map (fun x => gStr 5 x.1)).map TVal.str)),
        (tag, .list ((cs.map (fun x => gStr 5 x.2)).map TVal.str))])]
      [("diameter".toList, .list ((cs.map (fun x => gStr 5 x.1)).map TVal.str)), (tag, .list ((cs.map (fun x => gStr 5 x.2)).map TVal.str))] := by
  have hrow : ∀ x : ℚ × ℚ, KeptLine C (mergedRow x) := by
    intro x
    refine kept_safe C (by rw [mergedRow_eq]; exact plain_first (plain_g 5 x.1)) ?_
    intro c hc
    rcases mergedRow_chars x c hc with h | rfl | rfl
    · exact List.mem_append_right _ h
    · decide +kernel
    · decide +kernel
  have hclose : ∃ fs, FieldLine C.space ['}'] (['}'] :: fs) := by
    refine ⟨[], ?_⟩
    have := FieldLine.field [] ['}'] [] ['}'] [] (sep := C.space) (by simp) (.plain _ (by simp) (by
      intro c hc; simp at hc; subst hc; exact not_space (by decide) (by decide)) (by simp) (by
      intro a b
      constructor <;> (intro e; have := congrArg List.length e; simp at this; omega))) (by simp) (.done [] (by simp))
    simpa using this
  have hv : ValueOf C (tableText "diameter".toList [tag] (cs.map mergedRow))
      (.dict [("diameter".toList, .list ((cs.map (fun x => gStr 5 x.1)).map TVal.str)), (tag, .list ((cs.map (fun x => gStr 5 x.2)).map TVal.str))]) := by
    refine .plain _ _ (by rw [tableText, List.cons_append, join_cons, headerText]; simp) ?_
    have := PlainOf.table (C := C) ["diameter".toList, tag] [0, 1]
      (cs.map (fun x => (mergedRow x, mergedFields x))) ['}'] [] (by simp) rfl (by
        intro t ht'
        refine plain_tag ?_
        simp only [List.mem_cons, List.not_mem_nil, or_false] at ht'
        rcases ht' with rfl | rfl
        · exact plain_diameter.2
        · exact ht.2) (by simpa using hne) (by
        intro r hr
        rw [List.mem_map] at hr
        obtain ⟨x, _, rfl⟩ := hr
        exact ⟨(hrow x).1, mergedRow_fields C x, by simp [mergedFields], plain_head_close (plain_g 5 x.1) _⟩)
      (by unfold PlainLine; decide) hclose (by simp)
    have e : (join ['\n'] (('{' :: join [','] ([0, 1].zipWith (fun n t => List.replicate n ' ' ++ t) ["diameter".toList, tag])) ::
        (cs.map (fun x => (mergedRow x, mergedFields x))).map Prod.fst ++ [['}']])) = tableText "diameter".toList [tag] (cs.map mergedRow) := by
      rw [tableText, headerText_eq, List.map_map]
      rfl
    rw [e] at this
    have e' : (cs.map (fun x => (mergedRow x, mergedFields x))).map (fun r => TVal.str (r.2.getD 0 [])) = (cs.map (fun x => gStr 5 x.1)).map TVal.str := by
      rw [List.map_map, List.map_map]; rfl
    have e'' : (cs.map (fun x => (mergedRow x, mergedFields x))).map (fun r => TVal.str (r.2.getD 1 [])) = (cs.map (fun x => gStr 5 x.2)).map TVal.str := by
      rw [List.map_map, List.map_map]; rfl
    rw [← e', ← e'']
    exact this
  have k1 : KeptLine C ("area = ".toList ++ area) := kept_plain C _ (by decide) (by decide +kernel) ha
  have k2 : KeptLine C ("crater = ".toList ++ headerText "diameter".toList [tag]) := by
    have e : "crater = ".toList ++ headerText "diameter".toList [tag] = "crater = {diameter, ".toList ++ tag := by
      rw [headerText, List.flatMap_cons, List.flatMap_nil, List.append_nil]
      rfl
    rw [e]
    exact kept_plain C _ (by decide) (by decide +kernel) ht
  have k3 : KeptLine C ['}'] := kept_safe C ⟨'}', by decide, by decide, by decide, by decide⟩ (by decide +kernel)
  have hva : ValueOf C area (.str area) := by
    have hc : ∀ c ∈ area, c ∉ ['"', '\'', '\\', ';', '#', '{', '}', '=', ',', ' ', '\t', '\n', '[', '(', '*'] := fun c hc =>
      (plainChars_spec c (ha.2 c hc)).2.2.2
    refine .plain _ _ ?_ (.text _ _ ?_ (.plain _ ?_))
    · intro h
      have := hc _ (List.mem_of_mem_head? h)
      simp at this
    · intro c h
      have := hc _ (List.mem_of_mem_head? h)
      simp only [List.mem_cons, List.not_mem_nil, not_or, or_false] at this
      tauto
    · rintro q t rfl
      have := hc q (by simp)
      simp only [List.mem_cons, List.not_mem_nil, not_or, or_false] at this
      tauto
  refine ⟨['\n'], sampleLines area tag cs, .inl rfl, ?_, ?_, ?_, rfl, rfl⟩
  · refine ⟨?_, by simp [sampleLines], by simp only [sampleLines, List.cons_append, List.head?_cons]; decide +kernel⟩
    intro l hl
    rw [sampleLines, List.mem_append, List.mem_append] at hl
    rcases hl with (hl | hl) | hl
    · simp only [List.mem_cons, List.not_mem_nil, or_false] at hl
      rcases hl with rfl | rfl | rfl
      · exact Or.inl ⟨by unfold PlainLine; decide +kernel, rfl⟩
      · exact Or.inr k1
      · exact Or.inr k2
    · rw [List.mem_map] at hl
      obtain ⟨x, _, rfl⟩ := hl
      exact Or.inr (hrow x)
    · rw [List.mem_singleton] at hl
      subst hl
      exact Or.inr k3
  · have := TextOf.simple (asciiHead C "area".toList " ".toList " ".toList ⟨by decide, by decide⟩ (by decide) (by decide)) area (.str area) _ _
      (plain_valueText C ha) hva (TextOf.last (asciiHead C "crater".toList " ".toList " ".toList ⟨by decide, by decide⟩ (by decide) (by decide)) _ _
      (table_valueText C plain_diameter (ts := [tag]) (by simpa using ht.2) (rows := cs.map mergedRow) (by
        intro r hr
        rw [List.mem_map] at hr
        obtain ⟨c, _, rfl⟩ := hr
        exact mergedRow_chars c)) hv)
    have e : uncommented (sampleLines area tag cs) = [] ++ ("area".toList ++ (" ".toList ++ '=' :: (" ".toList ++ (area ++ '\n' ::
        ([] ++ ("crater".toList ++ (" ".toList ++ '=' :: (" ".toList ++ tableText "diameter".toList [tag] (cs.map mergedRow))))))))) := by
      have e1 : (sampleLines area tag cs).filter (fun l => decide (l.head? ≠ some '#')) = ["area = ".toList ++ area,
          "crater = ".toList ++ headerText "diameter".toList [tag]] ++ cs.map mergedRow ++ [['}']] := by
        have : sampleLines area tag cs = ["# my craters".toList] ++ (["area = ".toList ++ area,
          "crater = ".toList ++ headerText "diameter".toList [tag]] ++ cs.map mergedRow ++ [['}']]) := rfl
        rw [this, List.filter_append, filter_hash _ (by simp), filter_keep C, List.nil_append]
        intro l hl
        rw [List.mem_append, List.mem_append] at hl
        rcases hl with (hl | hl) | hl
        · simp only [List.mem_cons, List.not_mem_nil, or_false] at hl
          rcases hl with rfl | rfl
          · exact k1
          · exact k2
        · rw [List.mem_map] at hl
          obtain ⟨x, _, rfl⟩ := hl
          exact hrow x
        · rw [List.mem_singleton] at hl
          exact hl ▸ k3
      rw [uncommented, e1, tableText, List.cons_append, List.cons_append, join_cons, List.cons_append (bs := [['}']]), join_cons, List.nil_append,
        List.append_assoc ["crater = ".toList ++ headerText "diameter".toList [tag]], List.singleton_append, List.flatMap_cons]
      simp
    rw [e]
    exact this
  · intro k l h
    exfalso
    rw [occurrences, List.length_map] at h
    have hne : "area".toList ≠ "crater".toList := by decide +kernel
    generalize "area".toList = x at h hne
    generalize "crater".toList = y at h hne
    by_cases hx : x = k
    · rw [List.filter_cons_of_pos (by simpa using hx), List.filter_cons_of_neg (by simpa using fun e => hne (hx.trans e.symm))] at h
      simp at h
    · rw [List.filter_cons_of_neg (by simpa using hx)] at h
      have := h.trans (List.length_filter_le _ _)
      simp at this

/-- a file of three craters on 10 km² meets the hypotheses of the theorems on counted craters, and of the order of the lines -/
example (C : Classes) : ListsCraters C (writeTextfile ['\n'] false (sampleLines "10".toList "fraction".toList [(1, 1), (3 / 2, 1 / 2), (2, 1)]))
      [1, 3 / 2, 2] [1, 1 / 2, 1] 10 ∧
    ListsCraters C (writeTextfile ['\n'] false (sampleLines "1e1".toList "fraction".toList [(2, 1), (1, 1), (3 / 2, 1 / 2)])) [2, 1, 3 / 2] [1, 1, 1 / 2] 10 ∧
    ([1, 3 / 2, 2].zip [1, 1 / 2, 1] : List (ℚ × ℚ)).Perm ([2, 1, 3 / 2].zip [1, 1, 1 / 2]) := by
  refine ⟨⟨_, _, "10".toList, sample_text C "10".toList "fraction".toList ⟨by decide, by decide +kernel⟩ ⟨by decide, by decide +kernel⟩ (by decide +kernel) _,
    ⟨_, rfl, .cons (by decide +kernel) (.cons (by decide +kernel) (.cons (by decide +kernel) .nil))⟩, by simp, rfl,
    .inl ⟨⟨_, rfl, .cons (by decide +kernel) (.cons (by decide +kernel) (.cons (by decide +kernel) .nil))⟩, rfl⟩, rfl, by decide +kernel⟩, ⟨_, _,
    "1e1".toList, sample_text C "1e1".toList "fraction".toList ⟨by decide, by decide +kernel⟩ ⟨by decide, by decide +kernel⟩ (by decide +kernel) _,
    ⟨_, rfl, .cons (by decide +kernel) (.cons (by decide +kernel) (.cons (by decide +kernel) .nil))⟩, by simp, rfl,
    .inl ⟨⟨_, rfl, .cons (by decide +kernel) (.cons (by decide +kernel) (.cons (by decide +kernel) .nil))⟩, rfl⟩, rfl, by decide +kernel⟩, ?_⟩
  decide +kernel

/-- an age is calculated for a file -/
example (C : Classes) (shp : Except Exc Reading.Count) (simpson : Simpson) : ∃ c o r, GoodChron c 0 0 2 ∧ c.N1 1 = .ok 2 ∧
    openCount C shp ".diam".toList (writeTextfile ['\n'] false (sampleLines "10".toList "fraction".toList [(1, 1), (3, 1), (3 / 2, 1 / 2), (2, 1)])) = .ok o ∧
    ageOf (initPoly [0, -1] (some (1, 4))) c simpson o (0, ⊤) false 1 = .ok r := by
  have hl : ListsCraters C (writeTextfile ['\n'] false (sampleLines "10".toList "fraction".toList [(1, 1), (3, 1), (3 / 2, 1 / 2), (2, 1)]))
      [1, 3, 3 / 2, 2] [1, 1, 1 / 2, 1] 10 :=
    ⟨_, _, "10".toList, sample_text C "10".toList "fraction".toList ⟨by decide, by decide +kernel⟩ ⟨by decide, by decide +kernel⟩ (by decide +kernel) _,
    ⟨_, rfl, .cons (by decide +kernel) (.cons (by decide +kernel) (.cons (by decide +kernel) (.cons (by decide +kernel) .nil)))⟩, by simp, rfl,
    .inl ⟨⟨_, rfl, .cons (by decide +kernel) (.cons (by decide +kernel) (.cons (by decide +kernel) (.cons (by decide +kernel) .nil)))⟩, rfl⟩, rfl,
    by decide +kernel⟩
  obtain ⟨k, ho, hp, ha, hper, _⟩ := open_lists shp hl
  obtain ⟨c, hg, hN, h⟩ := age_example simpson (some (1, 4))
  obtain ⟨p, hp'⟩ := h 1 4 (by norm_num) (by norm_num) (by norm_num) (by norm_num)
  have e1 : clipE 0 1 4 = 1 := by
    unfold clipE
    rw [max_eq_right (by exact_mod_cast (zero_le_one : (0 : ℝ) ≤ 1)), min_eq_right (by exact_mod_cast (by norm_num : (1 : ℝ) ≤ 4))]
    exact EReal.toReal_coe _
  have e2 : clipE ⊤ 1 4 = 4 := by
    unfold clipE
    rw [max_eq_left le_top, min_eq_left le_top]
    exact EReal.toReal_coe _
  obtain ⟨r, hr, _⟩ := C82_defined (initPoly [0, -1] (some (1, 4))) c simpson ⟨some [1, 1.5, 2, 3], [], 10, none⟩ (0, ⊤) false 1
    0 0 2 hg one_pos ⟨0, rfl⟩ p (by
      have : (initPoly [0, -1] (some (1, 4))).range = (1, 4) := rfl
      rw [this, e1, e2]
      exact hp')
  refine ⟨c, _, r, hg, hN, ho, ?_⟩
  rw [← hr, ageOf, source, ha, hper]
  have e := hp.map Prod.fst
  rw [zip_firsts (diam := [1, 3, 3 / 2, 2]) (w := [1, 1, 1 / 2, 1]) (fun q => (q : ℝ)) rfl] at e
  have e3 : (reals [1, 3, 3 / 2, 2]).Perm [1, 1.5, 2, 3] := by
    have : reals [1, 3, 3 / 2, 2] = [1, 3, 1.5, 2] := by norm_num [reals]
    rw [this]
    exact .cons _ ((List.Perm.swap _ _ _).trans (.cons _ (List.Perm.swap _ _ _)))
  have := age_perm (e.trans e3) 10 none (initPoly [0, -1] (some (1, 4))) c simpson (0, ⊤) false 1
  norm_num at this ⊢
  exact this

/-- a file with reference areas of 10 and 20 km², and the same craters on 1 km² -/
example (C : Classes) : ListsReferences C (writeTextfile ['\n'] false (sampleLines "30".toList "reference_area".toList [(3, 10), (1, 20)])) [3, 1] [10, 20] ∧
    ListsCraters C (writeTextfile ['\n'] false (sampleLines "1".toList "fraction".toList [(1, 1), (3, 1)])) [1, 3] [1, 1] 1 := by
  refine ⟨⟨_, _, sample_text C "30".toList "reference_area".toList ⟨by decide, by decide +kernel⟩ ⟨by decide, by decide +kernel⟩ (by decide +kernel) _,
    ⟨_, rfl, .cons (by decide +kernel) (.cons (by decide +kernel) .nil)⟩, by simp, ⟨_, rfl, .cons (by decide +kernel) (.cons (by decide +kernel) .nil)⟩,
    rfl, by decide +kernel⟩, ⟨_, _, "1".toList,
    sample_text C "1".toList "fraction".toList ⟨by decide, by decide +kernel⟩ ⟨by decide, by decide +kernel⟩ (by decide +kernel) _,
    ⟨_, rfl, .cons (by decide +kernel) (.cons (by decide +kernel) .nil)⟩, by simp, rfl,
    .inl ⟨⟨_, rfl, .cons (by decide +kernel) (.cons (by decide +kernel) .nil)⟩, rfl⟩, rfl, by decide +kernel⟩⟩

end

end Verif.Props
