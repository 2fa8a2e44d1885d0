import Verif.Props.FileOrder

/-!
C150: ages of converted and merged spatial counts.
-/

namespace Verif.Props

open Verif.Py Verif.Text Verif.Spec Verif.Rand Verif.CountFile Verif.Cratercount Verif.Chronology Verif.Production Verif.Craterpdf Verif.Age Verif.FileAge

noncomputable section

theorem scc_prebinned {C : Classes} {shp : Except Exc Reading.Count} {file : List Char} {c : Reading.Count}
    (h : openCount C shp ".scc".toList file = .ok (.craters c)) : c.prebinned = false := by
  unfold openCount at h
  rw [if_neg (by decide), if_neg (by decide), if_pos rfl] at h
  cases e : (readStructureFile C file >>= sccFields C) with
  | error x => rw [e] at h; cases h
  | ok f =>
    rw [e] at h
    dsimp only at h
    cases e2 : Reading.readScc f.toFile with
    | error x => rw [e2] at h; cases h
    | ok k =>
      rw [e2] at h
      injection h with h
      injection h with h
      subst h
      unfold Reading.readScc at e2
      obtain ⟨cr, _, h2⟩ := except_bind_eq_ok e2
      injection h2 with h2
      rw [← h2]

/-- without buffering the perimeter is not used -/
theorem perimeter_unused (d : List ℝ) (a : ℝ) (p p' : Option ℝ) (pf : PFn) (c : Chron) (simpson : Simpson) (range : EReal × EReal) (ref : ℝ) :
    poissonAge pf c simpson ⟨some d, [], a, p⟩ range false ref = poissonAge pf c simpson ⟨some d, [], a, p'⟩ range false ref := by
  have e1 : ∀ lo hi, countK none ⟨some d, [], a, p⟩ lo hi = countK none ⟨some d, [], a, p'⟩ lo hi := fun lo hi => by cases d <;> rfl
  have e2 : ∀ lo hi a0 x, lams pf simpson ⟨some d, [], a, p⟩ lo hi a0 false x = lams pf simpson ⟨some d, [], a, p'⟩ lo hi a0 false x := by
    intro lo hi a0 x
    rw [lams, lams, if_neg (by simp), if_neg (by simp)]
  unfold poissonAge Craterpdf.init
  simp only [e1, e2]

/-- Specification: a spatial count that can be written: its texts are plain lines, its area has rings with points, and area and perimeter are printed
without exponents -/
structure Convertible (version : List Char) (S : Scc.Source) (shapes : List (List (List Scc.Pt))) : Prop where
  texts : SourceOk version S
  shapes_eq : S.sa = shapes.map shapeOf
  points : ∀ s ∈ shapes, ∀ r ∈ s, r ≠ []
  rings : taggedRings shapes ≠ []
  area : PlainPrinted S.area
  perimeter : PlainPrinted S.perimeter

theorem casts_perm {l l' : List (ℚ × ℚ)} (h : l.Perm l') :
    (l.map (fun x => ((x.1 : ℝ), (x.2 : ℝ)))).Perm (l'.map (fun x => ((x.1 : ℝ), (x.2 : ℝ)))) := h.map _

/-- **C150, converted counts.** A spatial count converted to an .scc file has the ages and plot data of a .diam file listing the same craters, with the
digits of the conversion, on the same area. -/
theorem C150_converted_partial (C : Classes) (shp : Except Exc Reading.Count) (version : List Char) (S : Scc.Source) (shapes : List (List (List Scc.Pt)))
    (h : Convertible version S shapes) (sep : List Char) (hsep : sep = ['\n'] ∨ sep = ['\r', '\n']) :
    ∃ file o, Scc.writeScc sep version S = .ok file ∧ openCount C shp ".scc".toList file = .ok o ∧
      ∀ (file' : List Char) (diam frac : List ℚ), ListsCraters C file' diam frac (sciSigned 5 S.area) →
        ∃ o', openCount C shp ".diam".toList file' = .ok o' ∧
          (diam.Perm (S.craters.map (fun c => sciSigned 6 c.diam)) → ∀ pf c simpson range ref,
            ageOf pf c simpson o range false ref = ageOf pf c simpson o' range false ref) ∧
          ((diam.zip frac).Perm (S.craters.map (fun c => (sciSigned 6 c.diam, sciSigned 2 c.fraction))) →
            (∀ args, ((object o).getplotdata args).2 = ((object o').getplotdata args).2) ∧
            ∀ l0 l1 b snap, ((object o).decodeRange l0 l1 b snap).2 = ((object o').decodeRange l0 l1 b snap).2) := by
  obtain ⟨file, k, h1, h2, hk, _, ha, hper⟩ := C78_converted_partial C shp h.texts shapes h.shapes_eq h.points h.rings sep hsep h.area h.perimeter
  have hb := scc_prebinned h2
  refine ⟨file, _, h1, h2, ?_⟩
  intro file' diam frac hl
  obtain ⟨k', ho', hk', ha', hper', hb', hlen', _⟩ := open_lists shp hl
  refine ⟨_, ho', ?_, ?_⟩
  · intro hd pf c simpson range ref
    have e := hk.map Prod.fst
    have e' := hk'.map Prod.fst
    rw [zip_firsts (fun q => (q : ℝ)) hlen'] at e'
    rw [List.map_map] at e
    have hp : (k.craters.map Prod.fst).Perm (k'.craters.map Prod.fst) := by
      refine e.trans (List.Perm.trans ?_ e'.symm)
      have := (hd.map (fun q : ℚ => (q : ℝ))).symm
      rw [List.map_map] at this
      exact this
    simp only [ageOf, source, ha, ha', hper, hper']
    rw [age_perm hp]
    exact perimeter_unused _ _ _ _ _ _ _ _ _
  · intro hd
    have hp : k.craters.Perm k'.craters := by
      refine hk.trans (List.Perm.trans ?_ hk'.symm)
      have := (casts_perm hd).symm
      rw [List.map_map] at this
      exact this
    refine ⟨fun args => ?_, fun l0 l1 b snap => ?_⟩
    · simp only [object, ha, ha', hb, hb']
      exact (C04_plot_order_irrelevant k.craters k'.craters hp _ args .bad .bad .none false).1
    · simp only [object, ha, ha', hb, hb']
      exact (C04_plot_order_irrelevant k.craters k'.craters hp _ ⟨.cumulative, b, none, none, false, none⟩ l0 l1 b snap).2

/-- **C150, buffered ages.** The buffered age of a converted count is that of the number of its craters in the range; the expected number at each sampled
age is Simpson's integral of the differential isochron times the area grown by half a crater diameter along its perimeter. -/
theorem C150_buffered_partial (C : Classes) (shp : Except Exc Reading.Count) (version : List Char) (S : Scc.Source) (shapes : List (List (List Scc.Pt)))
    (h : Convertible version S shapes) (sep : List Char) (hsep : sep = ['\n'] ∨ sep = ['\r', '\n']) (pf : PFn) (hf : Constructed pf) (c : Chron)
    (simpson : Simpson) (hs : ∀ (q : ℝ) (y d : List ℝ), simpson (y.map (fun v => q * v)) d = q * simpson y d) (range : EReal × EReal) (ref : ℝ)
    (p0 p1 p3 : ℝ) (hc : GoodChron c p0 p1 p3) (N1 : ℝ) (hN : c.N1 1 = .ok N1) :
    ∃ file o, Scc.writeScc sep version S = .ok file ∧ openCount C shp ".scc".toList file = .ok o ∧
      ∀ r, ageOf pf c simpson o range true ref = .ok r → ∃ lo hi : ℝ, lo = clipE range.1 pf.range.1 pf.range.2 ∧ hi = clipE range.2 pf.range.1 pf.range.2 ∧
        r.n = (numberIn (S.craters.map (fun c => sciSigned 6 c.diam)) lo hi : ℝ) ∧
        ∀ i < 5000, ∃ (F : ℝ → ℝ) (t : ℝ), (∀ d ∈ linspace lo hi 500, pf.F d (log10 (sampleDensity N1 5000 i)) = .ok (F d)) ∧
          r.pdf.lam[i]? = some (simpson ((linspace lo hi 500).map (fun d =>
            grownArea ((sciSigned 5 S.area : ℚ) : ℝ) ((sciSigned 5 S.perimeter : ℚ) : ℝ) d * F d)) (linspace lo hi 500)) ∧
          r.pdf.ts[i]? = some t ∧ c.t none (some (sampleDensity N1 5000 i)) = .ok t := by
  obtain ⟨file, k, h1, h2, hk, _, ha, hper⟩ := C78_converted_partial C shp h.texts shapes h.shapes_eq h.points h.rings sep hsep h.area h.perimeter
  refine ⟨file, _, h1, h2, ?_⟩
  intro r hr
  obtain ⟨i1, _, hn⟩ := age_parts hr
  refine ⟨_, _, rfl, rfl, ?_, ?_⟩
  · obtain ⟨_, _, _, _, _, b⟩ := built i1
    rw [hn, b.k_eq]
    have hk' : k.craters.Perm (((S.craters.map (fun c => sciSigned 6 c.diam)).zip (S.craters.map (fun c => sciSigned 2 c.fraction))).map
        (fun x => ((x.1 : ℝ), (x.2 : ℝ)))) := by
      have e : (S.craters.map (fun c => sciSigned 6 c.diam)).zip (S.craters.map (fun c => sciSigned 2 c.fraction)) =
        S.craters.map (fun c => (sciSigned 6 c.diam, sciSigned 2 c.fraction)) := zip_map_map _ _ _
      rw [e, List.map_map]
      exact hk
    exact count_listed hk' (by simp) _ _
  · intro i hi
    obtain ⟨F, g1, g2, t, g3, g4⟩ := C81_expected_buffered pf hf c simpson hs _ _ _ none 5000 p0 p1 p3 hc N1 hN ((sciSigned 5 S.perimeter : ℚ) : ℝ)
      (by simp only [source, hper]) r.pdf i1 i hi
    refine ⟨F, t, g1, ?_, g3, g4⟩
    rw [g2]
    simp only [source, ha]

/-- **C150 is false for large areas.** The age of a converted count with an area of a million square kilometres or more is calculated with an area below
ten square kilometres. -/
theorem C150_large_area_counterexample (C : Classes) (shp : Except Exc Reading.Count) (version : List Char) (S : Scc.Source) (h : SourceOk version S)
    (shapes : List (List (List Scc.Pt))) (hS : S.sa = shapes.map shapeOf) (hr : ∀ s ∈ shapes, ∀ r ∈ s, r ≠ [])
    (hne : taggedRings shapes ≠ []) (sep : List Char) (hsep : sep = ['\n'] ∨ sep = ['\r', '\n'])
    (ha : 1000000 ≤ S.area) (hp : PlainPrinted S.perimeter) (pf : PFn) (hf : Constructed pf) (c : Chron) (simpson : Simpson) (range : EReal × EReal) (ref : ℝ)
    (p0 p1 p3 : ℝ) (hc : GoodChron c p0 p1 p3) (N1 : ℝ) (hN : c.N1 1 = .ok N1) (hN1 : N1 ≠ 1) :
    ∃ file o, Scc.writeScc sep version S = .ok file ∧ openCount C shp ".scc".toList file = .ok o ∧ ∃ A : ℝ, 0 < A ∧ A < 10 ∧
      ∀ r, ageOf pf c simpson o range false ref = .ok r → ∃ lo hi : ℝ, lo = clipE range.1 pf.range.1 pf.range.2 ∧ hi = clipE range.2 pf.range.1 pf.range.2 ∧
        ∀ i < 5000, ∃ Nlo Nhi, pf.C lo (log10 (sampleDensity N1 5000 i)) = .ok Nlo ∧ pf.C hi (log10 (sampleDensity N1 5000 i)) = .ok Nhi ∧
          r.pdf.lam[i]? = some ((Nlo - Nhi) * A) := by
  obtain ⟨file, k, h1, h2, h3, h4⟩ := C78_large_area_counterexample C shp h shapes hS hr hne sep hsep ha hp
  refine ⟨file, _, h1, h2, k.area, h3, h4, ?_⟩
  intro r hr
  obtain ⟨i1, _, hn⟩ := age_parts hr
  refine ⟨_, _, rfl, rfl, ?_⟩
  intro i hi
  obtain ⟨Nlo, Nhi, g1, g2, g3, _⟩ := C81_expected pf hf c simpson _ _ _ none 5000 p0 p1 p3 hc N1 hN hN1 r.pdf i1 i hi
  exact ⟨Nlo, Nhi, g1, g2, g3⟩

/-- the counts of several converted files -/
theorem converted_counts (C : Classes) (shp : Except Exc Reading.Count) (version : List Char) (sep : List Char) (hsep : sep = ['\n'] ∨ sep = ['\r', '\n'])
    (Ss : List Scc.Source) (h : ∀ S ∈ Ss, ∃ shapes, Convertible version S shapes) :
    ∃ ks : List Reading.Count, List.Forall₂ (fun S k => ∃ file, Scc.writeScc sep version S = .ok file ∧
        openCount C shp ".scc".toList file = .ok (.craters k)) Ss ks ∧
      (∀ k ∈ ks, k.prebinned = false ∧ k.perimeter.isSome) ∧
      (ks.flatMap Reading.Count.craters).Perm ((Ss.flatMap (fun S => S.craters.map (fun c => (sciSigned 6 c.diam, sciSigned 2 c.fraction)))).map
        (fun x => ((x.1 : ℝ), (x.2 : ℝ)))) ∧
      (ks.map Reading.Count.area).sum = (((Ss.map (fun S => sciSigned 5 S.area)).sum : ℚ) : ℝ) := by
  induction Ss with
  | nil => exact ⟨[], .nil, by simp, by simp, by simp⟩
  | cons S Ss ih =>
    obtain ⟨ks, i1, i2, i3, i4⟩ := ih (fun S hS => h S (List.mem_cons_of_mem _ hS))
    obtain ⟨shapes, hc⟩ := h S List.mem_cons_self
    obtain ⟨file, k, h1, h2, hk, _, ha, hper⟩ := C78_converted_partial C shp hc.texts shapes hc.shapes_eq hc.points hc.rings sep hsep hc.area hc.perimeter
    refine ⟨k :: ks, .cons ⟨file, h1, h2⟩ i1, ?_, ?_, ?_⟩
    · intro x hx
      rw [List.mem_cons] at hx
      rcases hx with rfl | hx
      · exact ⟨scc_prebinned h2, by rw [hper]; rfl⟩
      · exact i2 x hx
    · rw [List.flatMap_cons, List.flatMap_cons, List.map_append]
      refine List.Perm.append ?_ i3
      rw [List.map_map]
      exact hk
    · rw [List.map_cons, List.sum_cons, i4, ha, List.map_cons, List.sum_cons]
      push_cast
      rfl

/-- **C150, merged counts.** Spatial counts converted to .scc files and merged have the ages of a .diam file listing all their craters, with the digits
of conversion and merging, on the sum of their areas. -/
theorem C150_merged_partial (C : Classes) (shp : Except Exc Reading.Count) (version : List Char) (sep : List Char) (hsep : sep = ['\n'] ∨ sep = ['\r', '\n'])
    (Ss : List Scc.Source) (h : ∀ S ∈ Ss, ∃ shapes, Convertible version S shapes) (h2 : 2 ≤ Ss.length) (hne : ∃ S ∈ Ss, S.craters ≠ [])
    (repr : ℚ → List Char) (names : List (List Char)) (hn : ∀ f ∈ names, PlainLine f) :
    ∃ (ks : List Reading.Count) (mcs : List Crater) (ma mp : ℝ), List.Forall₂ (fun S k => ∃ file, Scc.writeScc sep version S = .ok file ∧
        openCount C shp ".scc".toList file = .ok (.craters k)) Ss ks ∧ Reading.mergeCounts ks = .ok (mcs, ma, mp) ∧
      ∀ (cs : List (ℚ × ℚ)) (a p : ℚ), cs.map (fun x => ((x.1 : ℝ), (x.2 : ℝ))) = mcs → (a : ℝ) = ma → (p : ℝ) = mp →
        decVal (repr a) = some a → decVal (repr p) = some p →
        ∃ o, openCount C shp ".diam".toList (mergedText sep repr names a p cs) = .ok o ∧
          (∀ pf c simpson range ref r, ageOf pf c simpson o range true ref ≠ .ok r) ∧
          ∀ (file' : List Char) (diam frac : List ℚ), ListsCraters C file' diam frac (Ss.map (fun S => sciSigned 5 S.area)).sum →
            diam.Perm (Ss.flatMap (fun S => S.craters.map (fun c => sciSigned 5 (sciSigned 6 c.diam)))) →
            ∃ o', openCount C shp ".diam".toList file' = .ok o' ∧ ∀ pf c simpson range ref,
              ageOf pf c simpson o range false ref = ageOf pf c simpson o' range false ref := by
  obtain ⟨ks, i1, i2, i3, i4⟩ := converted_counts C shp version sep hsep Ss h
  obtain ⟨mcs, ma, mp, m1, m2, m3, m4, _⟩ := C50_merge_partial ks (by rw [← i1.length_eq]; exact h2) i2
  refine ⟨ks, mcs, ma, mp, i1, m1, ?_⟩
  intro cs a p ecs ea ep hra hrp
  have hinj : Function.Injective (fun x : ℚ × ℚ => ((x.1 : ℝ), (x.2 : ℝ))) := by
    intro x y hxy
    have := Prod.mk.inj hxy
    exact Prod.ext (by exact_mod_cast this.1) (by exact_mod_cast this.2)
  have hcs : cs.Perm (Ss.flatMap (fun S => S.craters.map (fun c => (sciSigned 6 c.diam, sciSigned 2 c.fraction)))) := by
    rw [← List.map_perm_map_iff hinj, ecs, m2]
    exact i3
  have hcne : cs ≠ [] := by
    rintro rfl
    have := hcs.symm.eq_nil
    obtain ⟨S, hS, hc⟩ := hne
    rw [List.flatMap_eq_nil_iff] at this
    exact hc (by simpa using this S hS)
  obtain ⟨k, ho, hk, _, ha, _, _, hper⟩ := C79_merged_partial C shp sep hsep repr names hn a p hra hrp cs hcne
  refine ⟨_, ho, fun pf c simpson range ref => C144_buffered_counterexample C shp _ _ ho pf c simpson range ref, ?_⟩
  intro file' diam frac hl hd
  obtain ⟨k', ho', hk', ha', hper', hb', hlen', _⟩ := open_lists shp hl
  refine ⟨_, ho', ?_⟩
  intro pf c simpson range ref
  have e := hk.map Prod.fst
  have e' := hk'.map Prod.fst
  rw [zip_firsts (fun q => (q : ℝ)) hlen'] at e'
  rw [List.map_map] at e
  have hp : (k.craters.map Prod.fst).Perm (k'.craters.map Prod.fst) := by
    refine e.trans (List.Perm.trans ?_ e'.symm)
    have g1 := hcs.map (fun x => ((sciSigned 5 x.1 : ℚ) : ℝ))
    have g2 := (hd.map (fun q : ℚ => (q : ℝ))).symm
    rw [List.map_flatMap] at g1 g2
    simp only [List.map_map] at g1 g2
    exact g1.trans g2
  have eA : k.area = k'.area := by
    rw [ha, ha', ea, m3, i4]
  simp only [ageOf, source, eA, hper, hper']
  exact age_perm hp _ _ _ _ _ _ _ _

/-- a count that can be converted, and merged with itself -/
example : Convertible "3.7".toList exampleSource
    [[[(0, 0), (0, 4), (4, 4), (0, 0)], [(1, 2), (1, 3), (2, 3), (1, 2)]], [[(10, 0), (10, 1), (11, 1), (10, 0)]]] ∧ exampleSource.craters ≠ [] :=
  ⟨⟨⟨by unfold Plain; decide +kernel, by decide, by unfold PlainLine; decide +kernel, by unfold PlainLine; decide +kernel⟩, rfl, by decide, by decide,
    .inr ⟨by norm_num [exampleSource], by norm_num [exampleSource]⟩, .inr ⟨by norm_num [exampleSource], by norm_num [exampleSource]⟩⟩,
    by simp [exampleSource]⟩

/-- a file listing its craters -/
example (C : Classes) : ListsCraters C (writeTextfile ['\n'] false (sampleLines "100".toList "fraction".toList [(1 / 2, 3 / 10), (2, 1)]))
      [1 / 2, 2] [3 / 10, 1] (sciSigned 5 exampleSource.area) ∧
    ([1 / 2, 2] : List ℚ).Perm (exampleSource.craters.map (fun c => sciSigned 6 c.diam)) ∧
    (([1 / 2, 2] : List ℚ).zip [3 / 10, 1]).Perm (exampleSource.craters.map (fun c => (sciSigned 6 c.diam, sciSigned 2 c.fraction))) := by
  have e : sciSigned 5 exampleSource.area = 100 := by decide +kernel
  rw [e]
  refine ⟨⟨_, _, "100".toList, sample_text C "100".toList "fraction".toList ⟨by decide, by decide +kernel⟩ ⟨by decide, by decide +kernel⟩ (by decide +kernel) _,
    ⟨_, rfl, .cons (by decide +kernel) (.cons (by decide +kernel) .nil)⟩, by simp, rfl,
    .inl ⟨⟨_, rfl, .cons (by decide +kernel) (.cons (by decide +kernel) .nil)⟩, rfl⟩, rfl, by decide +kernel⟩, ?_, ?_⟩
  · decide +kernel
  · decide +kernel

end

end Verif.Props
