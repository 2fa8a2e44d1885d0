import Verif.Props.TableRow

/-!
C147: the rows of the summary table for ages of all four kinds.
-/

namespace Verif.Props

open Verif.Py Verif.Text Verif.CountFile Verif.Cratercount Verif.Chronology Verif.Production Verif.Craterpdf Verif.Age
open Verif.FileAge Verif.TableRow Verif.PlotObject

noncomputable section

/-- Specification: the kinds of ages -/
inductive AgeKind
  | poisson | buffered | cumulative | differential
  deriving DecidableEq

/-- Specification: the names of the kinds -/
def AgeKind.named : AgeKind → List Char
  | .poisson => "poisson".toList
  | .buffered => "b-poisson".toList
  | .cumulative => "c-fit".toList
  | .differential => "d-fit".toList

/-- Specification: the age is found by fitting an isochron -/
def AgeKind.fitted : AgeKind → Bool
  | .cumulative | .differential => true
  | .poisson | .buffered => false

/-- Specification: the attributes of a plot of an age of this kind -/
def IsAge (x : Attrs Opened × (EReal × EReal)) (k : AgeKind) (p : PoissonPlot) : Prop :=
  dictGet x.1 "type".toList = some (.str k.named) ∧ dictGet x.1 "name".toList = some (.str p.name) ∧
  dictGet x.1 "source".toList = some (.str p.source) ∧ dictGet x.1 "binning".toList = some (.str p.binning) ∧
  dictGet x.1 "resurf".toList = some (.num p.resurf) ∧ dictGet x.1 "cratercount".toList = some (.count p.count) ∧ x.2 = p.range

/-- Specification: plots of any types, and those of ages in their order -/
inductive AgePlots : List (Attrs Opened × (EReal × EReal)) → List (AgeKind × PoissonPlot) → Prop
  | nil : AgePlots [] []
  | other {x s xs ps} : dictGet x.1 "type".toList = some (.str s) → (∀ k : AgeKind, s ≠ k.named) → AgePlots xs ps → AgePlots (x :: xs) ps
  | age {x k p xs ps} : IsAge x k p → AgePlots xs ps → AgePlots (x :: xs) ((k, p) :: ps)

/-- Specification: what was found for an age: the age and its limits, the logarithm of the density and its limits, two numbers of craters, and the
range of the bins used by a fit -/
structure Outcome where
  t : ℝ × ℝ × ℝ
  a : ℝ × ℝ × ℝ
  n : ℝ
  nEvent : ℝ
  bins : Option (EReal × EReal)

/-- Specification: the result of a fit of this type -/
def FitFound (E : TableRow.Env) (p : PoissonPlot) (k : FitType) (q : Outcome) : Prop :=
  ∃ b r, Binning.name b = String.ofList p.binning ∧
    Verif.Age.fitAge E.pf E.chron E.curveFit E.plotPF (object p.count) k b p.range (decide (p.resurf ≠ 0)) E.ref = .ok r ∧
    q.t.1 = r.t ∧ r.tLower = .ok q.t.2.1 ∧ r.tUpper = .ok q.t.2.2 ∧ q.a.1 = r.a0.best ∧ r.a0.lower = .ok q.a.2.1 ∧ r.a0.upper = .ok q.a.2.2 ∧
    q.n = r.n ∧ q.nEvent = r.nEvent ∧ q.bins = some r.binRange

/-- Specification: the result of a Poisson age -/
def PoissonFound (E : TableRow.Env) (p : PoissonPlot) (bcc : Bool) (q : Outcome) : Prop :=
  ∃ r, ageOf E.pf E.chron E.simpson p.count p.range bcc E.ref = .ok r ∧ r.t = [q.t.1, q.t.2.1, q.t.2.2] ∧ r.a0 = [q.a.1, q.a.2.1, q.a.2.2] ∧
    q.n = r.n ∧ q.nEvent = r.nEvent ∧ q.bins = none

/-- Specification: the result for an age of this kind -/
def Found (E : TableRow.Env) (k : AgeKind) (p : PoissonPlot) (q : Outcome) : Prop :=
  match k with
  | .poisson => PoissonFound E p false q
  | .buffered => PoissonFound E p true q
  | .cumulative => FitFound E p .cFit q
  | .differential => FitFound E p .dFit q

/-- Specification: the texts of both numbers of craters.  Of a list of craters they are whole numbers, except for the sum of the fractions of a fit; of a
table of bins they are the default texts of the numbers. -/
def NumbersShown (E : TableRow.Env) (k : AgeKind) (p : PoissonPlot) (q : Outcome) (s s' : List Char) : Prop :=
  ((k.fitted = true ∨ ∃ a b, p.count = .table a b) ∧ s = E.floatStr q.n ∨ k.fitted = false ∧ (∃ c, p.count = .craters c) ∧ decVal s = some (⌊q.n⌋₊ : ℚ)) ∧
  ((∃ a b, p.count = .table a b) ∧ s' = E.floatStr q.nEvent ∨ (∃ c, p.count = .craters c) ∧ decVal s' = some (⌊q.nEvent⌋₊ : ℚ))

/-- Specification: the text naming a range of diameters, as described by C38; without upper limit the lower one is not named -/
def RangeNamed (E : TableRow.Env) (r : EReal × EReal) (s : List Char) : Prop :=
  (r.2 = ⊤ ∨ r.2 = ⊥) ∧ diameterRange E.classes 0 none 2 = .ok s ∨
  ∃ lo hi : ℝ, r = ((lo : EReal), (hi : EReal)) ∧ diameterRange E.classes (E.ρ lo) (some (E.ρ hi)) 2 = .ok s

/-- Specification: the formatted age with its errors, as described by C37 -/
def AgeFormatted (E : TableRow.Env) (t : ℝ × ℝ × ℝ) (mathML : Bool) (s : List Char) : Prop :=
  strAge E.classes (E.ρ t.1) (E.ρ (t.2.2 - t.1)) (E.ρ (t.1 - t.2.1)) 3 none false false E.mu mathML = .ok s

/-- Specification: the formatted density with its limits, as described by C89 -/
def DensityFormatted (E : TableRow.Env) (a : ℝ × ℝ × ℝ) (mathML : Bool) (s : List Char) : Prop :=
  scientificNotation E.classes (E.ρ ((10 : ℝ) ^ a.1)) (some (E.ρ ((10 : ℝ) ^ a.2.2))) (E.ρ ((10 : ℝ) ^ a.2.1)) 3 false mathML (some "km-2".toList) = .ok s

/-- Specification: the fields of the row of an age: name, area (5 digits), binning, limits of diameter (2 digits), method, resurfacing, numbers of
craters, rank, age with lower and upper limit (3 digits), the logarithms of the densities (4 digits), the densities (3 digits), source, blank, the range as
text, age and density formatted as MathML, the same for Latex -/
def AgeRow (E : TableRow.Env) (k : AgeKind) (p : PoissonPlot) (q : Outcome) (range : EReal × EReal) (rank : ℕ) (f : List (List Char)) : Prop :=
  f.length = 27 ∧ f[0]? = some p.name ∧ Field f 1 (Denotes 5 (E.ρ (areaFrom p.count))) ∧ f[2]? = some p.binning ∧ Field f 3 (LimitShown E.ρ range.1) ∧
  Field f 4 (LimitShown E.ρ range.2) ∧ f[5]? = some k.named ∧ Field f 6 (fun s => intVal s = some p.resurf) ∧
  Field f 7 (fun s => Field f 8 (NumbersShown E k p q s)) ∧ Field f 9 (fun s => decVal s = some (rank : ℚ)) ∧
  Field f 10 (Denotes 3 (E.ρ q.t.1)) ∧ Field f 11 (Denotes 3 (E.ρ q.t.2.1)) ∧ Field f 12 (Denotes 3 (E.ρ q.t.2.2)) ∧
  Field f 13 (Denotes 4 (E.ρ q.a.1)) ∧ Field f 14 (Denotes 4 (E.ρ q.a.2.1)) ∧ Field f 15 (Denotes 4 (E.ρ q.a.2.2)) ∧
  Field f 16 (Denotes 3 (E.ρ ((10 : ℝ) ^ q.a.1))) ∧ Field f 17 (Denotes 3 (E.ρ ((10 : ℝ) ^ q.a.2.1))) ∧ Field f 18 (Denotes 3 (E.ρ ((10 : ℝ) ^ q.a.2.2))) ∧
  f[19]? = some p.source ∧ f[20]? = some " ".toList ∧ Field f 21 (RangeNamed E range) ∧
  Field f 22 (AgeFormatted E q.t true) ∧ Field f 23 (DensityFormatted E q.a true) ∧
  Field f 24 (AgeFormatted E q.t false) ∧ Field f 25 (DensityFormatted E q.a false)

/-- Specification: the table lists the range of bins used: its last age is a fit without resurfacing correction -/
def ListsBins (k : AgeKind) (p : PoissonPlot) : Prop := k.fitted = true ∧ p.resurf ≠ 1

instance (k : AgeKind) (p : PoissonPlot) : Decidable (ListsBins k p) := by unfold ListsBins; infer_instance

/-! ### the rows -/

/-- what is known of the row of an age -/
structure EntryOk (E : TableRow.Env) (k : AgeKind) (p : PoissonPlot) (q : Outcome) (d : Summary.Plot) : Prop where
  found : Found E k p q
  data : d.data = false
  fit : d.fit = k.fitted
  resurf1 : d.resurf1 = (p.resurf == 1)
  type : d.type = k.named
  name : d.name = p.name
  source : d.source = p.source
  binning : d.binning = p.binning
  area : d.area = gStr 4 (E.ρ (areaOf p.count))
  resurf : d.resurf = intStr p.resurf
  n : d.n = if k.fitted then E.floatStr q.n else countText E p.count q.n
  nEvent : d.nEvent = countText E p.count q.nEvent
  key : d.age = E.ρ q.t.1
  ageText : d.ageText = texts (fun x => gStr 2 (E.ρ x)) q.t
  a0Text : d.a0Text = texts (fun x => gStr 3 (E.ρ x)) q.a
  densityText : d.densityText = texts (fun x => sciStr 2 (E.ρ ((10 : ℝ) ^ x))) q.a
  range : rangeTexts E p.range = .ok d.range
  binRange : rangeTexts? E q.bins = .ok d.binRange
  base : p.name ≠ [] → d.sourceName = []
  formattedFields : OneField d.mathML.1 ∧ OneField d.mathML.2 ∧ OneField d.latex.1 ∧ OneField d.latex.2
  mathML : AgeFormatted E q.t true d.mathML.1 ∧ DensityFormatted E q.a true d.mathML.2
  latex : AgeFormatted E q.t false d.latex.1 ∧ DensityFormatted E q.a false d.latex.2

theorem formatted_parts {E : TableRow.Env} {a : Ages} {m : Bool} {s : List Char × List Char} (h : formatted E a m = .ok s) :
    AgeFormatted E a.t m s.1 ∧ DensityFormatted E a.a0 m s.2 := by
  unfold formatted at h
  obtain ⟨x, hx, h⟩ := except_bind_eq_ok h
  obtain ⟨y, hy, h⟩ := except_bind_eq_ok h
  injection h with h
  subst h
  exact ⟨hx, hy⟩

theorem range_named {E : TableRow.Env} {r : EReal × EReal} {t} (h : rangeTexts E r = .ok t) : RangeNamed E r t.2.2 := by
  unfold rangeTexts at h
  obtain ⟨s, hs, h⟩ := except_bind_eq_ok h
  injection h with h
  subst h
  unfold rangeLabel at hs
  by_cases h2 : r.2 = ⊤ ∨ r.2 = ⊥
  · rw [if_pos h2] at hs
    exact .inl ⟨h2, hs⟩
  · rw [if_neg h2] at hs
    by_cases h1 : r.1 = ⊤ ∨ r.1 = ⊥
    · rw [if_pos h1] at hs
      cases hs
    · rw [if_neg h1] at hs
      rw [not_or] at h1 h2
      exact .inr ⟨r.1.toReal, r.2.toReal, Prod.ext (EReal.coe_toReal h1.1 h1.2).symm (EReal.coe_toReal h2.1 h2.2).symm, hs⟩

theorem kind_listed (k : AgeKind) : k.named ∈ tableTypes := by cases k <;> decide +kernel

theorem binning_found {s : List Char} {b : Binning} (h : binningNamed s = .ok b) : b.name = String.ofList s := by
  unfold binningNamed at h
  split at h
  · rename_i b' hb
    injection h with h
    subst h
    have := List.find?_some hb
    rw [← String.toList_inj, String.toList_ofList]
    simpa using this
  · cases h

theorem row_other {E : TableRow.Env} {x : Attrs Opened × (EReal × EReal)} {s : List Char} (h : dictGet x.1 "type".toList = some (.str s))
    (hs : ∀ k : AgeKind, s ≠ k.named) : rowOf E x = .ok noRow := by
  have e : strAttr x.1 "type" = .ok s := by rw [strAttr, attr, h]; rfl
  rw [rowOf, e, ok_bind, if_neg]
  intro hm
  unfold tableTypes at hm
  simp only [List.mem_cons, List.not_mem_nil, or_false] at hm
  rcases hm with hm | hm | hm | hm
  · exact hs .cumulative hm
  · exact hs .differential hm
  · exact hs .poisson hm
  · exact hs .buffered hm

theorem row_age_eq {E : TableRow.Env} {x : Attrs Opened × (EReal × EReal)} {k : AgeKind} {p : PoissonPlot} (h : IsAge x k p) :
    rowOf E x = (calculate E k.named p.count p.binning p.range p.resurf >>= fun a =>
      rowTexts E k.named p.name p.source p.binning p.resurf p.count p.range a) := by
  obtain ⟨h1, h2, h3, h4, h5, h6, h7⟩ := h
  have e1 : strAttr x.1 "type" = .ok k.named := by rw [strAttr, attr, h1]; rfl
  have e2 : strAttr x.1 "name" = .ok p.name := by rw [strAttr, attr, h2]; rfl
  have e3 : strAttr x.1 "source" = .ok p.source := by rw [strAttr, attr, h3]; rfl
  have e4 : strAttr x.1 "binning" = .ok p.binning := by rw [strAttr, attr, h4]; rfl
  have e5 : intAttr x.1 "resurf" = .ok p.resurf := by rw [intAttr, attr, h5]; rfl
  have e6 : countAttr x.1 = .ok p.count := by rw [countAttr, attr, h6]; rfl
  rw [rowOf, e1, ok_bind, if_pos (kind_listed k), e6, ok_bind, e2, ok_bind, e3, ok_bind, e4, ok_bind, e5, ok_bind, h7]

theorem poisson_found {E : TableRow.Env} {p : PoissonPlot} {bcc : Bool} {a : Ages} (h : poissonAges E p.count p.range bcc = .ok a) :
    ∃ q, PoissonFound E p bcc q ∧ a = ⟨q.t, q.a, countText E p.count q.n, countText E p.count q.nEvent, q.bins⟩ := by
  unfold poissonAges at h
  obtain ⟨r, hr, ha⟩ := except_bind_eq_ok h
  obtain ⟨t, ht, ha⟩ := except_bind_eq_ok ha
  obtain ⟨a0, ha0, ha⟩ := except_bind_eq_ok ha
  injection ha with ha
  exact ⟨⟨t, a0, r.n, r.nEvent, none⟩, ⟨r, lifted_ok hr, triple_ok ht, triple_ok ha0, rfl, rfl, rfl⟩, ha.symm⟩

theorem fit_found {E : TableRow.Env} {p : PoissonPlot} {k : FitType} {a : Ages}
    (h : fitAges E p.count k p.binning p.range (p.resurf != 0) = .ok a) :
    ∃ q, FitFound E p k q ∧ a = ⟨q.t, q.a, E.floatStr q.n, countText E p.count q.nEvent, q.bins⟩ := by
  unfold fitAges at h
  obtain ⟨b, hb, h⟩ := except_bind_eq_ok h
  obtain ⟨r, hr, h⟩ := except_bind_eq_ok h
  obtain ⟨l, hl, h⟩ := except_bind_eq_ok h
  obtain ⟨u, hu, h⟩ := except_bind_eq_ok h
  obtain ⟨al, hal, h⟩ := except_bind_eq_ok h
  obtain ⟨au, hau, h⟩ := except_bind_eq_ok h
  injection h with h
  have er : (p.resurf != 0) = decide (p.resurf ≠ 0) := by
    by_cases h0 : p.resurf = 0 <;> simp [h0]
  rw [er] at hr
  exact ⟨⟨(r.t, l, u), (r.a0.best, al, au), r.n, r.nEvent, some r.binRange⟩,
    ⟨b, r, binning_found hb, lifted_ok hr, rfl, lifted_ok hl, lifted_ok hu, rfl, lifted_ok hal, lifted_ok hau, rfl, rfl, rfl⟩, h.symm⟩

theorem calculate_found {E : TableRow.Env} {k : AgeKind} {p : PoissonPlot} {a : Ages}
    (h : calculate E k.named p.count p.binning p.range p.resurf = .ok a) :
    ∃ q, Found E k p q ∧ a = ⟨q.t, q.a, if k.fitted then E.floatStr q.n else countText E p.count q.n, countText E p.count q.nEvent, q.bins⟩ := by
  have c1 : "b-poisson".toList ≠ "poisson".toList := by decide +kernel
  have c2 : "c-fit".toList ≠ "poisson".toList := by decide +kernel
  have c3 : "c-fit".toList ≠ "b-poisson".toList := by decide +kernel
  have c4 : "d-fit".toList ≠ "poisson".toList := by decide +kernel
  have c5 : "d-fit".toList ≠ "b-poisson".toList := by decide +kernel
  have c6 : "d-fit".toList ≠ "c-fit".toList := by decide +kernel
  cases k with
  | poisson =>
    have h : poissonAges E p.count p.range false = .ok a := (if_pos rfl).symm.trans h
    exact poisson_found h
  | buffered =>
    have h : poissonAges E p.count p.range true = .ok a := ((if_neg c1).trans (if_pos rfl)).symm.trans h
    exact poisson_found h
  | cumulative =>
    have h : fitAges E p.count .cFit p.binning p.range (p.resurf != 0) = .ok a := ((if_neg c2).trans ((if_neg c3).trans (if_pos rfl))).symm.trans h
    exact fit_found h
  | differential =>
    have h : fitAges E p.count .dFit p.binning p.range (p.resurf != 0) = .ok a := ((if_neg c4).trans ((if_neg c5).trans (if_neg c6))).symm.trans h
    exact fit_found h

attribute [local irreducible] AgeFormatted DensityFormatted in
theorem row_age {E : TableRow.Env} {x : Attrs Opened × (EReal × EReal)} {k : AgeKind} {p : PoissonPlot} (h : IsAge x k p) {d : Summary.Plot}
    (hd : rowOf E x = .ok d) : ∃ q, EntryOk E k p q d := by
  rw [row_age_eq h] at hd
  obtain ⟨a, ha, hd⟩ := except_bind_eq_ok hd
  obtain ⟨q, hq, ea⟩ := calculate_found ha
  unfold rowTexts at hd
  obtain ⟨base, hb, hd⟩ := except_bind_eq_ok hd
  obtain ⟨rt, hrt, hd⟩ := except_bind_eq_ok hd
  obtain ⟨bt, hbt, hd⟩ := except_bind_eq_ok hd
  obtain ⟨m, hm, hd⟩ := except_bind_eq_ok hd
  obtain ⟨l, hl, hd⟩ := except_bind_eq_ok hd
  injection hd with hd
  obtain ⟨m', em, k1, k2⟩ := formatted_text E a true
  obtain ⟨l', el, k3, k4⟩ := formatted_text E a false
  rw [em] at hm
  rw [el] at hl
  injection hm with hm
  injection hl with hl
  subst hm hl
  refine ⟨q, ?_⟩
  have f1 : AgeFormatted E q.t true m'.1 ∧ DensityFormatted E q.a true m'.2 := by
    have := formatted_parts em
    rw [ea] at this
    exact this
  have f2 : AgeFormatted E q.t false l'.1 ∧ DensityFormatted E q.a false l'.2 := by
    have := formatted_parts el
    rw [ea] at this
    exact this
  clear em el
  subst hd
  subst ea
  exact ⟨hq, rfl, by
    show (decide (k.named = "c-fit".toList) || decide (k.named = "d-fit".toList)) = k.fitted
    cases k <;> decide +kernel, rfl, rfl, rfl, rfl, rfl, rfl, rfl, rfl, rfl, rfl, rfl, rfl, rfl, hrt, hbt,
    fun hne => by
      rw [baseName, if_neg hne] at hb
      injection hb with hb
      exact hb.symm, ⟨k1, k2, k3, k4⟩, f1, f2⟩

theorem age_rows {E : TableRow.Env} {xs : List (Attrs Opened × (EReal × EReal))} {ps : List (AgeKind × PoissonPlot)} (h : AgePlots xs ps)
    {rows : List Summary.Plot} (hr : xs.mapM (rowOf E) = .ok rows) :
    ∃ qs : List Outcome, qs.length = ps.length ∧ (rows.filter (fun d => d.data = false)).length = ps.length ∧
      (rows.filter (fun d => d.data = false)).map Summary.Plot.age = qs.map (fun q => E.ρ q.t.1) ∧
      ∀ (i : ℕ) p, ps[i]? = some p → ∃ q d, qs[i]? = some q ∧ (rows.filter (fun d => d.data = false))[i]? = some d ∧ EntryOk E p.1 p.2 q d := by
  induction h generalizing rows with
  | nil =>
    rw [List.mapM_nil] at hr
    injection hr with hr
    subst hr
    exact ⟨[], rfl, rfl, rfl, fun i p h => by simp at h⟩
  | other hx hs _ ih =>
    rw [List.mapM_cons, row_other hx hs, ok_bind] at hr
    obtain ⟨rows', hr', hr⟩ := except_bind_eq_ok hr
    injection hr with hr
    subst hr
    rw [List.filter_cons_of_neg (by simp [noRow])]
    exact ih hr'
  | age hx _ ih =>
    rw [List.mapM_cons] at hr
    obtain ⟨d, hd, hr⟩ := except_bind_eq_ok hr
    obtain ⟨rows', hr', hr⟩ := except_bind_eq_ok hr
    injection hr with hr
    subst hr
    obtain ⟨q, ok⟩ := row_age hx hd
    obtain ⟨qs, h1, h2, h3, h4⟩ := ih hr'
    rw [List.filter_cons_of_pos (by simp [ok.data])]
    refine ⟨q :: qs, by rw [List.length_cons, List.length_cons, h1], by rw [List.length_cons, List.length_cons, h2],
      by rw [List.map_cons, List.map_cons, h3, ok.key], ?_⟩
    intro i p hp
    cases i with
    | zero =>
      simp only [List.getElem?_cons_zero, Option.some.injEq] at hp
      subst hp
      exact ⟨_, d, rfl, rfl, ok⟩
    | succ i =>
      simp only [List.getElem?_cons_succ] at hp ⊢
      exact h4 i p hp

theorem count_field {E : TableRow.Env} (hE : ∀ x, OneField (E.floatStr x)) (o : Opened) (x : ℝ) : OneField (countText E o x) := by
  cases o with
  | craters c => exact oneField_plain (plain_nat _)
  | table a b => exact hE x

theorem entry_plain {E : TableRow.Env} (hE : ∀ x, OneField (E.floatStr x)) {k : AgeKind} {p : PoissonPlot} {q d} (h : EntryOk E k p q d)
    (hf : Nameable p) : plainRow d := by
  obtain ⟨f0, f1, f2, f3⟩ := hf
  obtain ⟨g1, g2, g3⟩ := rangeTexts_text E h.range
  have hb : OneField (d.binRange.getD ([], [], [])).1 ∧ OneField (d.binRange.getD ([], [], [])).2.1 ∧ OneField (d.binRange.getD ([], [], [])).2.2 := by
    have hbr := h.binRange
    cases hq : q.bins with
    | none =>
      rw [hq, rangeTexts?] at hbr
      injection hbr with hbr
      rw [← hbr]
      decide
    | some r =>
      rw [hq, rangeTexts?] at hbr
      obtain ⟨t, ht, hbr⟩ := except_bind_eq_ok hbr
      injection hbr with hbr
      rw [← hbr]
      obtain ⟨b1, b2, b3⟩ := rangeTexts_text E ht
      exact ⟨by show OneField t.1; rw [b1]; exact limit_text E _, by show OneField t.2.1; rw [b2]; exact limit_text E _, b3⟩
  unfold plainRow
  simp only [List.forall_mem_cons]
  rw [h.name, h.base f0, h.area, h.binning, h.type, h.resurf, h.n, h.nEvent, h.ageText, h.a0Text, h.densityText, h.source, g1, g2]
  have e : OneField [] := by decide
  have g : ∀ P v, OneField (gStr P v) := fun P v => oneField_denotes (denotes_g P v)
  have s : ∀ P v, OneField (sciStr P v) := fun P v => oneField_denotes (denotes_sci P v)
  have ht : OneField k.named := by cases k <;> decide +kernel
  have hn : OneField (if k.fitted then E.floatStr q.n else countText E p.count q.n) := by
    split
    · exact hE _
    · exact count_field hE _ _
  exact ⟨f1, e, g _ _, f3, ht, oneField_int (intVal_intStr _), hn, count_field hE _ _, g _ _, g _ _, g _ _, g _ _, g _ _, g _ _, s _ _, s _ _,
    s _ _, f2, limit_text E _, limit_text E _, g3, hb.1, hb.2.1, hb.2.2, h.formattedFields.1, h.formattedFields.2.1, h.formattedFields.2.2.1,
    h.formattedFields.2.2.2, by simp⟩

theorem numbers_shown {E : TableRow.Env} {k : AgeKind} {p : PoissonPlot} {q : Outcome} :
    NumbersShown E k p q (if k.fitted then E.floatStr q.n else countText E p.count q.n) (countText E p.count q.nEvent) := by
  constructor
  · cases hk : k.fitted with
    | true => exact .inl ⟨.inl rfl, rfl⟩
    | false =>
      cases hc : p.count with
      | craters c => exact .inr ⟨rfl, ⟨c, rfl⟩, decVal_natStr _⟩
      | table a b => exact .inl ⟨.inr ⟨a, b, rfl⟩, rfl⟩
  · cases hc : p.count with
    | craters c => exact .inr ⟨⟨c, rfl⟩, decVal_natStr _⟩
    | table a b => exact .inl ⟨⟨a, b, rfl⟩, rfl⟩

theorem listed_texts {E : TableRow.Env} {k k' : AgeKind} {p p' : PoissonPlot} {q q' : Outcome} {d last : Summary.Plot} (h : EntryOk E k p q d)
    (hl : EntryOk E k' p' q' last) : (ListsBins k' p' → ∀ rg, listedRange last d = some rg → ∃ r, q.bins = some r ∧ rangeTexts E r = .ok rg) ∧
      (ListsBins k' p' → q.bins = none → listedRange last d = none) ∧ (ListsBins k' p' → ∀ r, q.bins = some r → (listedRange last d).isSome) ∧
      (¬ ListsBins k' p' → listedRange last d = some d.range) := by
  have hc : ListsBins k' p' ↔ (last.fit && !last.resurf1) = true := by
    rw [hl.fit, hl.resurf1, ListsBins]
    simp
  have hb := h.binRange
  refine ⟨fun hL rg hr => ?_, fun hL hq => ?_, fun hL r hq => ?_, fun hL => ?_⟩
  · rw [listedRange, if_pos (hc.1 hL)] at hr
    cases hq : q.bins with
    | none =>
      rw [hq, rangeTexts?] at hb
      injection hb with hb
      rw [← hb] at hr
      cases hr
    | some r =>
      rw [hq, rangeTexts?] at hb
      obtain ⟨t, ht, hb⟩ := except_bind_eq_ok hb
      injection hb with hb
      rw [← hb] at hr
      injection hr with hr
      exact ⟨r, rfl, hr ▸ ht⟩
  · rw [listedRange, if_pos (hc.1 hL)]
    rw [hq, rangeTexts?] at hb
    injection hb with hb
    exact hb.symm
  · rw [listedRange, if_pos (hc.1 hL)]
    rw [hq, rangeTexts?] at hb
    obtain ⟨t, ht, hb⟩ := except_bind_eq_ok hb
    injection hb with hb
    rw [← hb]
    rfl
  · rw [listedRange, if_neg (fun e => hL (hc.2 e))]

theorem poisson_bins {E : TableRow.Env} {k : AgeKind} {p : PoissonPlot} {q : Outcome} (h : Found E k p q) :
    (k.fitted = false → q.bins = none) ∧ (k.fitted = true → ∃ r, q.bins = some r) := by
  cases k with
  | poisson => obtain ⟨r, _, _, _, _, _, e⟩ := h; exact ⟨fun _ => e, nofun⟩
  | buffered => obtain ⟨r, _, _, _, _, _, e⟩ := h; exact ⟨fun _ => e, nofun⟩
  | cumulative => obtain ⟨b, r, _, _, _, _, _, _, _, _, _, _, e⟩ := h; exact ⟨nofun, fun _ => ⟨_, e⟩⟩
  | differential => obtain ⟨b, r, _, _, _, _, _, _, _, _, _, _, e⟩ := h; exact ⟨nofun, fun _ => ⟨_, e⟩⟩

/-- the last row belongs to the last plot -/
theorem last_entry {E : TableRow.Env} {ps : List (AgeKind × PoissonPlot)} {qs : List Outcome} {ages : List Summary.Plot}
    (h2 : ages.length = ps.length) (h4 : ∀ (i : ℕ) p, ps[i]? = some p → ∃ q d, qs[i]? = some q ∧ ages[i]? = some d ∧ EntryOk E p.1 p.2 q d)
    {last : AgeKind × PoissonPlot} (hl : ps.getLast? = some last) : ∃ d q, ages.getLast? = some d ∧ EntryOk E last.1 last.2 q d := by
  rw [List.getLast?_eq_getElem?] at hl
  obtain ⟨q, d, _, hd, ok⟩ := h4 _ _ hl
  exact ⟨d, q, by rw [List.getLast?_eq_getElem?, h2]; exact hd, ok⟩

theorem entry_of {E : TableRow.Env} {ps : List (AgeKind × PoissonPlot)} {qs : List Outcome} {ages : List Summary.Plot}
    (h2 : ages.length = ps.length) (h4 : ∀ (i : ℕ) p, ps[i]? = some p → ∃ q d, qs[i]? = some q ∧ ages[i]? = some d ∧ EntryOk E p.1 p.2 q d)
    {d : Summary.Plot} (hd : d ∈ ages) : ∃ p ∈ ps, ∃ q, EntryOk E p.1 p.2 q d := by
  obtain ⟨i, hi, e⟩ := List.getElem_of_mem hd
  obtain ⟨q, d', _, hd', ok⟩ := h4 i ps[i] (List.getElem?_eq_getElem (by omega))
  have : d' = d := by
    rw [List.getElem?_eq_getElem hi, e] at hd'
    injection hd' with hd'
    exact hd'.symm
  exact ⟨_, List.getElem_mem _, q, this ▸ ok⟩

/-- **C147.** The table of any plots has one row for each age, of whatever kind, in the order of the plots, with the name and source of the plot, the area
of its count, the method, the numbers of craters, the age with its limits and the densities found for it - as numbers and formatted - and as rank the number of
older ages.  The diameter limits are those of the bins used, if the last age is a fit without resurfacing correction, otherwise those requested. -/
theorem C147_rows_partial (E : TableRow.Env) (hE : ∀ x, OneField (E.floatStr x)) (xs : List (Attrs Opened × (EReal × EReal)))
    (ps : List (AgeKind × PoissonPlot)) (h : AgePlots xs ps) (hf : ∀ p ∈ ps, Nameable p.2) (out : Option (List Char)) (ht : table E xs = .ok out) :
    (ps = [] → out = none) ∧ ∀ last, ps.getLast? = some last → ∃ st, ∃ qs : List Outcome, out = some st ∧ (split '\n' st).length = 3 + ps.length ∧
      (∃ d, Denotes 6 (E.ρ E.ref) d ∧ ∀ l, (split '\n' st)[2]? = some l → split ',' l = headings ("N(".toList ++ d ++ ")".toList)) ∧
      qs.length = ps.length ∧ ∀ (i : ℕ) p, ps[i]? = some p → ∃ q row range, qs[i]? = some q ∧ Found E p.1 p.2 q ∧
        (split '\n' st)[3 + i]? = some row ∧ (ListsBins last.1 last.2 → q.bins = some range) ∧ (¬ ListsBins last.1 last.2 → range = p.2.range) ∧
        AgeRow E p.1 p.2 q range (rankOf (qs.map (fun q => E.ρ q.t.1)) i) (split ',' row) := by
  unfold table at ht
  obtain ⟨rows, hr, ht⟩ := except_bind_eq_ok ht
  obtain ⟨qs, q1, q2, q3, q4⟩ := age_rows h hr
  obtain ⟨ages, hages⟩ : ∃ ages, ages = rows.filter (fun d => d.data = false) := ⟨_, rfl⟩
  rw [← hages] at q2 q3 q4
  obtain ⟨g0, g1⟩ := C48_table_partial (densityLabel E) (label_field E) rows ages hages
  constructor
  · rintro rfl
    rw [g0 (List.eq_nil_of_length_eq_zero q2)] at ht
    injection ht with ht
    exact ht.symm
  · intro last hlast
    obtain ⟨dl, ql, hdl, okl⟩ := last_entry q2 q4 hlast
    obtain ⟨g2, g1⟩ := g1 dl hdl
    have hsome : ∀ d ∈ ages, (listedRange dl d).isSome := by
      intro d hd
      cases hlr : listedRange dl d with
      | none => rw [g2 ⟨d, hd, hlr⟩] at ht; cases ht
      | some r => rfl
    obtain ⟨st, e1, e2, e3, e4⟩ := g1 hsome (by
      intro d hd
      obtain ⟨p, hp, q, ok⟩ := entry_of q2 q4 hd
      exact entry_plain hE ok (hf p hp))
    rw [e1] at ht
    injection ht with ht
    refine ⟨st, qs, ht.symm, by rw [e2, q2], ⟨_, denotes_g 5 _, e3⟩, q1, ?_⟩
    intro i p hp
    obtain ⟨q, d, hq, hd, ok⟩ := q4 i p hp
    have hpm : p ∈ ps := List.mem_of_getElem? hp
    have hi : i < ps.length := (List.getElem?_eq_some_iff.1 hp).1
    obtain ⟨row, hrow⟩ : ∃ row, (split '\n' st)[3 + i]? = some row := ⟨_, List.getElem?_eq_getElem (by omega)⟩
    obtain ⟨rg, hrg, hs⟩ := e4 i d row hd hrow
    obtain ⟨l1, _, _, l3⟩ := listed_texts ok okl
    have hrange : ∃ range, (ListsBins last.1 last.2 → q.bins = some range) ∧ (¬ ListsBins last.1 last.2 → range = p.2.range) ∧
        rg.1 = limitText E range.1 ∧ rg.2.1 = limitText E range.2 ∧ RangeNamed E range rg.2.2 := by
      by_cases hL : ListsBins last.1 last.2
      · obtain ⟨r, hr, hrt⟩ := l1 hL rg hrg
        obtain ⟨b1, b2, _⟩ := rangeTexts_text E hrt
        exact ⟨r, fun _ => hr, fun h => absurd hL h, b1, b2, range_named hrt⟩
      · have hrg' := l3 hL
        rw [hrg] at hrg'
        injection hrg' with hrg'
        obtain ⟨b1, b2, _⟩ := rangeTexts_text E ok.range
        exact ⟨p.2.range, fun h => absurd h hL, fun _ => rfl, hrg' ▸ b1, hrg' ▸ b2, hrg' ▸ range_named ok.range⟩
    obtain ⟨range, h1, h2, h3, h4, h5⟩ := hrange
    refine ⟨q, row, range, hq, ok.found, hrow, h1, h2, ?_⟩
    rw [hs, q3, rowFields, if_neg (by rw [ok.name]; exact (hf p hpm).1), ok.name, ok.area, ok.binning, ok.type, ok.resurf, ok.n, ok.nEvent,
      ok.ageText, ok.a0Text, ok.densityText, ok.source, h3, h4]
    have harea : areaOf p.2.count = areaFrom p.2.count := by cases p.2.count <;> rfl
    rw [harea]
    exact ⟨rfl, rfl, ⟨_, rfl, denotes_g 4 _⟩, rfl, ⟨_, rfl, limit_shown E _⟩, ⟨_, rfl, limit_shown E _⟩, rfl, ⟨_, rfl, intVal_intStr _⟩,
      ⟨_, rfl, _, rfl, numbers_shown⟩, ⟨_, rfl, decVal_natStr _⟩, ⟨_, rfl, denotes_g 2 _⟩, ⟨_, rfl, denotes_g 2 _⟩, ⟨_, rfl, denotes_g 2 _⟩,
      ⟨_, rfl, denotes_g 3 _⟩, ⟨_, rfl, denotes_g 3 _⟩, ⟨_, rfl, denotes_g 3 _⟩, ⟨_, rfl, denotes_sci 2 _⟩, ⟨_, rfl, denotes_sci 2 _⟩,
      ⟨_, rfl, denotes_sci 2 _⟩, rfl, rfl, ⟨_, rfl, h5⟩, ⟨_, rfl, ok.mathML.1⟩, ⟨_, rfl, ok.mathML.2⟩, ⟨_, rfl, ok.latex.1⟩, ⟨_, rfl, ok.latex.2⟩⟩

/-- **C147, refused.** If the last age is a fit without resurfacing correction and any other age is a Poisson age, there is no table but an error. -/
theorem C147_mixed_counterexample (E : TableRow.Env) (xs : List (Attrs Opened × (EReal × EReal)))
    (ps : List (AgeKind × PoissonPlot)) (h : AgePlots xs ps) (last : AgeKind × PoissonPlot) (hl : ps.getLast? = some last)
    (hb : ListsBins last.1 last.2) (p : AgeKind × PoissonPlot) (hp : p ∈ ps) (hk : p.1.fitted = false) : ∃ e, table E xs = .error e := by
  rw [table]
  cases hr : xs.mapM (rowOf E) with
  | error e => exact ⟨e, rfl⟩
  | ok rows =>
    rw [ok_bind]
    obtain ⟨qs, q1, q2, q3, q4⟩ := age_rows h hr
    obtain ⟨ages, hages⟩ : ∃ ages, ages = rows.filter (fun d => d.data = false) := ⟨_, rfl⟩
    rw [← hages] at q2 q3 q4
    obtain ⟨g0, g1⟩ := C48_table_partial (densityLabel E) (label_field E) rows ages hages
    obtain ⟨dl, ql, hdl, okl⟩ := last_entry q2 q4 hl
    obtain ⟨i, hi⟩ := List.getElem?_of_mem hp
    obtain ⟨q, d, _, hd, ok⟩ := q4 i p hi
    refine ⟨.type, (g1 dl hdl).1 ⟨d, List.mem_of_getElem? hd, ?_⟩⟩
    exact (listed_texts ok okl).2.1 hb ((poisson_bins ok.found).1 hk)

theorem binning_defined {s : List Char} {b : Binning} (h : b.name = String.ofList s) : binningNamed s = .ok b := by
  have : b.name.toList = s := by rw [h, String.toList_ofList]
  subst this
  cases b <;> decide +kernel

theorem poisson_defined {E : TableRow.Env} {p : PoissonPlot} {bcc : Bool} {q : Outcome} (h : PoissonFound E p bcc q) :
    poissonAges E p.count p.range bcc = .ok ⟨q.t, q.a, countText E p.count q.n, countText E p.count q.nEvent, q.bins⟩ := by
  obtain ⟨r, hr, h1, h2, h3, h4, h5⟩ := h
  rw [poissonAges, hr, lift, ok_bind, h1, triple, ok_bind, h2, triple, ok_bind, h3, h4, h5]

theorem fit_defined {E : TableRow.Env} {p : PoissonPlot} {k : FitType} {q : Outcome} (h : FitFound E p k q) :
    fitAges E p.count k p.binning p.range (p.resurf != 0) = .ok ⟨q.t, q.a, E.floatStr q.n, countText E p.count q.nEvent, q.bins⟩ := by
  obtain ⟨b, r, hb, hr, h1, h2, h3, h4, h5, h6, h7, h8, h9⟩ := h
  have er : (p.resurf != 0) = decide (p.resurf ≠ 0) := by
    by_cases h0 : p.resurf = 0 <;> simp [h0]
  rw [er, fitAges, binning_defined hb, ok_bind, hr, lift, ok_bind, h2, lift, ok_bind, h3, lift, ok_bind, h5, lift, ok_bind, h6, lift, ok_bind,
    h7, h8, h9, ← h1, ← h4]

theorem calculate_defined {E : TableRow.Env} {k : AgeKind} {p : PoissonPlot} {q : Outcome} (h : Found E k p q) :
    ∃ a, calculate E k.named p.count p.binning p.range p.resurf = .ok a ∧ a.binRange = q.bins := by
  have c1 : "b-poisson".toList ≠ "poisson".toList := by decide +kernel
  have c2 : "c-fit".toList ≠ "poisson".toList := by decide +kernel
  have c3 : "c-fit".toList ≠ "b-poisson".toList := by decide +kernel
  have c4 : "d-fit".toList ≠ "poisson".toList := by decide +kernel
  have c5 : "d-fit".toList ≠ "b-poisson".toList := by decide +kernel
  have c6 : "d-fit".toList ≠ "c-fit".toList := by decide +kernel
  cases k with
  | poisson => exact ⟨_, (if_pos rfl).trans (poisson_defined h), rfl⟩
  | buffered => exact ⟨_, ((if_neg c1).trans (if_pos rfl)).trans (poisson_defined h), rfl⟩
  | cumulative => exact ⟨_, ((if_neg c2).trans ((if_neg c3).trans (if_pos rfl))).trans (fit_defined h), rfl⟩
  | differential => exact ⟨_, ((if_neg c4).trans ((if_neg c5).trans (if_neg c6))).trans (fit_defined h), rfl⟩

/-- Specification: a range of diameters which can be written: two numbers, or without upper limit -/
def Writable (r : EReal × EReal) : Prop := r.2 = ⊤ ∨ ∃ lo hi : ℝ, r = ((lo : EReal), (hi : EReal))

theorem range_defined (E : TableRow.Env) {r : EReal × EReal} (h : Writable r) : ∃ rt, rangeTexts E r = .ok rt := by
  have : ∃ s, rangeLabel E r = .ok s := by
    unfold rangeLabel
    rcases h with hu | ⟨lo, hi, hu⟩
    · rw [if_pos (.inl hu)]
      obtain ⟨s, hs, _⟩ := range_text E.classes 0 none
      exact ⟨s, hs⟩
    · rw [hu, if_neg (by simp), if_neg (by simp)]
      obtain ⟨s, hs, _⟩ := range_text E.classes (E.ρ (lo : EReal).toReal) (some (E.ρ (hi : EReal).toReal))
      exact ⟨s, hs⟩
  obtain ⟨s, hs⟩ := this
  exact ⟨_, by rw [rangeTexts, hs, ok_bind]⟩

theorem rows_defined {E : TableRow.Env} {xs : List (Attrs Opened × (EReal × EReal))} {ps : List (AgeKind × PoissonPlot)} (h : AgePlots xs ps)
    (hf : ∀ p ∈ ps, Nameable p.2) (ha : ∀ p ∈ ps, Writable p.2.range ∧ ∃ q, Found E p.1 p.2 q ∧ ∀ r, q.bins = some r → Writable r) :
    ∃ rows, xs.mapM (rowOf E) = .ok rows := by
  induction h with
  | nil => exact ⟨[], rfl⟩
  | other hx hs _ ih =>
    obtain ⟨rows, e⟩ := ih hf ha
    exact ⟨_, by rw [List.mapM_cons, row_other hx hs, ok_bind, e]; rfl⟩
  | @age x k p xs ps hx _ ih =>
    obtain ⟨rows, e⟩ := ih (fun p hp => hf p (List.mem_cons_of_mem _ hp)) (fun p hp => ha p (List.mem_cons_of_mem _ hp))
    obtain ⟨hw, q, hq, hb⟩ := ha (k, p) (by simp)
    obtain ⟨a, e1, ea⟩ := calculate_defined hq
    obtain ⟨rt, e2⟩ := range_defined E hw
    have e6 : ∃ bt, rangeTexts? E a.binRange = .ok bt := by
      rw [ea]
      cases hqb : q.bins with
      | none => exact ⟨_, rfl⟩
      | some r =>
        obtain ⟨bt, hbt⟩ := range_defined E (hb r hqb)
        exact ⟨_, by rw [rangeTexts?, hbt, ok_bind]⟩
    obtain ⟨bt, e6⟩ := e6
    obtain ⟨m, e3, _⟩ := formatted_text E a true
    obtain ⟨l, e4, _⟩ := formatted_text E a false
    have e5 : ∃ d, rowOf E x = .ok d := by
      rw [row_age_eq hx, e1, ok_bind, rowTexts, baseName, if_neg (hf (k, p) (by simp)).1, ok_bind, e2, ok_bind, e6, ok_bind, e3, ok_bind,
        e4, ok_bind]
      exact ⟨_, rfl⟩
    obtain ⟨d, e5⟩ := e5
    exact ⟨_, by rw [List.mapM_cons, e5, ok_bind, e]; rfl⟩

/-- **C147, written.** The table is made if every age is found, the ranges can be written, and - in case the last age is a fit without resurfacing correction -
all ages are fits. -/
theorem C147_written (E : TableRow.Env) (hE : ∀ x, OneField (E.floatStr x)) (xs : List (Attrs Opened × (EReal × EReal)))
    (ps : List (AgeKind × PoissonPlot)) (h : AgePlots xs ps) (hf : ∀ p ∈ ps, Nameable p.2)
    (ha : ∀ p ∈ ps, Writable p.2.range ∧ ∃ q, Found E p.1 p.2 q ∧ ∀ r, q.bins = some r → Writable r)
    (hm : ∀ last, ps.getLast? = some last → ListsBins last.1 last.2 → ∀ p ∈ ps, p.1.fitted = true) : ∃ out, table E xs = .ok out := by
  obtain ⟨rows, hr⟩ := rows_defined h hf ha
  obtain ⟨qs, q1, q2, q3, q4⟩ := age_rows h hr
  obtain ⟨ages, hages⟩ : ∃ ages, ages = rows.filter (fun d => d.data = false) := ⟨_, rfl⟩
  rw [← hages] at q2 q3 q4
  obtain ⟨g0, g1⟩ := C48_table_partial (densityLabel E) (label_field E) rows ages hages
  rw [table, hr, ok_bind]
  cases hl : ps.getLast? with
  | none =>
    rw [List.getLast?_eq_none_iff] at hl
    subst hl
    exact ⟨_, g0 (List.eq_nil_of_length_eq_zero q2)⟩
  | some last =>
    obtain ⟨dl, ql, hdl, okl⟩ := last_entry q2 q4 hl
    obtain ⟨st, e, _⟩ := (g1 dl hdl).2 (by
      intro d hd
      obtain ⟨p, hp, q, ok⟩ := entry_of q2 q4 hd
      obtain ⟨_, _, l3, l4⟩ := listed_texts ok okl
      by_cases hL : ListsBins last.1 last.2
      · obtain ⟨r, hr⟩ := (poisson_bins ok.found).2 (hm last hl hL p hp)
        exact l3 hL r hr
      · rw [l4 hL]; rfl) (by
      intro d hd
      obtain ⟨p, hp, q, ok⟩ := entry_of q2 q4 hd
      exact entry_plain hE ok (hf p hp))
    exact ⟨_, e⟩

/-- the attributes of plots of a fit and of data -/
def sampleFitPlot (o : Opened) (k : AgeKind) (resurf : ℤ) : Attrs Opened × (EReal × EReal) :=
  ([("cratercount".toList, .count o), ("source".toList, .str "mare.diam".toList), ("name".toList, .str "Mare".toList),
    ("type".toList, .str k.named), ("binning".toList, .str "pseudo-log".toList), ("resurf".toList, .num resurf)], (0, ⊤))

theorem sample_plots (o : Opened) (k k' : AgeKind) (r : ℤ) : AgePlots [sampleDataPlot o, sampleFitPlot o k r, sampleFitPlot o k' r]
    [(k, ⟨"Mare".toList, "mare.diam".toList, "pseudo-log".toList, r, o, (0, ⊤)⟩), (k', ⟨"Mare".toList, "mare.diam".toList, "pseudo-log".toList, r, o, (0, ⊤)⟩)] :=
  .other rfl (by intro k; cases k <;> decide +kernel) (.age ⟨rfl, rfl, rfl, rfl, rfl, rfl, rfl⟩ (.age ⟨rfl, rfl, rfl, rfl, rfl, rfl, rfl⟩ .nil))

/-- an environment in which the fit of the example below is found -/
def fitEnv (E : TableRow.Env) (c : Chron) : TableRow.Env :=
  { E with pf := initPoly [0, -1] none, chron := c, curveFit := fun _ _ _ _ => .ok 1, plotPF := ⟨fun _ => 1, fun _ _ => 1, fun _ => 1⟩, ref := 1 }

/-- a fit to a table of one bin: the hypotheses of the theorems are met -/
theorem sample_found (E : TableRow.Env) : ∃ c o q r, GoodChron c 0 0 2 ∧ q.bins = some r ∧ Writable r ∧
    Found (fitEnv E c) .cumulative ⟨"Mare".toList, "mare.stat".toList, "pseudo-log".toList, 0, o, (0, ⊤)⟩ q := by
  obtain ⟨c, hg, hN, _⟩ := age_example (fun _ _ => 0) none
  obtain ⟨m, hm, hij, hgb⟩ := generateBins_aligned (b := .pseudoLog) (by simp) 0 0 1 (by norm_num)
  obtain ⟨g0, e0⟩ : ∃ g0, g0 = gridFn .pseudoLog 0 0 := ⟨_, rfl⟩
  obtain ⟨g1, e1⟩ : ∃ g1, g1 = gridFn .pseudoLog 0 1 := ⟨_, rfl⟩
  rw [← e0, ← e1] at hgb
  have hpt : point .cumulative 10 0 (some fun _ => 1) ⟨g0, g1, 1, 1.5, 4, 4, 4, 4⟩ = .ok ⟨g0, 4 / 10 + 0, (4 / 10 + 0) / Real.sqrt 4⟩ := by
    have h1 : fdiv 4 10 = .ok (4 / 10) := by simp [fdiv]
    have h2 : errBar (4 / 10 + 0) 4 = .ok ((4 / 10 + 0) / Real.sqrt 4) := by
      unfold errBar; rw [if_neg (by norm_num)]
    simp only [point, h1, except_ok_bind, h2]
  have hp0 : 0 < g0 := e0 ▸ gridFn_pos _ _ _
  have hk : (nonEmpty [⟨g0, g1, 1, 1.5, 4, 4, 4, 4⟩]).filter (inRange (0, ⊤) false) = [⟨g0, g1, 1, 1.5, 4, 4, 4, 4⟩] := by
    have h3 : ((0 : EReal) < ((1.5 : ℝ) : EReal)) := by exact_mod_cast (by norm_num : (0 : ℝ) < 1.5)
    simp [nonEmpty, inRange, h3, EReal.coe_lt_top]
  have hbr : ∃ x y : ℝ, binRangeOf .pseudoLog [⟨g0, g1, 1, 1.5, 4, 4, 4, 4⟩] (0, ⊤) false = .ok ((x : EReal), (y : EReal)) := by
    obtain ⟨x, l, hl⟩ : ∃ x l, gridList (gridFn .pseudoLog 0) 0 m = x :: l := by
      cases he : gridList (gridFn .pseudoLog 0) 0 m with
      | nil =>
        have := congrArg List.length he
        rw [gridList_length, List.length_nil] at this
        omega
      | cons x l => exact ⟨x, l, rfl⟩
    rw [hl] at hgb
    refine ⟨x, (x :: l).getLast (by simp), ?_⟩
    simp [binRangeOf, hgb, List.getLast?_eq_some_getLast]
  obtain ⟨x, y, hbr⟩ := hbr
  have hpd : plotData .cumulative .pseudoLog [⟨g0, g1, 1, 1.5, 4, 4, 4, 4⟩] 10 0 (some fun _ => 1) (some (0, ⊤)) false false =
      .ok ⟨[⟨g0, 4 / 10 + 0, (4 / 10 + 0) / Real.sqrt 4⟩], 4, 4, ((x : EReal), (y : EReal))⟩ := by
    simp only [plotData, hk, List.mapM_cons, List.mapM_nil, hpt, except_ok_bind, hbr, pure, Except.pure]
    simp
  have hs : Real.sqrt 4 = 2 := by rw [show (4 : ℝ) = 2 ^ 2 by norm_num, Real.sqrt_sq (by norm_num)]
  have l1 : (0 : ℝ) < 4 / 10 + 0 - 0.98 * ((4 / 10 + 0) / Real.sqrt 4) := by rw [hs]; norm_num
  have l2 : (0 : ℝ) < 4 / 10 + 0 + 0.98 * ((4 / 10 + 0) / Real.sqrt 4) := by rw [hs]; norm_num
  have hfit : ∃ fr lo up, (initPoly [0, -1] none).fit (fun _ _ _ _ => .ok 1) .cumulative [⟨g0, 4 / 10 + 0, (4 / 10 + 0) / Real.sqrt 4⟩] = .ok fr ∧
      fr.best = 1 - 0 ∧ fr.lower = .ok lo ∧ fr.upper = .ok up := by
    have h4 : (0 : ℝ) < 4 / 10 + 0 := by norm_num
    simp only [PFn.fit, fitData, List.mapM_cons, List.mapM_nil, except_ok_bind, sigmaOf, if_pos h4, log10E_pos h4,
      log10E_pos hp0, log10E_pos l1, log10E_pos l2, pure, Except.pure]
    exact ⟨_, _, _, rfl, rfl, rfl, rfl⟩
  obtain ⟨fr, lo, up, hfit, hb, hlo, hup⟩ := hfit
  have hev : densityAt (initPoly [0, -1] none) 1 [fr.best] = .ok ((10 : ℝ) ^ (1 - 0 : ℝ)) := by
    simp only [densityAt, hb]
    rw [(C18_evaluate_partial _ .cumulative 1).1 (1 - 0) _ (by norm_num) rfl, C16_at_1km _ (Or.inl ⟨_, _, rfl⟩)]
  obtain ⟨f, hf⟩ : ∃ f : FitAge, f = ⟨fr, interp c.n1s c.ts ((10 : ℝ) ^ fr.best), fr.lower.bind (fun x => c.t (some x) none),
    fr.upper.bind (fun x => c.t (some x) none), 4, 4, ((x : EReal), (y : EReal)), (10 : ℝ) ^ (1 - 0 : ℝ)⟩ := ⟨_, rfl⟩
  have hr : Verif.Age.fitAge (initPoly [0, -1] none) c (fun _ _ _ _ => .ok 1) ⟨fun _ => 1, fun _ _ => 1, fun _ => 1⟩
      (object (.table 10 [⟨g0, g1, 1, 1.5, 4, 4, 4, 4⟩])) .cFit .pseudoLog (0, ⊤) false 1 = .ok f := by
    have hpd' : ((object (.table 10 [⟨g0, g1, 1, 1.5, 4, 4, 4, 4⟩])).getplotdata (FitType.cFit.args .pseudoLog (0, ⊤) false ⟨fun _ => 1, fun _ _ => 1, fun _ => 1⟩)).2 =
        .ok ⟨[⟨g0, 4 / 10 + 0, (4 / 10 + 0) / Real.sqrt 4⟩], 4, 4, ((x : EReal), (y : EReal))⟩ := hpd
    have hfit' : (initPoly [0, -1] none).fit (fun _ _ _ _ => .ok 1) (FitType.cFit.args .pseudoLog (0, ⊤) false ⟨fun _ => 1, fun _ _ => 1, fun _ => 1⟩).pr
      [⟨g0, 4 / 10 + 0, (4 / 10 + 0) / Real.sqrt 4⟩] = .ok fr := hfit
    simp only [Verif.Age.fitAge, hpd', hfit', hev, except_ok_bind, Chron.t, hf]
  refine ⟨c, .table 10 [⟨g0, g1, 1, 1.5, 4, 4, 4, 4⟩], ⟨(f.t, interp c.n1s c.ts ((10 : ℝ) ^ lo), interp c.n1s c.ts ((10 : ℝ) ^ up)), (fr.best, lo, up), 4, 4,
    some ((x : EReal), (y : EReal))⟩, ((x : EReal), (y : EReal)), hg, rfl, .inr ⟨x, y, rfl⟩, .pseudoLog, f, rfl, ?_⟩
  refine ⟨hr, rfl, ?_, ?_, ?_, ?_, ?_, ?_, ?_, ?_⟩ <;> rw [hf]
  · show fr.lower.bind _ = _
    rw [hlo]
    rfl
  · show fr.upper.bind _ = _
    rw [hup]
    rfl
  · exact hlo
  · exact hup

/-- the attributes of a plot of a fit to a table of bins -/
def sampleStatPlot (o : Opened) : Attrs Opened × (EReal × EReal) :=
  ([("cratercount".toList, .count o), ("source".toList, .str "mare.stat".toList), ("name".toList, .str "Mare".toList),
    ("type".toList, .str "c-fit".toList), ("binning".toList, .str "pseudo-log".toList), ("resurf".toList, .num 0)], (0, ⊤))

/-- a table of a fit -/
example (E : TableRow.Env) (hE : ∀ x, OneField (E.floatStr x)) : ∃ c o out, table (fitEnv E c) [sampleDataPlot o, sampleStatPlot o] = .ok out := by
  obtain ⟨c, o, q, r, _, hq, hw, hfound⟩ := sample_found E
  obtain ⟨out, h⟩ := C147_written (fitEnv E c) hE [sampleDataPlot o, sampleStatPlot o]
    [(.cumulative, ⟨"Mare".toList, "mare.stat".toList, "pseudo-log".toList, 0, o, (0, ⊤)⟩)]
    (.other rfl (by intro k; cases k <;> decide +kernel) (.age ⟨rfl, rfl, rfl, rfl, rfl, rfl, rfl⟩ .nil))
    (by
      intro p hp
      rw [List.mem_singleton] at hp
      subst hp
      show "Mare".toList ≠ [] ∧ OneField "Mare".toList ∧ OneField "mare.stat".toList ∧ OneField "pseudo-log".toList
      decide +kernel)
    (by
      intro p hp
      rw [List.mem_singleton] at hp
      subst hp
      refine ⟨.inl rfl, q, hfound, fun r' hr' => ?_⟩
      rw [hq] at hr'
      injection hr' with hr'
      exact hr' ▸ hw)
    (by
      intro _ _ _ p hp
      rw [List.mem_singleton] at hp
      subst hp
      rfl)
  exact ⟨c, o, out, h⟩

/-- a Poisson age and a fit of the same count, with default settings: no table -/
example (E : TableRow.Env) (o : Opened) : ∃ e, table E [sampleDataPlot o, sampleFitPlot o .poisson 0, sampleFitPlot o .cumulative 0] = .error e :=
  C147_mixed_counterexample E _ _ (sample_plots o .poisson .cumulative 0) _ rfl ⟨rfl, by show (0 : ℤ) ≠ 1; decide⟩ _ (List.mem_cons_self) rfl

end

end Verif.Props
