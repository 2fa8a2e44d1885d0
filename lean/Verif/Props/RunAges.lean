import Verif.Model.RunAges
import Verif.Props.Run
import Verif.Props.TableFits
import Verif.Props.Range

/-!
C152: from the words of a command and the text of the crater files to the rows of the table of ages.
-/

namespace Verif.Props

open Verif.Py Verif.Text Verif.Cli Verif.PlotObject
open Verif.CountFile Verif.Cratercount Verif.Chronology Verif.Production Verif.Craterpdf Verif.Age Verif.FileAge Verif.TableRow Verif.RunAges

noncomputable section

/-- Specification: the limit of a diameter range which a text stands for: `b` and the number of an occupied bin, a number of kilometres, or infinity -/
inductive LimitOf : List Char → Lim → Prop
  | bin (t : List Char) (k : ℤ) : intVal t = some k → LimitOf ('b' :: t) (.bin k)
  | value (s : List Char) (q : ℚ) : decVal s = some q → LimitOf s (.val ((q : ℝ) : EReal))
  | unlimited : LimitOf "inf".toList (.val ⊤)

/-- Specification: what is asked for a plot: type, name, file of the crater count, binning, lower and upper limit of the diameters, snapping, resurfacing
correction -/
structure Ask where
  type : List Char
  name : List Char
  source : List Char
  binning : List Char
  lower : List Char
  upper : List Char
  snap : ℤ
  resurf : ℤ

/-- Specification: plot number `i` of a command with these items after its `-p`.  Type, binning, snapping and source are those last given up to this plot, the
limits and the resurfacing correction are its own, as is its name; without a name it has that of the file. -/
def AskedPlot (env : PlotEnv Opened) (items : List (List (List Char × List Char))) (i : ℕ) (q : Ask) : Prop :=
  let before := (items.take (i + 1)).flatten
  LastOr env (plotDefault env "type".toList) before "type".toList (.str q.type) ∧
  LastOr env (plotDefault env "binning".toList) before "binning".toList (.str q.binning) ∧
  (∃ x, LastOr env (plotDefault env "snap".toList) before "snap".toList x ∧ IntegerOf (attrOf (α := Opened) x) q.snap) ∧
  (∃ s, LastGiven env before "source".toList (.str s) ∧ Placed env s q.source) ∧
  ∃ d, items[i]? = some d ∧ LastOr env (plotDefault env "range".toList) d "range".toList (.strs [q.lower, q.upper]) ∧
    (∃ x, LastOr env (plotDefault env "resurf".toList) d "resurf".toList x ∧ IntegerOf (attrOf (α := Opened) x) q.resurf) ∧
    ∃ nm, LastOr env (plotDefault env "name".toList) d "name".toList (.str nm) ∧
      (nm ≠ [] ∧ q.name = nm ∨
        nm = [] ∧ ∃ dir ext, FileParts env.classes q.source dir q.name ext ∧ ¬ "CRATER".toList <:+: q.name)

/-- Specification: the diameter range `r` for the limits asked for, as described by C09 and C10 -/
def RangeAsked (c : Opened) (q : Ask) (r : EReal × EReal) : Prop :=
  ∀ l0 l1, LimitOf q.lower l0 → LimitOf q.upper l1 → ∃ b : Binning, b.name = String.ofList q.binning ∧
    ((object c).decodeRange l0 l1 b (decide (q.snap ≠ 0))).2 = .ok r

theorem text_limit {s : List Char} {x : Lim} (h : LimitOf s x) : textLim s = x := by
  cases h with
  | bin t k h => rw [textLim, if_pos rfl, h]
  | value s q h =>
    cases s with
    | nil =>
      have h0 : decVal [] = none := by decide
      rw [h0] at h
      cases h
    | cons c t =>
      have hb : c ≠ 'b' := by
        rintro rfl
        rw [decVal] at h
        have h1 : takeSign ('b' :: t) = (1, 'b' :: t) := rfl
        have h2 : ('b' :: t).takeWhile isDig = [] := rfl
        have h3 : ('b' :: t).dropWhile isDig = 'b' :: t := rfl
        simp only [h1, h2, h3, fracPart] at h
        cases h
      rw [textLim, if_neg hb, floatLim, h]
  | unlimited =>
    have h1 : decVal "inf".toList = none := by decide +kernel
    have h2 : (takeSign "inf".toList).2.map Char.toLower ∈ infinite := by decide +kernel
    have h3 : (takeSign "inf".toList).1 = 1 := by decide +kernel
    have e : textLim "inf".toList = floatLim "inf".toList := rfl
    rw [e, floatLim, h1]
    dsimp only
    rw [if_pos h2, if_pos h3]

/-- the last value given is unique -/
theorem lastGiven_unique {env : PlotEnv Opened} {items : List (List Char × List Char)} {k : List Char} {x y : PVal}
    (hx : LastGiven env items k x) (hy : LastGiven env items k y) : x = y := by
  obtain ⟨a, k0, v, b, e, hr, hv, hn⟩ := hx
  obtain ⟨a', k0', v', b', e', hr', hv', hn'⟩ := hy
  rw [e] at e'
  rcases List.append_eq_append_iff.1 e' with ⟨l, h1, h2⟩ | ⟨l, h1, h2⟩
  · cases l with
    | nil =>
      simp only [List.nil_append, List.cons.injEq, Prod.mk.injEq] at h2
      obtain ⟨⟨rfl, rfl⟩, rfl⟩ := h2
      exact value_unique (resolves_mem hr) hv hv'
    | cons z l =>
      simp only [List.cons_append, List.cons.injEq] at h2
      exact absurd hr' (hn (k0', v') (by rw [h2.2]; simp))
  · cases l with
    | nil =>
      simp only [List.nil_append, List.cons.injEq, Prod.mk.injEq] at h2
      obtain ⟨⟨rfl, rfl⟩, rfl⟩ := h2
      exact value_unique (resolves_mem hr) hv hv'
    | cons z l =>
      simp only [List.cons_append, List.cons.injEq] at h2
      exact absurd hr (hn' (k0, v) (by rw [h2.2]; simp))

theorem placed_unique {env : PlotEnv Opened} {s a b : List Char} (ha : Placed env s a) (hb : Placed env s b) : a = b := by
  have h1 := placeSource_ok.2 ha
  have h2 := placeSource_ok.2 hb
  rw [h1] at h2
  injection h2

/-- the range of a plot is decoded from its attributes -/
theorem made_range {R : Type} {E : RunEnv Opened R} {dark : Bool} {x : PDict × Opened} {o : Attrs Opened} {r : R} (h : makePlot E dark x = .ok (o, r)) :
    ∃ c rv bv sv, dictGet o "cratercount".toList = some (.count c) ∧ dictGet o "range".toList = some rv ∧ dictGet o "binning".toList = some bv ∧
      dictGet o "snap".toList = some sv ∧ E.decode c rv bv sv = .ok r := by
  rw [makePlot] at h
  obtain ⟨d, _, h⟩ := bind_ok h
  rw [create] at h
  obtain ⟨o', _, h⟩ := bind_ok h
  obtain ⟨r', hr, h⟩ := bind_ok h
  injection h with h
  injection h with h1 h2
  subst h1 h2
  have ha : ∀ (k : String) v, attr o' k = .ok v → dictGet o' k.toList = some v := by
    intro k v hk
    rw [attr] at hk
    cases hg : dictGet o' k.toList with
    | none => rw [hg] at hk; cases hk
    | some w => rw [hg] at hk; cases hk; rfl
  rw [PlotObject.decodeRange] at hr
  obtain ⟨c, hc, hr⟩ := bind_ok hr
  cases c with
  | count c =>
    obtain ⟨rv, h1, hr⟩ := bind_ok hr
    obtain ⟨bv, h2, hr⟩ := bind_ok hr
    obtain ⟨sv, h3, hr⟩ := bind_ok hr
    exact ⟨c, rv, bv, sv, ha _ _ hc, ha _ _ h1, ha _ _ h2, ha _ _ h3, hr⟩
  | none => cases hr
  | num _ => cases hr
  | real _ => cases hr
  | str _ => cases hr
  | strs _ => cases hr
  | reals _ => cases hr

theorem decode_range {c : Opened} {q : Ask} {r : EReal × EReal}
    (h : decodeOf c (.strs [q.lower, q.upper]) (.str q.binning) (.num q.snap) = .ok r) : RangeAsked c q r := by
  intro l0 l1 h0 h1
  unfold decodeOf at h
  have e : limsOf (.strs [q.lower, q.upper]) = .ok (l0, l1) := by
    rw [limsOf, List.map_cons, List.map_cons, List.map_nil, text_limit h0, text_limit h1, twoLims]
  rw [e, ok_bind] at h
  dsimp only at h
  obtain ⟨b, hb, h⟩ := bind_ok h
  refine ⟨b, binning_found hb, ?_⟩
  have hs : (q.snap != 0) = decide (q.snap ≠ 0) := by
    by_cases hz : q.snap = 0 <;> simp [hz]
  rw [hs] at h
  cases hd : ((object c).decodeRange l0 l1 b (decide (q.snap ≠ 0))).2 with
  | error e => rw [hd] at h; cases h
  | ok x => rw [hd] at h; cases h; rfl

/-- Specification: how a plot `x` answers what is asked for -/
def Answers (load : List Char → Except Exc Opened) (q : Ask) (x : Attrs Opened × (EReal × EReal)) : Prop :=
  dictGet x.1 "type".toList = some (.str q.type) ∧ ∃ c, load q.source = .ok c ∧ RangeAsked c q x.2 ∧
    ∀ k : AgeKind, q.type = k.named → IsAge x k ⟨q.name, q.source, q.binning, q.resurf, c, x.2⟩

/-- **C152, plots.** Each plot of a command has the type, name, source, binning and resurfacing correction asked for, the crater count is read from this
source, and the diameter range is that of the limits asked for. -/
theorem C152_plots (C : Classes) (isNeg : List Char → Bool) (F : FileSys) (cwd : List Char) (words : List (List Char))
    (l flat : List Given) (cwd' : List Char) (n : ℕ) (hw : CommandOf isNeg words l) (h : Expands C isNeg F cwd l flat cwd' n)
    (depth : ℕ) (hd : n ≤ depth) (E : List Char → RunEnv Opened (EReal × EReal)) (hE : ∀ d, (E d).set.classes = C)
    (hdec : (E cwd').decode = decodeOf) (hload : ∀ c, (E cwd').load [] ≠ .ok c) :
    ∃ st, runCommand C isNeg F depth cwd words = .ok st ∧ ∀ P, prepareRun E st = .ok P →
      ∃ p input items, PresentedAs (E cwd').set.lower flat p ∧ InputOf flat input ∧
        List.Forall₂ (ItemsOf C) ((flat.filter (fun g => g.dest = "plot".toList)).map (fun g => g.values)) items ∧
        P.plots.length = items.length ∧
        ∀ env : PlotEnv Opened, env = ⟨C, (E cwd').set.lower, (E cwd').path, (E cwd').isabs, input, p == "sequence".toList, (E cwd').load⟩ →
          PlainInput env → ∀ (i : ℕ) x q, P.plots[i]? = some x → AskedPlot env items i q → Answers (E cwd').load q x := by
  obtain ⟨st, h1, hplots⟩ := C141_plots C isNeg F cwd words l flat cwd' n hw h depth hd E hE
  obtain ⟨st', h1', hcwd, _⟩ := C133_in_place_partial C isNeg F cwd words l flat cwd' n hw h depth hd
  obtain rfl : st' = st := by rw [h1] at h1'; cases h1'; rfl
  refine ⟨st', h1, fun P hP => ?_⟩
  obtain ⟨p, input, items, dark, g1, g2, g3, g4, _, g5⟩ := hplots P hP
  refine ⟨p, input, items, g1, g2, g3, g4, ?_⟩
  intro env henv hplain i x q hx hq
  obtain ⟨c0, p0, specs, ds, c1, ratio, dark', r1, r2, r3, r4, r5, r6, r7, r8⟩ := run_ok hP
  rw [hcwd] at r8
  have hmade : ∃ y, makePlot (E cwd') dark' y = .ok (x.1, x.2) := by
    have hall := Verif.Cratercount.mapM_ok _ r8
    obtain ⟨y, _, hy⟩ := forall₂_right hall (List.mem_of_getElem? hx)
    exact ⟨y, hy⟩
  obtain ⟨y, hy⟩ := hmade
  obtain ⟨c, rv, bv, sv, d1, d2, d3, d4, d5⟩ := made_range hy
  obtain ⟨a1, a2, ⟨xs, a3, a3'⟩, ⟨s0, a4, a4'⟩, d, a5, a6, ⟨xr, a7, a7'⟩, nm, a8, a9⟩ := hq
  obtain ⟨b1, b2, s, c', b3, b4, b5, b6⟩ := g5 env henv i x.1 x.2 d (by rw [hx]) a5
  obtain ⟨s1, b7, b8⟩ := b5 hplain
  have es : s1 = s0 := by
    have := lastGiven_unique b7 a4
    injection this
  rw [es] at b8
  have es' : s = q.source := placed_unique b8 a4'
  subst es'
  have ec : c' = c := by
    rw [d1] at b4
    injection b4 with b4
    injection b4 with b4
    exact b4.symm
  subst ec
  have hne : q.source ≠ [] := by
    intro e
    rw [e] at b3
    exact hload _ b3
  obtain ⟨b9, b10⟩ := b6 hne
  have t1 := (b1 "type".toList (by decide +kernel) _ a1).2.2.1 (by decide +kernel)
  have t2 := (b1 "binning".toList (by decide +kernel) _ a2).2.2.1 (by decide +kernel)
  have t3 := (b2 "range".toList (by decide +kernel) _ a6).2.2.1 (by decide +kernel)
  obtain ⟨z, z1, z2⟩ := (b1 "snap".toList (by decide +kernel) _ a3).1 (by decide +kernel)
  obtain ⟨w, w1, w2⟩ := (b2 "resurf".toList (by decide +kernel) _ a7).1 (by decide +kernel)
  have ez : z = q.snap := integer_unique z1 a3'
  have ew : w = q.resurf := integer_unique w1 a7'
  subst ez ew
  rw [t2] at d3
  rw [t3] at d2
  rw [z2] at d4
  injection d2 with d2
  injection d3 with d3
  injection d4 with d4
  subst d2 d3 d4
  rw [hdec] at d5
  refine ⟨t1, c', b3, decode_range d5, fun k hk => ?_⟩
  obtain ⟨n1, n2⟩ := b10 nm a8
  have hname : dictGet x.1 "name".toList = some (.str q.name) := by
    rcases a9 with ⟨m1, m2⟩ | ⟨m1, dir, ext, m2, m3⟩
    · rw [m2]
      exact n1 m1
    · subst henv
      exact n2 m1 dir q.name ext m2 m3
  exact ⟨by rw [t1, ← hk]; rfl, hname, b9, t2, w2, d1, rfl⟩

/-- Specification: the kind of age with this name -/
def kindNamed (s : List Char) : Option AgeKind := [AgeKind.poisson, .buffered, .cumulative, .differential].find? (fun k => k.named == s)

/-- Specification: the ages among what is asked for -/
def agesAsked (asks : List Ask) : List (AgeKind × Ask) := asks.filterMap (fun q => (kindNamed q.type).map (fun k => (k, q)))

theorem kind_named {s : List Char} {k : AgeKind} (h : kindNamed s = some k) : s = k.named := by
  have := List.find?_some h
  exact (by simpa using this : k.named = s).symm

theorem kind_none {s : List Char} (h : kindNamed s = none) (k : AgeKind) : s ≠ k.named := by
  have := List.find?_eq_none.1 h k (by cases k <;> simp)
  intro e
  exact this (by simp [e])

/-- the plots of ages -/
theorem plots_of_asks {load : List Char → Except Exc Opened} {asks : List Ask} {xs : List (Attrs Opened × (EReal × EReal))}
    (h : List.Forall₂ (Answers load) asks xs) : ∃ ps, AgePlots xs ps ∧ List.Forall₂ (fun (y : AgeKind × Ask) (z : AgeKind × PoissonPlot) =>
      z.1 = y.1 ∧ ∃ c r, load y.2.source = .ok c ∧ RangeAsked c y.2 r ∧ z.2 = ⟨y.2.name, y.2.source, y.2.binning, y.2.resurf, c, r⟩) (agesAsked asks) ps := by
  induction h with
  | nil => exact ⟨[], .nil, .nil⟩
  | @cons q x asks xs hq _ ih =>
    obtain ⟨ps, i1, i2⟩ := ih
    obtain ⟨ht, c, hc, hr, ha⟩ := hq
    unfold agesAsked at i2 ⊢
    rw [List.filterMap_cons]
    cases hk : kindNamed q.type with
    | none => exact ⟨ps, .other ht (kind_none hk) i1, i2⟩
    | some k => exact ⟨_, .age (ha k (kind_named hk)) i1, .cons ⟨rfl, c, x.2, hc, hr, rfl⟩ i2⟩

/-- Specification: a name and texts which fit into the table -/
def FitsTable (q : Ask) : Prop := q.name ≠ [] ∧ OneField q.name ∧ OneField q.source ∧ OneField q.binning

/-- Specification: all the plots of a command, with these items after its `-p` -/
def AskedPlots (env : PlotEnv Opened) (items : List (List (List Char × List Char))) (asks : List Ask) : Prop :=
  asks.length = items.length ∧ ∀ (i : ℕ) q, asks[i]? = some q → AskedPlot env items i q

/-- Specification: the plot of an age asked for, with its crater count and diameter range -/
def plotFor (q : Ask) (c : Opened) (r : EReal × EReal) : PoissonPlot := ⟨q.name, q.source, q.binning, q.resurf, c, r⟩

/-- **C152, table.** The table of ages which a command gives has one row for each plot of an age asked for, in this order.  The row shows what is found for the
crater count of the file given for this plot and the diameter range given for it. -/
theorem C152_table_partial (C : Classes) (isNeg : List Char → Bool) (F : FileSys) (cwd : List Char) (words : List (List Char))
    (l flat : List Given) (cwd' : List Char) (n : ℕ) (hw : CommandOf isNeg words l) (h : Expands C isNeg F cwd l flat cwd' n)
    (depth : ℕ) (hd : n ≤ depth) (E : List Char → RunEnv Opened (EReal × EReal)) (hE : ∀ d, (E d).set.classes = C)
    (hdec : (E cwd').decode = decodeOf) (hload : ∀ c, (E cwd').load [] ≠ .ok c) (T : TableRow.Env) (hT : ∀ x, OneField (T.floatStr x)) :
    ∃ st, runCommand C isNeg F depth cwd words = .ok st ∧ ∀ P out, prepareRun E st = .ok P → table T P.plots = .ok out →
      ∃ p input items, PresentedAs (E cwd').set.lower flat p ∧ InputOf flat input ∧
        List.Forall₂ (ItemsOf C) ((flat.filter (fun g => g.dest = "plot".toList)).map (fun g => g.values)) items ∧
        ∀ env : PlotEnv Opened, env = ⟨C, (E cwd').set.lower, (E cwd').path, (E cwd').isabs, input, p == "sequence".toList, (E cwd').load⟩ →
          PlainInput env → ∀ asks, AskedPlots env items asks → (∀ y ∈ agesAsked asks, FitsTable y.2) →
            (agesAsked asks = [] → out = none) ∧ ∀ last, (agesAsked asks).getLast? = some last → ∃ t, ∃ fs : List Outcome, out = some t ∧
              (split '\n' t).length = 3 + (agesAsked asks).length ∧ fs.length = (agesAsked asks).length ∧
              ∀ (j : ℕ) k q, (agesAsked asks)[j]? = some (k, q) → ∃ f row c r range, fs[j]? = some f ∧ (split '\n' t)[3 + j]? = some row ∧
                (E cwd').load q.source = .ok c ∧ RangeAsked c q r ∧ Found T k (plotFor q c r) f ∧
                (last.1.fitted = true ∧ last.2.resurf ≠ 1 → f.bins = some range) ∧ (¬ (last.1.fitted = true ∧ last.2.resurf ≠ 1) → range = r) ∧
                AgeRow T k (plotFor q c r) f range (rankOf (fs.map (fun f => T.ρ f.t.1)) j) (split ',' row) := by
  obtain ⟨st, h1, hplots⟩ := C152_plots C isNeg F cwd words l flat cwd' n hw h depth hd E hE hdec hload
  refine ⟨st, h1, fun P out hP hout => ?_⟩
  obtain ⟨p, input, items, g1, g2, g3, g4, g5⟩ := hplots P hP
  refine ⟨p, input, items, g1, g2, g3, ?_⟩
  intro env henv hplain asks ⟨hlen, hasks⟩ hfit
  have hall : List.Forall₂ (Answers (E cwd').load) asks P.plots := by
    rw [List.forall₂_iff_get]
    refine ⟨by omega, fun i hi hj => ?_⟩
    rw [List.get_eq_getElem, List.get_eq_getElem]
    exact g5 env henv hplain i _ _ (List.getElem?_eq_getElem hj) (hasks i _ (List.getElem?_eq_getElem hi))
  obtain ⟨ps, hps, hrel⟩ := plots_of_asks hall
  have hl := hrel.length_eq
  have hf : ∀ z ∈ ps, Nameable z.2 := by
    intro z hz
    obtain ⟨y, hy, _, c, r, _, _, e⟩ := forall₂_right hrel hz
    rw [e]
    exact hfit y hy
  obtain ⟨t0, t1⟩ := C147_rows_partial T hT P.plots ps hps hf out hout
  have get : ∀ (j : ℕ) y z, (agesAsked asks)[j]? = some y → ps[j]? = some z → z.1 = y.1 ∧ ∃ c r, (E cwd').load y.2.source = .ok c ∧ RangeAsked c y.2 r ∧
      z.2 = plotFor y.2 c r := by
    intro j y z hy hz
    obtain ⟨hi, e1⟩ := List.getElem?_eq_some_iff.1 hy
    obtain ⟨hj, e2⟩ := List.getElem?_eq_some_iff.1 hz
    have := hrel.get (i := j) hi hj
    rw [List.get_eq_getElem, List.get_eq_getElem, e1, e2] at this
    exact this
  refine ⟨fun e => t0 (List.eq_nil_of_length_eq_zero (by rw [← hl, e]; rfl)), fun last hlast => ?_⟩
  have hlast' : ∃ z, ps.getLast? = some z ∧ z.1 = last.1 ∧ z.2.resurf = last.2.resurf := by
    rw [List.getLast?_eq_getElem?] at hlast ⊢
    have hlt := (List.getElem?_eq_some_iff.1 hlast).1
    obtain ⟨z, hz⟩ : ∃ z, ps[ps.length - 1]? = some z := ⟨_, List.getElem?_eq_getElem (by omega)⟩
    rw [hl] at hlast
    obtain ⟨e1, c, r, _, _, e2⟩ := get _ _ _ hlast hz
    exact ⟨z, hz, e1, by rw [e2]; rfl⟩
  obtain ⟨z, hz, z1, z2⟩ := hlast'
  obtain ⟨t, fs, e, e1, _, e2, e3⟩ := t1 z hz
  refine ⟨t, fs, e, by rw [e1, hl], by rw [e2, hl], ?_⟩
  intro j k q hj
  obtain ⟨y, hy⟩ : ∃ y, ps[j]? = some y := ⟨_, List.getElem?_eq_getElem (by rw [← hl]; exact (List.getElem?_eq_some_iff.1 hj).1)⟩
  obtain ⟨f, row, range, f1, f2, f3, f4, f5, f6⟩ := e3 j y hy
  obtain ⟨k1, c, r, k2, k3, k4⟩ := get j _ _ hj hy
  have hy' : y = (k, plotFor q c r) := Prod.ext k1 k4
  subst hy'
  unfold ListsBins at f4 f5
  rw [z1, z2] at f4 f5
  exact ⟨f, row, c, r, range, f1, f3, k2, k3, f2, f4, f5, f6⟩

/-- **C152, Poisson ages.** If the file given for a plot of a Poisson age lists craters with their area, its row shows this area, the number of
craters whose diameters lie in the diameter range given and the range of the production function, and the median and the limits of the likelihood of this number. -/
theorem C152_file_partial (C : Classes) (isNeg : List Char → Bool) (F : FileSys) (cwd : List Char) (words : List (List Char))
    (l flat : List Given) (cwd' : List Char) (n : ℕ) (hw : CommandOf isNeg words l) (h : Expands C isNeg F cwd l flat cwd' n)
    (depth : ℕ) (hd : n ≤ depth) (E : List Char → RunEnv Opened (EReal × EReal)) (hE : ∀ d, (E d).set.classes = C)
    (hdec : (E cwd').decode = decodeOf) (hload : ∀ c, (E cwd').load [] ≠ .ok c) (T : TableRow.Env) (hT : ∀ x, OneField (T.floatStr x))
    (hpf : Constructed T.pf) (p0 p1 p3 : ℝ) (hc : GoodChron T.chron p0 p1 p3) (N1 : ℝ) (hN : T.chron.N1 1 = .ok N1) (hN1 : N1 ≠ 1) :
    ∃ st, runCommand C isNeg F depth cwd words = .ok st ∧ ∀ P out, prepareRun E st = .ok P → table T P.plots = .ok out →
      ∃ p input items, PresentedAs (E cwd').set.lower flat p ∧ InputOf flat input ∧
        List.Forall₂ (ItemsOf C) ((flat.filter (fun g => g.dest = "plot".toList)).map (fun g => g.values)) items ∧
        ∀ env : PlotEnv Opened, env = ⟨C, (E cwd').set.lower, (E cwd').path, (E cwd').isabs, input, p == "sequence".toList, (E cwd').load⟩ →
          PlainInput env → ∀ asks, AskedPlots env items asks → (∀ y ∈ agesAsked asks, FitsTable y.2) →
          ∀ (j : ℕ) q shp file diam frac a, (agesAsked asks)[j]? = some (.poisson, q) → ListsCraters C file diam frac a →
            (E cwd').load q.source = openCount C shp ".diam".toList file →
            ∃ t row c r pdf lo hi, out = some t ∧ (split '\n' t)[3 + j]? = some row ∧ openCount C shp ".diam".toList file = .ok c ∧ RangeAsked c q r ∧
              lo = clipE r.1 T.pf.range.1 T.pf.range.2 ∧ hi = clipE r.2 T.pf.range.1 T.pf.range.2 ∧
              (split ',' row)[0]? = some q.name ∧ Field (split ',' row) 1 (Denotes 5 (T.ρ (a : ℝ))) ∧
              Field (split ',' row) 7 (fun s => decVal s = some (diam.countP (fun d : ℚ => decide (lo ≤ (d : ℝ) ∧ (d : ℝ) < hi)) : ℚ)) ∧
              Field (split ',' row) 10 (Denotes 3 (T.ρ (Pdf.t pdf 0.5))) ∧
              Field (split ',' row) 11 (Denotes 3 (T.ρ (Pdf.t pdf ((1 - erf (1 / Real.sqrt 2)) / 2)))) ∧
              Field (split ',' row) 12 (Denotes 3 (T.ρ (Pdf.t pdf ((1 + erf (1 / Real.sqrt 2)) / 2)))) ∧
              pdf.k = (diam.countP (fun d : ℚ => decide (lo ≤ (d : ℝ) ∧ (d : ℝ) < hi)) : ℝ) ∧
              ∀ i < 5000, ∃ Nlo Nhi, T.pf.C lo (log10 (sampleDensity N1 5000 i)) = .ok Nlo ∧ T.pf.C hi (log10 (sampleDensity N1 5000 i)) = .ok Nhi ∧
                pdf.lam[i]? = some ((Nlo - Nhi) * (a : ℝ)) := by
  obtain ⟨st, h1, htab⟩ := C152_table_partial C isNeg F cwd words l flat cwd' n hw h depth hd E hE hdec hload T hT
  refine ⟨st, h1, fun P out hP hout => ?_⟩
  obtain ⟨p, input, items, g1, g2, g3, g4⟩ := htab P out hP hout
  refine ⟨p, input, items, g1, g2, g3, ?_⟩
  intro env henv hplain asks hasks hfit j q shp file diam frac a hj hlist hopen
  obtain ⟨last, hlast⟩ : ∃ last, (agesAsked asks).getLast? = some last := by
    rw [← Option.isSome_iff_exists, List.getLast?_isSome]
    rintro e
    rw [e] at hj
    simp at hj
  obtain ⟨t, fs, e0, _, _, hrow⟩ := (g4 env henv hplain asks hasks hfit).2 last hlast
  obtain ⟨f, row, c, r, range, f1, f2, f3, f4, f5, f6, f7, f8⟩ := hrow j .poisson q hj
  rw [hopen] at f3
  obtain ⟨age, k1, k2, k3, k4, k5, k6⟩ := f5
  obtain ⟨o, ho', hage'⟩ := C144_age_partial C shp file diam frac a hlist T.pf hpf T.chron T.simpson r T.ref p0 p1 p3 hc N1 hN hN1
  rw [f3] at ho'
  injection ho' with ho'
  subst ho'
  obtain ⟨lo, hi, hlo, hhi, hcount, hlam⟩ := hage' age k1
  obtain ⟨w1, w2, w3, _, _, _, _, _, w9, _, w11, w12, w13, _⟩ := f8
  obtain ⟨oc, ho2, _, hca, _⟩ := open_lists shp hlist
  rw [f3] at ho2
  injection ho2 with ho2
  have harea : areaFrom (plotFor q c r).count = (a : ℝ) := by
    rw [plotFor, ho2]
    exact hca
  have hk : age.pdf.k = age.n ∧ age.t = age.pdf.median1sigma ∧ ∃ cc lo hi, Craterpdf.init T.pf T.chron T.simpson cc lo hi none none false 5000 = .ok age.pdf := by
    unfold ageOf Verif.Age.poissonAge at k1
    obtain ⟨pdf, e1, hg⟩ := except_bind_eq_ok k1
    dsimp only at hg
    obtain ⟨a0, _, hg⟩ := except_bind_eq_ok hg
    obtain ⟨nd, _, hg⟩ := except_bind_eq_ok hg
    injection hg with hg
    subst hg
    exact ⟨rfl, rfl, _, _, _, e1⟩
  obtain ⟨hk, htm, cc, lo', hi', hinit⟩ := hk
  obtain ⟨med, low, up, e, m1, m2, m3, _⟩ := C24_reported_age T.pf T.chron T.simpson cc lo' hi' none false 5000 p0 p1 p3 hc age.pdf hinit
  rw [htm, e] at k2
  obtain ⟨e1, e2, e3⟩ : med = f.t.1 ∧ low = f.t.2.1 ∧ up = f.t.2.2 := by simpa using k2
  have hn : ∀ s s', NumbersShown T .poisson (plotFor q c r) f s s' →
      decVal s = some (diam.countP (fun d : ℚ => decide (lo ≤ (d : ℝ) ∧ (d : ℝ) < hi)) : ℚ) := by
    rintro s s' ⟨⟨hb | ⟨x, y, hb⟩, _⟩ | ⟨_, _, hb⟩, _⟩
    · cases hb
    · rw [plotFor, ho2] at hb
      cases hb
    · rw [hb, k4, hcount, Nat.floor_natCast]
  obtain ⟨s, v1, s', v2, v3⟩ := w9
  refine ⟨t, row, c, r, age.pdf, lo, hi, e0, f2, f3, f4, hlo, hhi, w2, by rw [← harea]; exact w3, ⟨s, v1, hn s s' v3⟩, by rw [← m1, e1]; exact w11,
    by rw [← m2, e2]; exact w12, by rw [← m3, e3]; exact w13, by rw [hk, hcount], ?_⟩
  intro i hi'
  obtain ⟨Nlo, Nhi, t', y1, y2, y3, _⟩ := hlam i hi'
  exact ⟨Nlo, Nhi, y1, y2, y3⟩

/-! ### the diameter range -/

theorem limit_max (a b : ℚ) : max ((a : ℝ) : EReal) ((b : ℝ) : EReal) = (((max a b : ℚ) : ℝ) : EReal) := by
  rw [← EReal.coe_strictMono.monotone.map_max]
  push_cast
  rfl

theorem decoded_list {k : Reading.Count} (hk : k.prebinned = false) {l0 l1 : Lim} {b : Binning} {snap : Bool} {r : EReal × EReal}
    (h : ((object (.craters k)).decodeRange l0 l1 b snap).2 = .ok r) :
    ∃ t, applyBinning b 0 k.craters = .ok t ∧ Cratercount.decodeRange b t l0 l1 snap = .ok r := by
  have e : object (.craters k) = ⟨k.craters, k.area, false, Option.none, []⟩ := by
    rw [← hk]
    rfl
  rw [e] at h
  simp only [Obj.decodeRange, Obj.ensure, Bool.false_eq_true, if_false, reduceCtorEq] at h
  cases ht : applyBinning b 0 k.craters with
  | error e => rw [ht] at h; cases h
  | ok t =>
    rw [ht] at h
    exact ⟨t, rfl, h⟩

/-- **C152, whole range.** Without limits the diameter range of a plot is unlimited. -/
theorem C152_whole (k : Reading.Count) (hk : k.prebinned = false) (q : Ask) (h0 : q.lower = "0".toList) (h1 : q.upper = "inf".toList) (r : EReal × EReal)
    (hr : RangeAsked (.craters k) q r) : r = (0, ⊤) := by
  obtain ⟨b, _, h⟩ := hr (.val (((0 : ℚ) : ℝ) : EReal)) (.val ⊤) (by rw [h0]; exact .value _ _ (by decide +kernel)) (by rw [h1]; exact .unlimited)
  obtain ⟨t, _, h⟩ := decoded_list hk h
  have z : (((0 : ℚ) : ℝ) : EReal) = 0 := by norm_num
  rw [z] at h
  have hn : ¬ ((⊤ : EReal) < 0) := not_lt.2 le_top
  have hb : ∀ x : ℝ, ¬ ((⊤ : EReal) ≤ (x : EReal)) := fun x => not_le.2 (EReal.coe_lt_top x)
  have h00 : ¬ ((0 : EReal) < 0) := lt_irrefl _
  simp only [Cratercount.decodeRange, decodeLim, except_ok_bind, hn, h00, hb, if_false, and_false] at h
  by_cases hbn : b = .none
  · rw [if_pos hbn] at h
    injection h with h
    exact h.symm
  · rw [if_neg hbn] at h
    cases hl : t.getLast? with
    | none =>
      rw [hl] at h
      dsimp only at h
      cases hs : decide (q.snap ≠ 0) with
      | true => rw [hs] at h; cases h
      | false => rw [hs] at h; injection h with h; exact h.symm
    | some x =>
      rw [hl] at h
      injection h with h
      exact h.symm

/-- **C152, as given.** Without snapping the diameter range of a plot is given by the numbers written, the upper limit being not below the lower one. -/
theorem C152_unsnapped (k : Reading.Count) (hk : k.prebinned = false) (q : Ask) (a b : ℚ) (ha : decVal q.lower = some a) (hb : decVal q.upper = some b)
    (hs : q.snap = 0) (r : EReal × EReal) (hr : RangeAsked (.craters k) q r) : r = (((a : ℝ) : EReal), (((max a b : ℚ) : ℝ) : EReal)) := by
  obtain ⟨bn, _, h⟩ := hr _ _ (.value _ _ ha) (.value _ _ hb)
  obtain ⟨t, _, h⟩ := decoded_list hk h
  rw [hs, decodeRange_swap] at h
  have e : max ((a : ℝ) : EReal) ((b : ℝ) : EReal) = (((max a b : ℚ) : ℝ) : EReal) := limit_max a b
  rw [e] at h
  have hn : ¬ ((((max a b : ℚ) : ℝ) : EReal) < ((a : ℝ) : EReal)) := by
    rw [not_lt, ← e]
    exact le_max_left _ _
  have hd : decide ((0 : ℤ) ≠ 0) = false := by decide
  simp only [Cratercount.decodeRange, decodeLim, except_ok_bind, hn, if_false, hd, Bool.false_eq_true, false_and] at h
  by_cases hbn : bn = .none
  · rw [if_pos hbn] at h
    injection h with h
    exact h.symm
  · rw [if_neg hbn] at h
    cases hl : t.getLast? with
    | none => rw [hl] at h; injection h with h; exact h.symm
    | some x => rw [hl] at h; injection h with h; exact h.symm

/-- **C152, snapped.** With snapping the limits of the diameter range of a plot of binned craters are moved to boundaries of the bins of these craters, outwards, as far
as they lie within the bins. -/
theorem C152_snapped (k : Reading.Count) (hk : k.prebinned = false) (hne : k.craters ≠ []) (hd : ∀ c ∈ k.craters, (0.0001 : ℝ) ≤ c.1) (q : Ask) (a b : ℚ)
    (ha : decVal q.lower = some a) (hb : decVal q.upper = some b) (h0 : 0 ≤ a) (hs : q.snap ≠ 0) (hn : q.binning ≠ "none".toList) (r : EReal × EReal)
    (hr : RangeAsked (.craters k) q r) :
    ∃ (bn : Binning) (t : List Bin) (hne : t ≠ []), bn.name = String.ofList q.binning ∧ applyBinning bn 0 k.craters = .ok t ∧ r.1 ≤ r.2 ∧
      ((a = 0 ∧ r.1 = 0) ∨ ∃ x ∈ t, r.1 = (x.dMin : EReal) ∧ (t.head? = some x ∨ r.1 < ((a * 1.0000001 : ℝ) : EReal)) ∧
        ∀ y ∈ t, x.dMin < y.dMin → (a * 1.0000001 : ℝ) ≤ y.dMin) ∧
      (((t.getLast hne).dMax - 0.0000001 < ((max a b : ℚ) : ℝ) ∧ r.2 = (((max a b : ℚ) : ℝ) : EReal)) ∨
        ∃ x ∈ t, r.2 = (x.dMax : EReal) ∧ ((max a b : ℚ) : ℝ) * 0.999999 ≤ x.dMax ∧
        ∀ y ∈ t, y.dMax < x.dMax → y.dMax < ((max a b : ℚ) : ℝ) * 0.999999) := by
  obtain ⟨bn, hname, h⟩ := hr _ _ (.value _ _ ha) (.value _ _ hb)
  obtain ⟨t, ht, h⟩ := decoded_list hk h
  have hbn : bn ≠ .none := by
    rintro rfl
    have e : (String.ofList q.binning).toList = "none".toList := by rw [← hname]; rfl
    rw [String.toList_ofList] at e
    exact hn e
  obtain ⟨t', ht', hcont, hne', hwide⟩ := C09_applies bn hbn 0 k.craters hne hd
  rw [ht] at ht'
  injection ht' with ht'
  subst ht'
  have hsn : decide (q.snap ≠ 0) = true := by simpa using hs
  rw [hsn] at h
  have h0' : (0 : EReal) ≤ ((a : ℝ) : EReal) := by
    rw [EReal.coe_nonneg]
    exact_mod_cast h0
  obtain ⟨a', b', e1, e2, e3, e4, _⟩ := C09_snapping bn hbn t hcont hne' hwide ((a : ℝ) : EReal) ((b : ℝ) : EReal) h0'
  rw [e1] at h
  injection h with h
  subst h
  have em : max ((a : ℝ) : EReal) ((b : ℝ) : EReal) = (((max a b : ℚ) : ℝ) : EReal) := limit_max a b
  rw [em] at e4
  simp only [← EReal.coe_mul] at e3 e4
  refine ⟨bn, t, hne', hname, ht, e2, ?_, ?_⟩
  · rcases e3 with ⟨z1, z2⟩ | ⟨x, x1, x2, x3, x4⟩
    · left
      refine ⟨?_, z2⟩
      have : (a : ℝ) = 0 := by exact_mod_cast z1
      exact_mod_cast this
    · right
      exact ⟨x, x1, x2, x3, fun y hy hxy => EReal.coe_le_coe_iff.1 (x4 y hy hxy)⟩
  · rcases e4 with ⟨z1, z2⟩ | ⟨x, x1, x2, x3, x4⟩
    · left
      exact ⟨EReal.coe_lt_coe_iff.1 z1, z2⟩
    · right
      refine ⟨x, x1, x2, ?_, fun y hy hxy => EReal.coe_lt_coe_iff.1 (x4 y hy hxy)⟩
      rw [x2] at x3
      exact EReal.coe_le_coe_iff.1 x3

/-! ### an example -/

/-- the items after `-p` are determined by its words -/
theorem items_parsed {C : Classes} {values : List (List Char)} {d : List (List Char × List Char)} (h : ItemsOf C values d) : parsePlot C values = .ok d := by
  obtain ⟨ps, h1, h2, h3, h4⟩ := h
  obtain ⟨qs, _, _, g3, g4⟩ := C40_items C values
  rw [← g3 ps h1 h2] at g4
  rw [g4, if_pos h3, h4]

/-- the same run with the ranges as they are given -/
def undecoded {R : Type} (E : List Char → RunEnv Opened R) (d : List Char) : RunEnv Opened (Opened × Val Opened × Val Opened × Val Opened) :=
  ⟨(E d).set, (E d).path, (E d).isabs, (E d).load, (E d).floatText, (E d).fileOf, fun c a b s => .ok (c, a, b, s), (E d).palette⟩

theorem run_decoded {R : Type} {E : List Char → RunEnv Opened R} {st : CmdState} {P : Prepared Opened (Opened × Val Opened × Val Opened × Val Opened)}
    (h : prepareRun (undecoded E) st = .ok P) (hd : ∀ x ∈ P.plots, ∃ r, (E st.cwd).decode x.2.1 x.2.2.1 x.2.2.2.1 x.2.2.2.2 = .ok r) :
    ∃ P', prepareRun E st = .ok P' := by
  obtain ⟨c0, p, specs, ds, c1, ratio, dark, r1, r2, r3, r4, r5, r6, r7, r8⟩ := run_ok h
  have hall := Verif.Cratercount.mapM_ok _ r8
  have key : ∀ x ∈ ds, ∃ y, makePlot (E st.cwd) dark x = .ok y := by
    intro x hx
    obtain ⟨y, hy, hm⟩ := forall₂_left hall hx
    obtain ⟨r, hr⟩ := hd y hy
    rw [makePlot] at hm ⊢
    obtain ⟨d, h1, hm⟩ := bind_ok hm
    have h1' : plotColour ((E st.cwd).palette dark) x.1 = .ok d := h1
    rw [h1', ok_bind]
    rw [create] at hm ⊢
    obtain ⟨o, h2, hm⟩ := bind_ok hm
    obtain ⟨z, h3, hm⟩ := bind_ok hm
    injection hm with hm
    have h2' : PlotObject.update (K := Opened) (R := R) ⟨(E st.cwd).set.classes, (E st.cwd).load, (E st.cwd).fileOf, (E st.cwd).decode⟩ []
        (PlotObject.plotDefaults :: [d.map (fun y => (y.1, plotVal y.2)) ++ [("cratercount".toList, .count x.2)]] ++ [[]]) = .ok o := h2
    rw [h2', ok_bind]
    rw [← hm] at hr
    rw [PlotObject.decodeRange] at h3 ⊢
    obtain ⟨c, h4, h3⟩ := bind_ok h3
    rw [h4, ok_bind]
    cases c with
    | count c =>
      obtain ⟨rv, h5, h3⟩ := bind_ok h3
      obtain ⟨bv, h6, h3⟩ := bind_ok h3
      obtain ⟨sv, h7, h3⟩ := bind_ok h3
      injection h3 with h3
      rw [← h3] at hr
      dsimp only
      rw [h5, ok_bind, h6, ok_bind, h7, ok_bind, hr, ok_bind]
      exact ⟨_, rfl⟩
    | none => cases h3
    | num _ => cases h3
    | real _ => cases h3
    | str _ => cases h3
    | strs _ => cases h3
    | reals _ => cases h3
  obtain ⟨plots, hp⟩ := mapM_succeeds _ _ key
  refine ⟨⟨P.settings, P.set, plots⟩, ?_⟩
  unfold prepareRun
  dsimp only
  have q1 : constructSettings (E st.cwd).set (argsOf (E st.cwd).set.classes st.ns) = .ok c0 := r1
  have q3 : plotSpecs (E st.cwd).set.classes st.ns = .ok specs := r3
  have q4 : constructPlotDicts ⟨(E st.cwd).set.classes, (E st.cwd).set.lower, (E st.cwd).path, (E st.cwd).isabs, inputFile st.ns,
        p == "sequence".toList, (E st.cwd).load⟩ specs = .ok ds := r4
  have q5 : setDefaultName (E st.cwd).set (inputFile st.ns) (minText (E st.cwd) c0) (ds.map (fun x => plotText x.1 "source")) c0 = .ok c1 := r5
  rw [q1, ok_bind, r2, ok_bind, q3, ok_bind, q4, ok_bind, q5, ok_bind, r6, ok_bind, r7, ok_bind]
  dsimp only
  rw [hp, ok_bind]

/-- a count of four craters read from a file -/
theorem sample_count : ∃ file o, ListsCraters .ascii file [1, 3, 3 / 2, 2] [1, 1, 1 / 2, 1] 10 ∧
    openCount .ascii (.error .system) ".diam".toList file = .ok o ∧ ∃ c r, GoodChron c 0 0 2 ∧ c.N1 1 = .ok 2 ∧
      ageOf (initPoly [0, -1] (some (1, 2.5))) c (fun _ _ => 0) o (0, ⊤) false 1 = .ok r := by
  obtain ⟨file, c, o, r, h1, h2, h3, h4, _, h5⟩ := sample_file .ascii (.error .system) (fun _ _ => 0)
  exact ⟨file, o, h3, h4, c, r, h1, h2, h5⟩

/-- this file -/
def sampleFile : List Char := sample_count.choose

/-- this count -/
def sampleOpened : Opened := sample_count.choose_spec.choose

/-- a command for the data of the file and a Poisson age -/
def ageWords : List (List Char) := ["-p", "source=/m.diam,name=Mare", "-p", "type=poisson"].map String.toList

def ageItems : List (List (List Char × List Char)) :=
  [[("source".toList, "/m.diam".toList), ("name".toList, "Mare".toList)], [("type".toList, "poisson".toList)]]

def ageGiven : List Given := [⟨"plot", ["source=/m.diam,name=Mare"]⟩, ⟨"plot", ["type=poisson"]⟩].map
  fun x : String × List String => ⟨x.1.toList, x.2.map String.toList⟩

/-- only this file can be read -/
def ageEnv (_ : List Char) : RunEnv Opened (EReal × EReal) :=
  ⟨exEnv, "/cst/".toList, fun s => s.head? = some '/', fun s => if s = "/m.diam".toList then .ok sampleOpened else .error .system, fun _ => [], fun _ => [],
   decodeOf, fun dark => (if dark then ["white", "r"] else ["k", "r"]).map String.toList⟩

def ageFiles : FileSys := ⟨fun _ => none, fun _ => false⟩

/-- a plot without limits -/
def isWhole (x : Opened × Val Opened × Val Opened × Val Opened) : Bool :=
  match x.2 with
  | (.strs [a, b], .str c, .num 1) => a == "0".toList && b == "inf".toList && c == "pseudo-log".toList
  | _ => false

def ageCheck : Bool :=
  match runCommand .ascii (fun _ => false) ageFiles 1 "/u/".toList ageWords with
  | .ok st => match prepareRun (undecoded ageEnv) st with
    | .ok P => P.plots.all (fun x => isWhole x.2)
    | .error _ => false
  | .error _ => false

theorem age_check : ageCheck = true := by decide +kernel

theorem sample_listed : ∃ k : Reading.Count, sampleOpened = .craters k ∧ k.prebinned = false ∧ k.craters ≠ [] ∧ ∀ c ∈ k.craters, (0.0001 : ℝ) ≤ c.1 := by
  obtain ⟨h1, h2, _⟩ := sample_count.choose_spec.choose_spec
  obtain ⟨k, ho, hp, _, _, hb, _⟩ := open_lists (.error .system) h1
  rw [h2] at ho
  injection ho with ho
  refine ⟨k, ho, hb, ?_, ?_⟩
  · intro e
    rw [e] at hp
    have := hp.length_eq
    simp at this
  · intro c hc
    have hm := hp.mem_iff.1 hc
    simp only [List.zip_cons_cons, List.zip_nil_right, List.map_cons, List.map_nil, List.mem_cons, List.not_mem_nil, or_false] at hm
    rcases hm with rfl | rfl | rfl | rfl <;> norm_num

theorem sample_decodes : decodeOf sampleOpened (.strs ["0".toList, "inf".toList]) (.str "pseudo-log".toList) (.num 1) = .ok (0, ⊤) := by
  obtain ⟨k, ho, hb, hne, hd⟩ := sample_listed
  obtain ⟨t, ht, hc, hne', _⟩ := C09_applies .pseudoLog (by simp) 0 k.craters hne hd
  have e0 : textLim "0".toList = .val (((0 : ℚ) : ℝ) : EReal) := text_limit (.value _ _ (by decide +kernel))
  have e1 : textLim "inf".toList = .val ⊤ := text_limit .unlimited
  have z : (((0 : ℚ) : ℝ) : EReal) = 0 := by norm_num
  rw [z] at e0
  have e2 : limsOf (.strs ["0".toList, "inf".toList]) = .ok (.val 0, .val ⊤) := by
    rw [limsOf, List.map_cons, List.map_cons, List.map_nil, e0, e1, twoLims]
  have e3 : TableRow.binningNamed "pseudo-log".toList = .ok .pseudoLog := binning_defined rfl
  have e4 : object sampleOpened = ⟨k.craters, k.area, false, Option.none, []⟩ := by
    rw [ho, ← hb]
    rfl
  have e5 : Cratercount.decodeRange .pseudoLog t (.val 0) (.val ⊤) true = .ok (0, ⊤) := by
    apply decodeRange_vals _ (by simp) _ hne' _ _ _ _ le_top
    · rw [if_neg (lt_irrefl _)]
    · rw [if_neg (not_le.2 (EReal.coe_lt_top _))]
  unfold decodeOf
  rw [e2, ok_bind]
  dsimp only
  rw [e3, ok_bind, e4]
  have e6 : ((1 : ℤ) != 0) = true := by decide
  simp only [Obj.decodeRange, Obj.ensure, Bool.false_eq_true, if_false, reduceCtorEq, ht, ok_bind, e6, e5]

/-- the command can be run -/
theorem sample_runs : ∃ st P, runCommand .ascii (fun _ => false) ageFiles 1 "/u/".toList ageWords = .ok st ∧ prepareRun ageEnv st = .ok P := by
  have h := age_check
  unfold ageCheck at h
  have hw : CommandOf (fun _ => false) ageWords ageGiven := (C133_grammar _ _ _).1 (by decide +kernel)
  have hx : Expands .ascii (fun _ => false) ageFiles "/u/".toList ageGiven ageGiven "/u/".toList 0 := by
    refine .option _ _ _ _ _ _ (by unfold Loads; decide +kernel) (admissible_ok (by decide +kernel)) ?_
    refine .option _ _ _ _ _ _ (by unfold Loads; decide +kernel) (admissible_ok (by decide +kernel)) ?_
    exact .nil _ _
  obtain ⟨st, h1, hpl⟩ := C141_plots .ascii (fun _ => false) ageFiles "/u/".toList ageWords ageGiven ageGiven "/u/".toList 0 hw hx 1 (by omega)
    (undecoded ageEnv) (fun _ => rfl)
  rw [h1] at h
  dsimp only at h
  cases hP : prepareRun (undecoded ageEnv) st with
  | error e => rw [hP] at h; cases h
  | ok P =>
    rw [hP] at h
    dsimp only at h
    obtain ⟨P', hP'⟩ : ∃ P', prepareRun ageEnv st = .ok P' := by
      apply run_decoded hP
      intro x hx
      have hwhole := List.all_eq_true.1 h x hx
      obtain ⟨p, input, items, dark, _, _, _, g4, _, g5⟩ := hpl P hP
      obtain ⟨i, hi, e⟩ := List.getElem_of_mem hx
      obtain ⟨_, _, s, c, b3, b4, _⟩ := g5 _ rfl i x.1 x.2 items[i] (by rw [List.getElem?_eq_getElem hi, e]) (List.getElem?_eq_getElem (by omega))
      have hc : c = sampleOpened := by
        have b3' : (if s = "/m.diam".toList then Except.ok sampleOpened else .error Exc.system) = Except.ok c := b3
        by_cases hs : s = "/m.diam".toList
        · rw [if_pos hs] at b3'
          injection b3' with b3'
          exact b3'.symm
        · rw [if_neg hs] at b3'
          cases b3'
      have hx2 : x.2.1 = c := by
        obtain ⟨c0, p0, specs, ds, c1, ratio, dark', r1, r2, r3, r4, r5, r6, r7, r8⟩ := run_ok hP
        obtain ⟨y, _, hy⟩ := forall₂_right (Verif.Cratercount.mapM_ok _ r8) hx
        obtain ⟨c', rv, bv, sv, d1, _, _, _, d5⟩ := made_range (o := x.1) (r := x.2) hy
        rw [b4] at d1
        injection d1 with d1
        injection d1 with d1
        injection d5 with d5
        rw [← d5, d1]
      obtain ⟨o, c', a, b, s'⟩ := x
      dsimp only at hx2 hwhole ⊢
      rw [hx2, hc]
      have hform : a = .strs ["0".toList, "inf".toList] ∧ b = .str "pseudo-log".toList ∧ s' = .num 1 := by
        unfold isWhole at hwhole
        split at hwhole
        · rename_i a b c e
          injection e with e1 e2
          injection e2 with e2 e3
          simp only [Bool.and_eq_true, beq_iff_eq] at hwhole
          obtain ⟨⟨w1, w2⟩, w3⟩ := hwhole
          exact ⟨by rw [e1, w1, w2], by rw [e2, w3], e3⟩
        · cases hwhole
      obtain ⟨rfl, rfl, rfl⟩ := hform
      exact ⟨_, sample_decodes⟩
    exact ⟨st, P', h1, hP'⟩

/-- the environment in which the plots are specified -/
def agePlotEnv : PlotEnv Opened :=
  ⟨.ascii, (ageEnv "/u/".toList).set.lower, (ageEnv "/u/".toList).path, (ageEnv "/u/".toList).isabs, none, "differential".toList == "sequence".toList,
    (ageEnv "/u/".toList).load⟩

/-- whether a key is the one meant -/
def meant (k0 k : List Char) : Bool :=
  match itemKey agePlotEnv k0 with
  | .ok x => x == k
  | .error _ => false

theorem meant_iff (k0 k : List Char) : meant k0 k = true ↔ Resolves agePlotEnv k0 k := by
  rw [← key_iff, meant]
  cases itemKey agePlotEnv k0 <;> simp

theorem not_given {items : List (List Char × List Char)} {k : List Char} (h : items.all (fun y => !meant y.1 k) = true) : NotGiven agePlotEnv items k := by
  intro y hy hr
  have := List.all_eq_true.1 h y hy
  rw [(meant_iff _ _).2 hr] at this
  cases this

theorem last_given {items : List (List Char × List Char)} {k k0 v : List Char} {x : PVal} (a b : List (List Char × List Char))
    (e : items = a ++ (k0, v) :: b) (h : meant k0 k = true) (hv : itemValue agePlotEnv k v = .ok x) (hb : b.all (fun y => !meant y.1 k) = true) :
    LastGiven agePlotEnv items k x := by
  have hr := (meant_iff _ _).1 h
  exact ⟨a, k0, v, b, e, hr, (value_iff _ (resolves_mem hr) _ _).1 hv, not_given hb⟩

def askData : Ask := ⟨"data".toList, "Mare".toList, "/m.diam".toList, "pseudo-log".toList, "0".toList, "inf".toList, 1, 0⟩

def askAge : Ask := ⟨"poisson".toList, "m".toList, "/m.diam".toList, "pseudo-log".toList, "0".toList, "inf".toList, 1, 0⟩

theorem sample_asked : AskedPlots agePlotEnv ageItems [askData, askAge] := by
  refine ⟨rfl, fun i q hi => ?_⟩
  match i, hi with
  | 0, hi =>
    injection hi with hi
    subst hi
    refine ⟨.inr ⟨not_given (by decide +kernel), by decide +kernel⟩, .inr ⟨not_given (by decide +kernel), by decide +kernel⟩,
      ⟨.num 1, .inr ⟨not_given (by decide +kernel), by decide +kernel⟩, .num 1⟩,
      ⟨"/m.diam".toList, last_given [] [("name".toList, "Mare".toList)] rfl (by decide +kernel) (by decide +kernel) (by decide +kernel), .inl ⟨.inl rfl, rfl⟩⟩, _, rfl,
      .inr ⟨not_given (by decide +kernel), by decide +kernel⟩, ⟨.num 0, .inr ⟨not_given (by decide +kernel), by decide +kernel⟩, .num 0⟩,
      "Mare".toList, .inl (last_given [("source".toList, "/m.diam".toList)] [] rfl (by decide +kernel) (by decide +kernel) (by decide +kernel)),
      .inl ⟨by decide, rfl⟩⟩
  | 1, hi =>
    injection hi with hi
    subst hi
    refine ⟨.inl (last_given [("source".toList, "/m.diam".toList), ("name".toList, "Mare".toList)] [] rfl (by decide +kernel) (by decide +kernel) (by decide +kernel)),
      .inr ⟨not_given (by decide +kernel), by decide +kernel⟩,
      ⟨.num 1, .inr ⟨not_given (by decide +kernel), by decide +kernel⟩, .num 1⟩,
      ⟨"/m.diam".toList, last_given [] [("name".toList, "Mare".toList), ("type".toList, "poisson".toList)] rfl (by decide +kernel) (by decide +kernel) (by decide +kernel),
        .inl ⟨.inl rfl, rfl⟩⟩, _, rfl,
      .inr ⟨not_given (by decide +kernel), by decide +kernel⟩, ⟨.num 0, .inr ⟨not_given (by decide +kernel), by decide +kernel⟩, .num 0⟩,
      [], .inr ⟨not_given (by decide +kernel), by decide +kernel⟩,
      .inr ⟨rfl, "/".toList, ".diam".toList, ?_, by decide +kernel⟩⟩
    refine ⟨rfl, by decide +kernel, .inr ⟨'/', rfl, by decide +kernel⟩, by decide +kernel, .inr ?_, fun h => absurd h (by decide)⟩
    exact ⟨"diam".toList, rfl, by decide +kernel, by decide +kernel, by decide +kernel⟩
  | n + 2, hi => cases hi

/-- nothing else is given -/
theorem sample_no (k : String) (hk : k.toList ≠ "plot".toList) : ∀ g ∈ ageGiven, g.dest ≠ k.toList := by
  intro g hg
  simp only [ageGiven, List.map_cons, List.map_nil, List.mem_cons, List.not_mem_nil, or_false] at hg
  rcases hg with rfl | rfl <;> exact fun h => hk h.symm

theorem sample_presented {p : List Char} (h : PresentedAs (ageEnv "/u/".toList).set.lower ageGiven p) : p = "differential".toList := by
  rcases h with ⟨_, h⟩ | ⟨v, ⟨pre, post, e, _⟩, _⟩
  · exact h
  · exact absurd rfl (sample_no "presentation" (by decide) ⟨"presentation".toList, [v]⟩ (by rw [e]; simp))

theorem sample_input {f : Option (List Char)} (h : InputOf ageGiven f) : f = none := by
  rcases h with ⟨_, h⟩ | ⟨⟨v, ⟨pre, post, e, _⟩, _⟩, _⟩
  · exact h
  · exact absurd rfl (sample_no "input" (by decide) ⟨"input".toList, v⟩ (by rw [e]; simp))

theorem two_items {C : Classes} {u v : List (List Char)} {a b : List (List Char × List Char)} {l : List (List (List Char))}
    {items : List (List (List Char × List Char))} (h : List.Forall₂ (ItemsOf C) l items)
    (e : l = [u, v]) (ha : parsePlot C u = .ok a) (hb : parsePlot C v = .ok b) : items = [a, b] := by
  subst e
  cases h with
  | cons h1 h =>
    cases h with
    | cons h2 h =>
      cases h
      have e1 := items_parsed h1
      have e2 := items_parsed h2
      rw [ha] at e1
      rw [hb] at e2
      cases e1
      cases e2
      rfl

theorem sample_e : (ageGiven.filter (fun g => g.dest = "plot".toList)).map (fun g => g.values) =
      [["source=/m.diam,name=Mare".toList], ["type=poisson".toList]] := by decide +kernel

theorem sample_p1 : parsePlot .ascii ["source=/m.diam,name=Mare".toList] = .ok [("source".toList, "/m.diam".toList), ("name".toList, "Mare".toList)] := by
      decide +kernel

theorem sample_items {items : List (List (List Char × List Char))}
    (h : List.Forall₂ (ItemsOf .ascii) ((ageGiven.filter (fun g => g.dest = "plot".toList)).map (fun g => g.values)) items) : items = ageItems :=
  two_items h sample_e sample_p1 (by decide +kernel)

theorem sample_ages : agesAsked [askData, askAge] = [(.poisson, askAge)] := by
  have e1 : kindNamed "data".toList = none := by decide +kernel
  have e2 : kindNamed "poisson".toList = some .poisson := by decide +kernel
  have f1 : kindNamed askData.type = none := e1
  have f2 : kindNamed askAge.type = some .poisson := e2
  simp only [agesAsked, List.filterMap_cons, List.filterMap_nil, f1, f2, Option.map_none, Option.map_some]

theorem sample_plain : PlainInput agePlotEnv := by
  intro f dir h
  have h0 : agePlotEnv.input = none := rfl
  rw [h0] at h
  cases h

theorem sample_load : (ageEnv "/u/".toList).load "/m.diam".toList = .ok sampleOpened := by
  show (if "/m.diam".toList = "/m.diam".toList then Except.ok sampleOpened else .error Exc.system) = _
  rw [if_pos rfl]

theorem sample_noload : ∀ o, (ageEnv "/u/".toList).load [] ≠ .ok o := by
  intro o h
  have h' : (if ([] : List Char) = "/m.diam".toList then Except.ok sampleOpened else .error Exc.system) = Except.ok o := h
  rw [if_neg (by decide)] at h'
  cases h'

theorem sample_fitting : ∀ y ∈ agesAsked [askData, askAge], FitsTable y.2 := by
  rw [sample_ages]
  intro y hy
  rw [List.mem_singleton] at hy
  subst hy
  show "m".toList ≠ [] ∧ OneField "m".toList ∧ OneField "/m.diam".toList ∧ OneField "pseudo-log".toList
  decide +kernel

theorem sample_range (r : EReal × EReal) (hr : RangeAsked sampleOpened askAge r) : r = (0, ⊤) := by
  obtain ⟨k, hk, hkb, _⟩ := sample_listed
  rw [hk] at hr
  exact C152_whole k hkb askAge rfl rfl r hr

theorem sample_words : CommandOf (fun _ => false) ageWords ageGiven := (C133_grammar _ _ _).1 (by decide +kernel)

theorem sample_expands : Expands .ascii (fun _ => false) ageFiles "/u/".toList ageGiven ageGiven "/u/".toList 0 := by
  refine .option _ _ _ _ _ _ (by unfold Loads; decide +kernel) (admissible_ok (by decide +kernel)) ?_
  refine .option _ _ _ _ _ _ (by unfold Loads; decide +kernel) (admissible_ok (by decide +kernel)) ?_
  exact .nil _ _

/-- the table of the sample can be made -/
theorem sample_written (T : TableRow.Env) (hT : ∀ x, OneField (T.floatStr x)) (res : PoissonAge) (hg : GoodChron T.chron 0 0 2)
    (hres : ageOf T.pf T.chron T.simpson sampleOpened (0, ⊤) false T.ref = .ok res) (st : CmdState) (P : Prepared Opened (EReal × EReal))
    (hst : runCommand .ascii (fun _ => false) ageFiles 1 "/u/".toList ageWords = .ok st) (hP : prepareRun ageEnv st = .ok P) :
    ∃ out, table T P.plots = .ok out := by
  obtain ⟨st', hst', hpl⟩ := C152_plots .ascii (fun _ => false) ageFiles "/u/".toList ageWords ageGiven ageGiven "/u/".toList 0 sample_words sample_expands 1 (by omega)
    ageEnv (fun _ => rfl) rfl sample_noload
  rw [hst] at hst'
  injection hst' with hst'
  subst hst'
  obtain ⟨p, input, items, g1, g2, g3, g4, g5⟩ := hpl P hP
  obtain rfl := sample_presented g1
  obtain rfl := sample_input g2
  obtain rfl := sample_items g3
  have hall : List.Forall₂ (Answers (ageEnv "/u/".toList).load) [askData, askAge] P.plots := by
    rw [List.forall₂_iff_get]
    refine ⟨g4.symm, fun i hi hj => ?_⟩
    exact g5 agePlotEnv rfl sample_plain i _ _ (List.getElem?_eq_getElem hj) (sample_asked.2 i _ (List.getElem?_eq_getElem hi))
  obtain ⟨ps, i1, i2⟩ := plots_of_asks hall
  rw [sample_ages] at i2
  cases i2 with
  | @cons a z as zs hz i2 =>
    cases i2
    obtain ⟨z1, c', r, z2, z3, z4⟩ := hz
    have z2' : (ageEnv "/u/".toList).load "/m.diam".toList = .ok c' := z2
    rw [sample_load] at z2'
    injection z2' with z2'
    subst z2'
    obtain rfl := sample_range r z3
    apply C147_written T hT P.plots [z] i1
    · intro p hp
      rw [List.mem_singleton] at hp
      subst hp
      rw [z4]
      exact sample_fitting _ (by rw [sample_ages]; exact List.mem_singleton_self _)
    · intro p hp
      rw [List.mem_singleton] at hp
      subst hp
      rw [z1, z4]
      refine ⟨.inl rfl, ?_⟩
      obtain ⟨med, low, up, Nm, Nl, Nu, e, _, _, _, _, _, _, _, n1, n2, n3, q1, q2, q3, ea, _⟩ :=
        C82_reported _ _ _ _ _ _ _ _ _ _ hg res hres
      exact ⟨⟨(med, low, up), (log10 Nm, log10 Nl, log10 Nu), res.n, res.nEvent, none⟩, ⟨res, hres, e, ea, rfl, rfl, rfl⟩, nofun⟩
    · intro last hl hb p hp
      rw [List.getLast?_singleton] at hl
      injection hl with hl
      subst hl
      rw [ListsBins, z1] at hb
      exact absurd hb.1 (by decide)

/-- the command of the sample, from its words to the number of craters in the table: of the four craters of the file three are in the range of the production
function -/
example (T : TableRow.Env) (hT : ∀ x, OneField (T.floatStr x)) : ∃ c st P t row,
    runCommand .ascii (fun _ => false) ageFiles 1 "/u/".toList ageWords = .ok st ∧ prepareRun ageEnv st = .ok P ∧
    table { T with pf := initPoly [0, -1] (some (1, 2.5)), chron := c, ref := 1, simpson := fun _ _ => 0 } P.plots = .ok (some t) ∧
    (split '\n' t)[3]? = some row ∧ (split ',' row)[0]? = some "m".toList ∧ Field (split ',' row) 7 (fun s => decVal s = some 3) := by
  obtain ⟨hl, ho, c, res, hg, hN, hres⟩ := sample_count.choose_spec.choose_spec
  obtain ⟨T', hT'⟩ : ∃ T' : TableRow.Env, T' = { T with pf := initPoly [0, -1] (some (1, 2.5)), chron := c, ref := 1, simpson := fun _ _ => 0 } := ⟨_, rfl⟩
  have hfl : ∀ x, OneField (T'.floatStr x) := by subst hT'; exact hT
  obtain ⟨st, P, hst, hP⟩ := sample_runs
  obtain ⟨out, hout⟩ : ∃ out, table T' P.plots = .ok out :=
    sample_written T' hfl res (by subst hT'; exact hg) (by subst hT'; exact hres) st P hst hP
  obtain ⟨st', hst', htab⟩ := C152_file_partial .ascii (fun _ => false) ageFiles "/u/".toList ageWords ageGiven ageGiven "/u/".toList 0 sample_words sample_expands 1 (by omega)
    ageEnv (fun _ => rfl) rfl sample_noload T' hfl (by subst hT'; exact .inl ⟨_, _, rfl⟩) 0 0 2 (by subst hT'; exact hg) 2 (by subst hT'; exact hN) (by norm_num)
  rw [hst] at hst'
  injection hst' with hst'
  subst hst'
  obtain ⟨p, input, items, g1, g2, g3, g4⟩ := htab P out hP hout
  obtain rfl := sample_presented g1
  obtain rfl := sample_input g2
  obtain rfl := sample_items g3
  obtain ⟨t, row, c', r, pdf, lo, hi, k1, k2, k3, k4, k5, k6, k7, _, k9, _⟩ := g4 agePlotEnv rfl sample_plain [askData, askAge] sample_asked sample_fitting 0 askAge
    (.error .system) sampleFile [1, 3, 3 / 2, 2] [1, 1, 1 / 2, 1] 10 (by rw [sample_ages]; rfl) hl (sample_load.trans ho.symm)
  have ho' : openCount .ascii (.error .system) ".diam".toList sampleFile = .ok sampleOpened := ho
  rw [ho'] at k3
  injection k3 with k3
  subst k3
  obtain rfl := sample_range r k4
  refine ⟨c, st, P, t, row, hst, hP, ?_, k2, k7, ?_⟩
  · subst hT'
    rw [hout, k1]
  · have l1 : lo = 1 := by
      rw [k5, hT']
      show clipE 0 1 2.5 = 1
      unfold clipE
      rw [max_eq_right (by exact_mod_cast (zero_le_one : (0 : ℝ) ≤ 1)), min_eq_right (by exact_mod_cast (by norm_num : (1 : ℝ) ≤ 2.5))]
      exact EReal.toReal_coe _
    have l2 : hi = 2.5 := by
      rw [k6, hT']
      show clipE ⊤ 1 2.5 = 2.5
      unfold clipE
      rw [max_eq_left le_top, min_eq_left le_top]
      exact EReal.toReal_coe _
    obtain ⟨s, hs, h⟩ := k9
    refine ⟨s, hs, ?_⟩
    show decVal s = some 3
    rw [h, l1, l2]
    norm_num [List.countP_cons]

end

end Verif.Props
