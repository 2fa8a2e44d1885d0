import Verif.Props.ResurfRun

/-!
C159: the limits of the diameters in the rows of fits in the table of ages of a command.
-/

namespace Verif.Props

open Verif.Spec Verif.Py Verif.Text Verif.Rand Verif.Cli Verif.PlotObject Verif.Epochs Verif.EpochPlot
open Verif.CountFile Verif.Cratercount Verif.Chronology Verif.Production Verif.Craterpdf Verif.Age Verif.FileAge Verif.RunAges Verif.FunctionRun Verif.EpochRun

noncomputable section

/-- Specification: edges of a grid which enclose all craters, no edge strictly between the lower one and the smallest crater, and each edge below the upper one less than 10^0.001 times the diameter of a crater -/
structure Enclosing (G : Grid) (cs : List (ℝ × ℝ)) (e e' : ℝ) : Prop where
  lower : G.Edge e
  upper : G.Edge e'
  inside : ∀ c ∈ cs, e ≤ c.1 ∧ c.1 < e'
  near : ∀ x, G.Edge x → e < x → ∃ c ∈ cs, c.1 ≤ x
  next : ∀ x, G.Edge x → x < e' → ∃ c ∈ cs, x < c.1 * 10 ^ (0.001 : ℝ)

theorem table_ends {b : Binning} (hb : b ≠ .none) {cs : List Crater} (hne : cs ≠ []) {t : List Bin} (ht : applyBinning b 0 cs = .ok t) :
    ∃ h : 0 < t.length, Enclosing (gridOf b 0) cs t[0].dMin (t[t.length - 1]'(by omega)).dMax := by
  have hpos : ∀ x ∈ cs.map Prod.fst, 0 < x := by
    obtain ⟨_, _, _, _, _, hcr, _⟩ := table_cols hb ht
    intro x hx
    obtain ⟨c, hc, rfl⟩ := List.mem_map.1 hx
    exact (hcr c hc).1
  obtain ⟨A, m, mn, mx, hr, hm, e, k1, k2, k3, k4⟩ := generateBins_expand hb (cs.map Prod.fst) (by simpa using hne) hpos 0
  obtain ⟨m1, m2, m3⟩ := rangeOf_spec hr
  have hmono := gridFn_strictMono hb (0 : ℝ)
  have hte : t = tableOf (gridList (gridFn b 0) A m) cs := by
    simp only [applyBinning, hb, if_false, e] at ht
    injection ht with ht
    exact ht.symm
  have hlen : t.length = m - 1 := by rw [hte]; simp
  have h0 : 0 < t.length := by omega
  have e1 : t[0].dMin = gridFn b 0 A := by
    subst hte
    rw [(tableOf_getElem (gridList (gridFn b 0) A m) cs 0 h0 (by simp; omega)).1, gridList_getElem]
    simp
  have e2 : (t[t.length - 1]'(by omega)).dMax = gridFn b 0 (A + (m - 1 : ℕ)) := by
    subst hte
    rw [(tableOf_getElem (gridList (gridFn b 0) A m) cs _ (by omega) (by simp; omega)).2.1, gridList_getElem]
    congr 2
    have : (tableOf (gridList (gridFn b 0) A m) cs).length - 1 + 1 = m - 1 := by omega
    rw [this]
  refine ⟨h0, ?_⟩
  rw [e1, e2]
  obtain ⟨cn, hcn, rfl⟩ := List.mem_map.1 m1
  obtain ⟨cx, hcx, rfl⟩ := List.mem_map.1 m2
  refine ⟨(edge_iff hb 0 _).2 ⟨_, rfl⟩, (edge_iff hb 0 _).2 ⟨_, rfl⟩, ?_, ?_, ?_⟩
  · intro c hc
    have := m3 c.1 (List.mem_map_of_mem hc)
    exact ⟨k1.trans this.1, lt_of_le_of_lt this.2 k2⟩
  · intro x hx hlt
    obtain ⟨i, rfl⟩ := (edge_iff hb 0 _).1 hx
    have hi := hmono.lt_iff_lt.1 hlt
    exact ⟨cn, hcn, k3.trans (hmono.monotone (by omega))⟩
  · intro x hx hlt
    obtain ⟨i, rfl⟩ := (edge_iff hb 0 _).1 hx
    have hi := hmono.lt_iff_lt.1 hlt
    exact ⟨cx, hcx, lt_of_le_of_lt (hmono.monotone (by omega)) k4⟩

/-- **C159, a list of craters.** The range of bins of a fit over all diameters, of either kind, with or without correction for resurfacing, encloses the craters as closely as the edges of the bins permit, up to one bin above. -/
theorem C159_range (f : PFn) (c : Chron) (cf : CurveFit) (pfc : PF) (k : Reading.Count) (hpre : k.prebinned = false) (cs : List Crater) (hperm : k.craters.Perm cs) (b : Binning) (hb : b ≠ .none)
    (kind : FitType) (resurf : Bool) (ref : ℝ) (res : FitAge) (h : Verif.Age.fitAge f c cf pfc (object (.craters k)) kind b (0, ⊤) resurf ref = .ok res) :
    ∃ e e' : ℝ, res.binRange = ((e : EReal), (e' : EReal)) ∧ Enclosing (gridOf b 0) cs e e' := by
  unfold Verif.Age.fitAge at h
  dsimp only at h
  obtain ⟨pd, p1', h⟩ := except_bind_eq_ok h
  obtain ⟨a0, q1, h⟩ := except_bind_eq_ok h
  obtain ⟨t0, q2, h⟩ := except_bind_eq_ok h
  obtain ⟨nd, _, h⟩ := except_bind_eq_ok h
  injection h with h
  have hbn : (kind.args b (0, ⊤) resurf pfc).binning = b := by cases kind <;> rfl
  have hrange : (kind.args b (0, ⊤) resurf pfc).range = some (0, ⊤) := by cases kind <;> rfl
  have hshow : (kind.args b (0, ⊤) resurf pfc).showall = false := by cases kind <;> rfl
  obtain ⟨t, ht, hfull⟩ : ∃ t, applyBinning b 0 k.craters = .ok t ∧ plotDataFull b t k.area (kind.args b (0, ⊤) resurf pfc) = .ok pd := by
    unfold Obj.getplotdata at p1'
    have hens : (object (.craters k)).ensure b = (applyBinning b 0 k.craters >>= fun t => .ok ⟨k.craters, k.area, false, some b, t⟩) := by
      simp [Obj.ensure, object, hpre]
    rw [hbn, hens] at p1'
    cases hab : applyBinning b 0 k.craters with
    | error e => rw [hab] at p1'; cases p1'
    | ok t =>
      rw [hab] at p1'
      exact ⟨t, rfl, p1'⟩
  rw [C04_order_irrelevant b 0 _ _ hperm] at ht
  unfold plotDataFull at hfull
  obtain ⟨adj, _, hpd⟩ := except_bind_eq_ok hfull
  rw [hrange, hshow] at hpd
  have hne : cs ≠ [] := by
    rintro rfl
    have hcont := fun x hx => C03_bin_contents b hb 0 [] t ht x hx
    have hsel : Verif.Spec.selected t (some (0, ⊤)) false = [] := by
      rw [Verif.Spec.selected, List.filter_eq_nil_iff]
      intro x hx hp
      have := (hcont x hx).2.2.2.2.2.2.2.1
      simp [weightIn] at this
      simp [this] at hp
    obtain ⟨g1, _⟩ := plotData_ok hpd
    rw [hsel] at g1
    have : pd.points = [] := by
      revert g1
      generalize pd.points = l
      intro g1
      cases g1
      rfl
    rw [this] at q1
    cases q1
  obtain ⟨hl, henc⟩ := table_ends hb hne ht
  refine ⟨_, _, ?_, henc⟩
  rw [← h]
  exact C68_open_ends b hb _ t ht 0 (t.length - 1) (by omega) (by omega) 0 ⊤ _ (.inl ⟨.inr rfl, rfl⟩) (.inl ⟨rfl, rfl⟩) _ _ _ _ _ pd hpd

/-- the text of no limit -/
theorem unlimited_shown {ρ : ℝ → ℚ} {f : List (List Char)} {i : ℕ} (h : Field f i (LimitShown ρ ⊤)) : f[i]? = some "inf".toList := by
  obtain ⟨s, h1, h2⟩ := h
  rcases h2 with ⟨_, h2⟩ | ⟨h2, _⟩ | ⟨v, h2, _⟩
  · rw [h1, h2]
  · exact absurd h2 (by simp)
  · exact absurd h2.symm (EReal.coe_ne_top v)

/-- the text of a limit -/
theorem limited_shown {ρ : ℝ → ℚ} {f : List (List Char)} {i : ℕ} {v : ℝ} (h : Field f i (LimitShown ρ (v : EReal))) : Field f i (Denotes 2 (ρ v)) := by
  obtain ⟨s, h1, h2⟩ := h
  rcases h2 with ⟨h2, _⟩ | ⟨h2, _⟩ | ⟨w, h2, h3⟩
  · exact absurd h2 (EReal.coe_ne_top v)
  · exact absurd h2 (EReal.coe_ne_bot v)
  · obtain rfl : v = w := EReal.coe_injective h2
    exact ⟨s, h1, h3⟩

/-- **C159, a command.** The limits of diameter in the row of a fit over all diameters to a file which lists craters: if the last age of the table is a fit whose item `resurf` is not 1, edges of bins of the binning asked for which enclose
all the craters as stated; otherwise 0 and `inf`.  This is so for each fit of the table, whatever its own item `resurf`. -/
theorem C159_command_partial (C : Classes) (isNeg : List Char → Bool) (F : FileSys) (cwd : List Char) (words : List (List Char))
    (l flat : List Given) (cwd' : List Char) (n : ℕ) (hw : CommandOf isNeg words l) (h : Expands C isNeg F cwd l flat cwd' n)
    (depth : ℕ) (hd : n ≤ depth) (E : List Char → RunEnv Opened (EReal × EReal)) (hE : ∀ d, (E d).set.classes = C)
    (hdec : (E cwd').decode = decodeOf) (hload : ∀ c, (E cwd').load [] ≠ .ok c) (T : TableRow.Env) (hT : ∀ x, OneField (T.floatStr x)) :
    ∃ st, runCommand C isNeg F depth cwd words = .ok st ∧ ∀ P out, prepareRun E st = .ok P → TableRow.table T P.plots = .ok out →
      ∃ p input items, PresentedAs (E cwd').set.lower flat p ∧ InputOf flat input ∧
        List.Forall₂ (ItemsOf C) ((flat.filter (fun g => g.dest = "plot".toList)).map (fun g => g.values)) items ∧
        ∀ env : PlotEnv Opened, env = ⟨C, (E cwd').set.lower, (E cwd').path, (E cwd').isabs, input, p == "sequence".toList, (E cwd').load⟩ →
          PlainInput env → ∀ asks, AskedPlots env items asks → (∀ y ∈ agesAsked asks, FitsTable y.2) →
          ∀ (j : ℕ) kind q last shp file diam frac a b, (agesAsked asks)[j]? = some (kind, q) → kind = .cumulative ∨ kind = .differential →
            (agesAsked asks).getLast? = some last → q.lower = "0".toList → q.upper = "inf".toList → String.ofList q.binning = Binning.name b → b ≠ .none →
            ListsCraters C file diam frac a → (E cwd').load q.source = openCount C shp ".diam".toList file →
            ∃ t row, out = some t ∧ (split '\n' t)[3 + j]? = some row ∧ (split ',' row)[0]? = some q.name ∧
              ((last.1 = .cumulative ∨ last.1 = .differential) ∧ last.2.resurf ≠ 1 → ∃ e e' : ℝ, Enclosing (gridOf b 0) (craterPairs diam frac) e e' ∧
                Field (split ',' row) 3 (Denotes 2 (T.ρ e)) ∧ Field (split ',' row) 4 (Denotes 2 (T.ρ e'))) ∧
              (¬ ((last.1 = .cumulative ∨ last.1 = .differential) ∧ last.2.resurf ≠ 1) →
                Field (split ',' row) 3 (Denotes 2 (T.ρ 0)) ∧ (split ',' row)[4]? = some "inf".toList) := by
  obtain ⟨st, h1, htable⟩ := C152_table_partial C isNeg F cwd words l flat cwd' n hw h depth hd E hE hdec hload T hT
  refine ⟨st, h1, fun P out hP hout => ?_⟩
  obtain ⟨p, input, items, a1, a2, a3, hrows⟩ := htable P out hP hout
  refine ⟨p, input, items, a1, a2, a3, ?_⟩
  intro env henv hplain asks hasks hfits j kind q last shp file diam frac a b hj hkind hlast hlo hup hbin hb hlists hopen
  obtain ⟨t, fs, t1, _, _, hrow⟩ := (hrows env henv hplain asks hasks hfits).2 last hlast
  obtain ⟨o, row, c0, r, range, r1, r2, r3, r4, r5, r6, r7, r8⟩ := hrow j kind q hj
  obtain ⟨k, k1, k2, k3, _, k5, _, _⟩ := open_lists shp hlists
  rw [hopen, k1] at r3
  injection r3 with r3
  subst r3
  obtain rfl := C152_whole k k5 q hlo hup r r4
  have hfit : last.1.fitted = true ↔ last.1 = .cumulative ∨ last.1 = .differential := by cases last.1 <;> simp [AgeKind.fitted]
  rw [hfit] at r6 r7
  obtain ⟨_, w0, _, _, w3, w4, _⟩ := r8
  refine ⟨t, row, t1, r2, w0, fun hl => ?_, fun hl => ?_⟩
  · have hfound : ∃ ty, FitFound T (plotFor q (.craters k) (0, ⊤)) ty o := by
      rcases hkind with rfl | rfl
      · exact ⟨_, r5⟩
      · exact ⟨_, r5⟩
    obtain ⟨ty, b', res, b1, b2, _, _, _, _, _, _, _, _, b11⟩ := hfound
    have hbb : b' = b := binning_name (b1.trans hbin)
    subst hbb
    obtain ⟨e, e', g1, g2⟩ := C159_range _ _ _ _ k k5 (craterPairs diam frac) k2 b' hb ty _ _ res b2
    have hr := r6 hl
    rw [b11, g1] at hr
    injection hr with hr
    rw [← hr] at w3 w4
    exact ⟨e, e', g2, limited_shown w3, limited_shown w4⟩
  · rw [r7 hl] at w3 w4
    exact ⟨limited_shown w3, unlimited_shown w4⟩

/-! ### cases -/

/-- the bins of two craters, the smaller one at an edge -/
theorem sample_limits : ∃ t, ∃ h : 0 < t.length, applyBinning .pseudoLog 0 [((3 / 2 : ℝ), (1 : ℝ)), (2, 1)] = .ok t ∧
    Enclosing (gridOf .pseudoLog 0) [((3 / 2 : ℝ), (1 : ℝ)), (2, 1)] t[0].dMin (t[t.length - 1]'(by omega)).dMax := by
  obtain ⟨t, ht⟩ : ∃ t, applyBinning .pseudoLog 0 [((3 / 2 : ℝ), (1 : ℝ)), (2, 1)] = .ok t := by
    obtain ⟨A, m, mn, mx, hr, hm, e, _⟩ := generateBins_expand (b := .pseudoLog) (by simp) ([((3 / 2 : ℝ), (1 : ℝ)), (2, 1)].map Prod.fst) (by simp)
      (by intro x hx; simp at hx; rcases hx with rfl | rfl <;> norm_num) 0
    exact ⟨tableOf (gridList (gridFn .pseudoLog 0) A m) [((3 / 2 : ℝ), (1 : ℝ)), (2, 1)], by
      simp only [applyBinning, e]
      rfl⟩
  obtain ⟨h, henc⟩ := table_ends (by simp) (by simp) ht
  exact ⟨t, h, ht, henc⟩

/-- the command of the sample: the limits in the row of the fit are edges around its craters -/
example (T0 : TableRow.Env) (hT : ∀ x, OneField (T0.floatStr x)) (hcf : CurveFitSpec T0.curveFit) : ∃ T : TableRow.Env, T.ρ = T0.ρ ∧ ∃ st P t row, ∃ e e' : ℝ,
    runCommand .ascii (fun _ => false) ageFiles 1 "/u/".toList fitWords = .ok st ∧ prepareRun ageEnv st = .ok P ∧
    TableRow.table T P.plots = .ok (some t) ∧ (split '\n' t)[3]? = some row ∧ (split ',' row)[0]? = some "m".toList ∧
    Enclosing (gridOf .pseudoLog 0) (craterPairs [1, 3, 3 / 2, 2] [1, 1, 1 / 2, 1]) e e' ∧
    Field (split ',' row) 3 (Denotes 2 (T0.ρ e)) ∧ Field (split ',' row) 4 (Denotes 2 (T0.ρ e')) := by
  obtain ⟨v, hv, hsrc⟩ := small_source
  obtain ⟨st, P, hst, hP⟩ := fitted_runs
  obtain ⟨c, hc, hinit⟩ := small_chronology hsrc
  have hgood : GoodChron c 0 0 2 := ⟨_, hinit, rfl, rfl, rfl, le_rfl, le_rfl, two_pos⟩
  obtain ⟨hl, ho, _⟩ := sample_count.choose_spec.choose_spec
  have ho' : openCount .ascii (.error .system) ".diam".toList sampleFile = .ok sampleOpened := ho
  obtain ⟨k, k1, k2, k3, _, k5, _, _⟩ := open_lists (.error .system) hl
  have hk : sampleOpened = .craters k := by
    have : openCount .ascii (.error .system) ".diam".toList sampleFile = .ok (.craters k) := k1
    rw [ho'] at this
    injection this
  obtain ⟨k', hk', _, hkne, hkd⟩ := sample_listed
  obtain rfl : k' = k := Opened.craters.inj (hk'.symm.trans hk)
  have hfr : ∀ x ∈ craterPairs [1, 3, 3 / 2, 2] [1, 1, 1 / 2, 1], 0 < x.2 := by
    intro x hx
    simp only [craterPairs, List.zip_cons_cons, List.zip_nil_right, List.map_cons, List.map_nil, List.mem_cons, List.not_mem_nil, or_false] at hx
    rcases hx with rfl | rfl | rfl | rfl <;> norm_num
  have hfr' : ∀ x ∈ k'.craters, 0 < x.2 := fun x hx => hfr x (k2.mem_iff.1 hx)
  obtain ⟨f, hf⟩ : ∃ f, f = initPoly [0, -1] (some (1, 2.5)) := ⟨_, rfl⟩
  have hcon : Constructed f := hf ▸ .inl ⟨_, _, rfl⟩
  obtain ⟨K, hK⟩ := C20_cumulative_applies f
  have hev1 : ∃ n, f.evaluate .cumulative 1 none = .ok n := by
    refine ⟨K 1 0, ?_⟩
    rw [(C18_evaluate_partial f .cumulative 1).2.1 _ _ _ (hf.trans rfl) 0 rfl rfl]
    exact (hK 1 0 one_pos).1
  have ha : 0 < k'.area := by rw [k3]; norm_num
  obtain ⟨res, lo', hi', hres, hbr⟩ := C156_exists f hcon hev1 c T0.curveFit hcf T0.plotPF k' k5 ha hkne
    (fun x hx => lt_of_lt_of_le (by norm_num) (hkd x hx)) hfr' .pseudoLog (by simp)
  obtain ⟨_, _, lo, hi, tlo, thi, _, _, f3, f4, _, _, f7, f8, _⟩ := C156_fit f hcon c 0 0 2 hgood T0.curveFit hcf T0.plotPF (fun d => K d 0)
    (fun d hd a => by
      have hs := C16_scaling f hcon d 0 a (K d 0)
      rw [zero_add] at hs
      exact hs.1 (hK d 0 hd).1) k' k5 ha _ (List.Perm.refl _) hfr' .pseudoLog (by simp) (0, ⊤) 1 res hres
  obtain ⟨out, hout⟩ := fitted_written ⟨.ascii, T0.ρ, T0.floatStr, f, T0.plotPF, c, T0.simpson, T0.curveFit, 1, true⟩ hT
      ⟨(res.t, tlo, thi), (res.a0.best, lo, hi), res.n, res.nEvent, some res.binRange⟩
      ⟨.pseudoLog, res, by decide +kernel, by rw [show (plotFor askFit sampleOpened (0, ⊤)).count = .craters k' from hk]; exact hres, rfl, f7, f8, rfl, f3, f4, rfl, rfl, rfl⟩
      (by
        intro r hr
        injection hr with hr
        rw [← hr, hbr]
        exact .inr ⟨_, _, rfl⟩) st P hst hP
  obtain ⟨st', hst', hfile⟩ := C159_command_partial .ascii (fun _ => false) ageFiles "/u/".toList fitWords fitGiven fitGiven "/u/".toList 0 fitted_words fitted_expands 1
    (by omega) ageEnv (fun _ => rfl) rfl sample_noload ⟨.ascii, T0.ρ, T0.floatStr, f, T0.plotPF, c, T0.simpson, T0.curveFit, 1, true⟩ hT
  rw [hst] at hst'
  injection hst' with hst'
  subst hst'
  obtain ⟨p, input, items, g1, g2, g3, g4⟩ := hfile P out hP hout
  obtain rfl := fitted_presented g1
  obtain rfl := fitted_input g2
  obtain rfl := fitted_items g3
  obtain ⟨t, row, e1, e2, e3, e4, _⟩ := g4 agePlotEnv rfl sample_plain [askData, askFit] fitted_asked fitted_fitting 0 .cumulative askFit (.cumulative, askFit)
    (.error .system) sampleFile [1, 3, 3 / 2, 2] [1, 1, 1 / 2, 1] 10 .pseudoLog (by rw [fitted_ages]; rfl) (.inl rfl) (by rw [fitted_ages]; rfl) rfl rfl (by decide +kernel)
    (by simp) hl (sample_load.trans ho.symm)
  obtain ⟨e, e', u1, u2, u3⟩ := e4 ⟨.inl rfl, by show (0 : ℤ) ≠ 1; decide⟩
  exact ⟨⟨.ascii, T0.ρ, T0.floatStr, f, T0.plotPF, c, T0.simpson, T0.curveFit, 1, true⟩, rfl, st, P, t, row, e, e', hst, hP, by rw [hout, e1], e2, e3, u1, u2, u3⟩

end

end Verif.Props
