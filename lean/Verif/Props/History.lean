import Verif.Props.Binning

/-! C05: plot data does not depend on the history of calls. -/

namespace Verif.Props
open Verif.Cratercount Verif.Py Verif.Spec

noncomputable section

/-- public calls on a crater count object -/
inductive Op
  | plot (a : PlotArgs)
  | decode (l0 l1 : Lim) (b : Binning) (snap : Bool)
  | stat (b : Binning)
  | rebin (b : Binning)

/-- state after one call; exceptions are ignored by the caller -/
def Op.run (o : Obj) : Op → Obj
  | .plot a => (o.getplotdata a).1
  | .decode l0 l1 b snap => (o.decodeRange l0 l1 b snap).1
  | .stat b => (o.writeStat b).1
  | .rebin b => o.rebin b 0

/-- state after a sequence of calls -/
def runAll (o : Obj) (ops : List Op) : Obj := ops.foldl Op.run o

/-- a crater count object just after reading a crater list -/
def freshObj (cs : List Crater) (area : ℝ) : Obj := ⟨cs, area, false, Option.none, []⟩

/-- a crater count object just after reading a pre-binned file (always labelled pseudo-log) -/
def prebinnedObj (t : List Bin) (area : ℝ) : Obj := ⟨[], area, true, some .pseudoLog, t⟩

/-- the cache invariant -/
def Consistent (cs : List Crater) (area : ℝ) (o : Obj) : Prop :=
  o.craters = cs ∧ o.area = area ∧ o.prebinned = false ∧
    (o.binning = Option.none ∨ ∃ b, o.binning = some b ∧ applyBinning b 0 cs = .ok o.binned)

theorem ensure_consistent {cs : List Crater} {area : ℝ} {o : Obj} (h : Consistent cs area o) (b : Binning) :
    (∃ e, o.ensure b = .error e ∧ applyBinning b 0 cs = .error e) ∨
    (∃ o', o.ensure b = .ok o' ∧ Consistent cs area o' ∧ o'.binning = some b ∧
      applyBinning b 0 cs = .ok o'.binned) := by
  obtain ⟨h1, h2, h3, h4⟩ := h
  unfold Obj.ensure
  rw [h3, if_neg (by simp)]
  by_cases hb : o.binning = some b
  · right
    rw [if_pos hb]
    rcases h4 with h4 | ⟨b', h4, h5⟩
    · rw [h4] at hb; cases hb
    · rw [h4] at hb
      have : b' = b := Option.some.inj hb
      subst this
      exact ⟨o, rfl, ⟨h1, h2, h3, Or.inr ⟨b', h4, h5⟩⟩, h4, h5⟩
  · rw [if_neg hb, h1]
    cases he : applyBinning b 0 cs with
    | error e => left; exact ⟨e, rfl, rfl⟩
    | ok t =>
      right
      exact ⟨_, rfl, ⟨rfl, h2, rfl, Or.inr ⟨b, rfl, he⟩⟩, rfl, rfl⟩

theorem run_consistent {cs : List Crater} {area : ℝ} {o : Obj} (h : Consistent cs area o) (op : Op) :
    Consistent cs area (op.run o) := by
  cases op with
  | plot a =>
    simp only [Op.run, Obj.getplotdata]
    rcases ensure_consistent h a.binning with ⟨e, he, _⟩ | ⟨o', he, hc, _⟩ <;> rw [he]
    · exact h
    · exact hc
  | decode l0 l1 b snap =>
    simp only [Op.run, Obj.decodeRange]
    rcases ensure_consistent h b with ⟨e, he, _⟩ | ⟨o', he, hc, _⟩ <;> rw [he]
    · exact h
    · exact hc
  | stat b =>
    simp only [Op.run, Obj.writeStat]
    rcases ensure_consistent h b with ⟨e, he, _⟩ | ⟨o', he, hc, _⟩ <;> rw [he]
    · exact h
    · exact hc
  | rebin b =>
    obtain ⟨h1, h2, h3, h4⟩ := h
    simp only [Op.run, Obj.rebin, h1, h3]
    cases he : applyBinning b 0 cs with
    | error e => exact ⟨h1, h2, h3, h4⟩
    | ok t => exact ⟨rfl, h2, rfl, Or.inr ⟨b, rfl, he⟩⟩

theorem runAll_consistent {cs : List Crater} {area : ℝ} (ops : List Op) :
    Consistent cs area (runAll (freshObj cs area) ops) := by
  have key : ∀ (ops : List Op) (o : Obj), Consistent cs area o → Consistent cs area (runAll o ops) := by
    intro ops
    induction ops with
    | nil => intro o h; exact h
    | cons op ops ih => intro o h; exact ih _ (run_consistent h op)
  exact key ops _ ⟨rfl, rfl, rfl, Or.inl rfl⟩

/-- **C05.** After any sequence of calls (plot data, range decoding, stat export, re-binning without offset) on a
freshly read object, plot data, decoded range and exported rows are those of the stateless computation: bin the crater
list with the requested binning and evaluate. -/
theorem C05_history_independent (cs : List Crater) (area : ℝ) (ops : List Op) (a : PlotArgs)
    (l0 l1 : Lim) (b : Binning) (snap : Bool) :
    ((runAll (freshObj cs area) ops).getplotdata a).2 =
      (do let t ← applyBinning a.binning 0 cs; plotDataFull a.binning t area a) ∧
    ((runAll (freshObj cs area) ops).decodeRange l0 l1 b snap).2 =
      (do let t ← applyBinning b 0 cs; Cratercount.decodeRange b t l0 l1 snap) ∧
    ((runAll (freshObj cs area) ops).writeStat b).2 =
      (do let t ← applyBinning b 0 cs; .ok (statRows t area)) := by
  have hc := runAll_consistent (cs := cs) (area := area) ops
  refine ⟨?_, ?_, ?_⟩
  · unfold Obj.getplotdata
    rcases ensure_consistent hc a.binning with ⟨e, he, ha⟩ | ⟨o', he, ⟨_, h2, _⟩, hb, ha⟩
    · rw [he, ha]; rfl
    · rw [he, ha]; simp only [hb, h2]; rfl
  · unfold Obj.decodeRange
    rcases ensure_consistent hc b with ⟨e, he, ha⟩ | ⟨o', he, ⟨_, h2, _⟩, hb, ha⟩
    · rw [he, ha]; rfl
    · rw [he, ha]; simp only [hb]; rfl
  · unfold Obj.writeStat
    rcases ensure_consistent hc b with ⟨e, he, ha⟩ | ⟨o', he, ⟨_, h2, _⟩, hb, ha⟩
    · rw [he, ha]; rfl
    · rw [he, ha]; simp only [h2]; rfl

/-- a history with several different binnings, among them the one asked for last -/
example : ∃ ops : List Op, ops = [.stat .root2, .rebin .none, .decode (.bin 1) (.val ⊤) .pseudoLog true, .stat .root2] :=
  ⟨_, rfl⟩

/-- **C05, pre-binned source.** The table of a pre-binned file never changes and the binning argument is ignored. -/
theorem C05_prebinned (t : List Bin) (area : ℝ) (ops : List Op) (a : PlotArgs) (l0 l1 : Lim) (b : Binning)
    (snap : Bool) :
    let o := runAll (prebinnedObj t area) ops
    (o.getplotdata a).2 = plotDataFull .pseudoLog t area a ∧
    (o.decodeRange l0 l1 b snap).2 = Cratercount.decodeRange .pseudoLog t l0 l1 snap ∧
    (o.writeStat b).2 = .ok (statRows t area) := by
  have key : ∀ ops : List Op, runAll (prebinnedObj t area) ops = prebinnedObj t area := by
    intro ops
    induction ops with
    | nil => rfl
    | cons op ops ih =>
      have : op.run (prebinnedObj t area) = prebinnedObj t area := by
        cases op <;>
          simp [Op.run, Obj.getplotdata, Obj.decodeRange, Obj.writeStat, Obj.rebin, Obj.ensure, prebinnedObj]
      unfold runAll at ih ⊢
      rw [List.foldl_cons, this, ih]
  intro o
  have ho : o = prebinnedObj t area := key ops
  rw [ho]
  exact ⟨rfl, rfl, rfl⟩

/-- the plot arguments used for the counterexample -/
def cexArgs : PlotArgs := ⟨.cumulative, .x2, Option.none, some 0, false, Option.none⟩

theorem plotDataFull_cex {t : List Bin} {x : Bin} (hx : nonEmpty t = [x]) (hn : 0 < x.ncumEvent) :
    plotDataFull .x2 t 1 cexArgs = .ok ⟨[⟨x.dMin, x.ncum, x.ncum / Real.sqrt x.ncumEvent⟩], x.n, x.nEvent,
      ((x.dMin : EReal), (x.dMax : EReal))⟩ := by
  have e1 : adjOf .x2 t 1 cexArgs = .ok 0 := by simp [adjOf, cexArgs]
  have e2 : point .cumulative 1 0 Option.none x = .ok ⟨x.dMin, x.ncum, x.ncum / Real.sqrt x.ncumEvent⟩ := by
    simp only [point, fdiv, errBar, one_ne_zero, if_false, not_le.2 hn, div_one]
    show (Except.ok _ : Except Err Point) = _
    rw [add_zero]
  simp only [plotDataFull, e1, except_ok_bind]
  simp [plotData, cexArgs, hx, e2]

/-- the single non-empty bin of a one-crater list -/
theorem single_crater (off : ℝ) : ∃ t x, applyBinning .x2 off [(1, 1)] = .ok t ∧ nonEmpty t = [x] ∧
    0 < x.ncumEvent ∧ (gridOf .x2 off).Edge x.dMin := by
  obtain ⟨t, ht, _⟩ := C01_binning_succeeds .x2 [(1, 1)] (by simp) (by simp) off
  have key := fun x hx => C03_bin_contents .x2 (by decide) off [(1, 1)] t ht x hx
  obtain ⟨A, m, hm, _, e, _⟩ := applyBinning_ok (b := .x2) (by decide) ht
  have hcons := (C02_conservation .x2 off [(1, 1)] t ht).2
  have hmono := C03_cumulative_monotone .x2 (by decide) off [(1, 1)] t ht
  have hn : ∀ x ∈ t, x.n = if x.dMin ≤ 1 ∧ 1 < x.dMax then 1 else 0 := by
    intro x hx
    obtain ⟨_, _, _, _, _, _, _, hn, _⟩ := key x hx
    rw [hn]
    by_cases hc : x.dMin ≤ 1 ∧ 1 < x.dMax
    · simp [weightIn, hc]
    · simp only [weightIn, List.filter_cons, hc, decide_false, if_false]; simp
  have hex : ∃ x ∈ t, 0 < x.n := by
    by_contra hc
    push Not at hc
    have : (t.map Bin.n).sum = 0 := by
      apply List.sum_eq_zero
      intro w hw
      obtain ⟨x, hx, rfl⟩ := List.mem_map.1 hw
      have h0 := hc x hx
      have h1 := hn x hx
      split at h1
      · linarith
      · exact h1
    rw [hcons] at this
    simp [weightAll] at this
  obtain ⟨x, hx, hxn⟩ := hex
  have hne : nonEmpty t ≠ [] := by
    intro h0
    have : x ∈ nonEmpty t := by simp [nonEmpty, hx, hxn]
    rw [h0] at this; cases this
  have hin : ∀ y ∈ t, 0 < y.n → y.dMin ≤ 1 ∧ 1 < y.dMax := by
    intro y hy hyn
    rw [hn y hy] at hyn
    by_contra hc
    rw [if_neg hc] at hyn
    exact lt_irrefl _ hyn
  have hpw : (nonEmpty t).Pairwise (fun a b => a.dMax ≤ b.dMin) := by
    apply List.Pairwise.sublist List.filter_sublist
    rw [List.pairwise_iff_getElem]
    intro i j hi hj hij
    exact (hmono i j hij hj).1
  rcases hq : nonEmpty t with _ | ⟨y, l⟩
  · exact absurd hq hne
  · have hy : y ∈ nonEmpty t := by rw [hq]; simp
    have hy' := List.mem_filter.1 hy
    have hyi := hin y hy'.1 (by simpa using hy'.2)
    have hl : l = [] := by
      rcases l with _ | ⟨z, l⟩
      · rfl
      · exfalso
        have hz : z ∈ nonEmpty t := by rw [hq]; simp
        have hz' := List.mem_filter.1 hz
        have hzi := hin z hz'.1 (by simpa using hz'.2)
        rw [hq] at hpw
        have := (List.pairwise_cons.1 hpw).1 z (by simp)
        linarith [hyi.2, hzi.1]
    subst hl
    obtain ⟨k1, _, _, _, _, _, _, _, _, _, k2⟩ := key y hy'.1
    refine ⟨t, y, ht, hq, ?_, k1⟩
    rw [k2]
    simp [countFrom, hyi.1]

/-- **C05, limit of the property.** `apply_binning` called directly with a non-zero offset leaves a table under the
plain binning name, and later plot data use it: the cache key lacks the offset. -/
theorem C05_offset_counterexample :
    (((freshObj [(1, 1)] 1).rebin .x2 0.5).getplotdata cexArgs).2 ≠ ((freshObj [(1, 1)] 1).getplotdata cexArgs).2 := by
  obtain ⟨t, x, h1, h2, h3, j, hj⟩ := single_crater 0.5
  obtain ⟨t', x', h1', h2', h3', k, hk⟩ := single_crater 0
  have e1 : (((freshObj [(1, 1)] 1).rebin .x2 0.5).getplotdata cexArgs).2 = plotDataFull .x2 t 1 cexArgs := by
    simp [freshObj, Obj.rebin, h1, Obj.getplotdata, Obj.ensure, cexArgs]
  have e2 : ((freshObj [(1, 1)] 1).getplotdata cexArgs).2 = plotDataFull .x2 t' 1 cexArgs := by
    simp only [freshObj, Obj.getplotdata, Obj.ensure, cexArgs, h1', Bool.false_eq_true, if_false, reduceCtorEq]
    rfl
  rw [e1, e2, plotDataFull_cex h2 h3, plotDataFull_cex h2' h3']
  intro h
  have h' := Except.ok.inj h
  simp only [PlotData.mk.injEq, List.cons.injEq, Point.mk.injEq] at h'
  have hd := h'.1.1.1
  rw [hj, hk] at hd
  have := congrArg (Real.logb 2) hd
  rw [Real.logb_rpow (by norm_num) (by norm_num), Real.logb_rpow (by norm_num) (by norm_num)] at this
  have h2 : (2 * (j - k) : ℤ) = 1 := by
    have : ((2 * (j - k) : ℤ) : ℝ) = ((1 : ℤ) : ℝ) := by push_cast; linarith
    exact_mod_cast this
  omega

end

end Verif.Props
