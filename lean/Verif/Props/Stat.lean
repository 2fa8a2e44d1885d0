import Verif.Lemmas.Range
import Verif.Props.Range

/-! C11: export to and import from .stat files; C13: the resurfacing correction. -/

namespace Verif.Props
open Verif.Cratercount Verif.Py Verif.Spec

noncomputable section

theorem statDMax_ok (l : List ℝ) (h : 2 ≤ l.length) :
    statDMax l = .ok (l.tail ++ [l[l.length - 1] * (l[l.length - 1] / l[l.length - 2])]) := by
  have hr : l.reverse = l[l.length - 1] :: l[l.length - 2] :: (l.reverse.drop 2) := by
    apply List.ext_getElem
    · simp; omega
    · intro i h1 h2
      match i with
      | 0 => simp [List.getElem_reverse]
      | 1 => simp [List.getElem_reverse]; congr 1
      | i + 2 => simp [List.getElem_drop]; congr 1; omega
  unfold statDMax
  rw [hr]

/-- **C11 (the part that holds).** A crater count with at least two non-empty bins, written as .stat file and read
back (numbers taken exactly), has the same area and the same non-empty bins with the same lower boundaries, numbers, event
numbers and cumulative numbers; boundary, width and mean diameter of a bin survive if the next non-empty bin
adjoins it.  Missing from the full claim: widths before gaps and of the last bin, cumulative event numbers
(see the counterexamples below). -/
theorem C11_stat_roundtrip_partial (t : List Bin) (area : ℝ) (harea : area ≠ 0)
    (hcum : ∀ x ∈ t, 0 < x.n → x.ncum ≠ 0) (hmean : ∀ x ∈ t, x.dMean = Real.sqrt (x.dMax * x.dMin))
    (hwid : ∀ x ∈ t, x.width = x.dMax - x.dMin)
    (h2 : 2 ≤ (t.filter (fun x => decide (0 < x.n))).length) :
    let q := t.filter (fun x => decide (0 < x.n))
    ∃ t', readStat (statRows t area) = .ok (area, t') ∧ ∃ hl : t'.length = q.length,
      ∀ i (hi : i < q.length), t'[i].dMin = q[i].dMin ∧ t'[i].n = q[i].n ∧ t'[i].nEvent = q[i].nEvent ∧
        t'[i].ncum = q[i].ncum ∧ t'[i].ncumEvent = q[i].ncum ∧
        (∀ h : i + 1 < q.length, t'[i].dMax = q[i + 1].dMin ∧ (q[i].dMax = q[i + 1].dMin →
          t'[i].dMax = q[i].dMax ∧ t'[i].width = q[i].width ∧ t'[i].dMean = q[i].dMean)) := by
  intro q
  have hqt : ∀ x ∈ q, x ∈ t ∧ 0 < x.n := by
    intro x hx
    have := List.mem_filter.1 hx
    exact ⟨this.1, by simpa using this.2⟩
  have hrows : statRows t area = q.map fun b => ⟨b.dMin, b.n, b.ncum, b.ncum / area, b.nEvent⟩ := rfl
  have hlen : (statRows t area).length = q.length := by rw [hrows]; simp
  have hdl : ((statRows t area).map StatRow.diam).length = q.length := by simp [hlen]
  have hmx := statDMax_ok ((statRows t area).map StatRow.diam) (by rw [hdl]; exact h2)
  have hhead : (statRows t area).head? = some ⟨q[0].dMin, q[0].n, q[0].ncum, q[0].ncum / area, q[0].nEvent⟩ := by
    have : 0 < (statRows t area).length := by rw [hlen]; exact lt_of_lt_of_le (by norm_num) h2
    rw [List.head?_eq_getElem?, List.getElem?_eq_getElem this]
    simp [hrows]
  have hq0 := hqt q[0] (List.getElem_mem _)
  have hn0 := hcum _ hq0.1 hq0.2
  have harea2 : fdiv q[0].ncum (q[0].ncum / area) = .ok area := by
    rw [fdiv_ok]
    refine ⟨div_ne_zero hn0 harea, ?_⟩
    field_simp
  simp only [readStat, hmx, hhead, harea2, except_ok_bind]
  refine ⟨_, rfl, ?_⟩
  have hl : ∀ (f : StatRow → ℝ → Bin) (X : ℝ), (List.zipWith f (statRows t area)
      (((statRows t area).map StatRow.diam).tail ++ [X])).length = q.length := by
    intro f X
    simp [hlen]; omega
  refine ⟨hl _ _, ?_⟩
  intro i hi
  have hmemi := hqt q[i] (List.getElem_mem hi)
  have hri : (statRows t area)[i]'(by omega) = ⟨q[i].dMin, q[i].n, q[i].ncum, q[i].ncum / area, q[i].nEvent⟩ := by
    simp [hrows]
  simp only [List.getElem_zipWith, hri]
  refine ⟨trivial, trivial, trivial, trivial, trivial, ?_⟩
  intro h
  have htl : (((statRows t area).map StatRow.diam).tail ++
      [((statRows t area).map StatRow.diam)[((statRows t area).map StatRow.diam).length - 1] *
        (((statRows t area).map StatRow.diam)[((statRows t area).map StatRow.diam).length - 1] /
          ((statRows t area).map StatRow.diam)[((statRows t area).map StatRow.diam).length - 2])])[i]'(by
            simp [hlen]; omega) = q[i + 1].dMin := by
    rw [List.getElem_append_left (by simp [hlen]; omega), List.getElem_tail]
    simp [hrows]
  refine ⟨htl, ?_⟩
  intro hadj
  simp only [htl]
  refine ⟨hadj.symm, ?_, ?_⟩
  · rw [hwid _ hmemi.1, hadj]
  · rw [hmean _ hmemi.1, hadj, mul_comm]

/-- **C11, gaps.** Whenever an empty bin follows a non-empty one, the width read back is too large. -/
theorem C11_gap_counterexample (t : List Bin) (area : ℝ) (harea : area ≠ 0)
    (hcum : ∀ x ∈ t, 0 < x.n → x.ncum ≠ 0) (hmean : ∀ x ∈ t, x.dMean = Real.sqrt (x.dMax * x.dMin))
    (hwid : ∀ x ∈ t, x.width = x.dMax - x.dMin)
    (h2 : 2 ≤ (t.filter (fun x => decide (0 < x.n))).length) :
    let q := t.filter (fun x => decide (0 < x.n))
    ∀ i (h : i + 1 < q.length), q[i].dMax < q[i + 1].dMin →
      ∃ t' x', readStat (statRows t area) = .ok (area, t') ∧ t'[i]? = some x' ∧ x'.dMin = q[i].dMin ∧
        q[i].dMax < x'.dMax := by
  intro q i h hgap
  obtain ⟨t', h1, hl, h3⟩ := C11_stat_roundtrip_partial t area harea hcum hmean hwid h2
  have hl' : t'.length = q.length := hl
  refine ⟨t', t'[i], h1, List.getElem?_eq_getElem _, (h3 i (by omega)).1, ?_⟩
  have := ((h3 i (by omega)).2.2.2.2.2 h).1
  rw [this]; exact hgap

/-- a table with a gap meeting the hypotheses of the two theorems above -/
example : ∃ t : List Bin, (∀ x ∈ t, 0 < x.n → x.ncum ≠ 0) ∧ (∀ x ∈ t, x.dMean = Real.sqrt (x.dMax * x.dMin)) ∧
    (∀ x ∈ t, x.width = x.dMax - x.dMin) ∧ 2 ≤ (t.filter (fun x => decide (0 < x.n))).length ∧
    ∃ h : 1 < (t.filter (fun x => decide (0 < x.n))).length,
      (t.filter (fun x => decide (0 < x.n)))[0].dMax < (t.filter (fun x => decide (0 < x.n)))[1].dMin := by
  refine ⟨[⟨1, 2, 1, Real.sqrt (2 * 1), 3, 3, 5, 5⟩, ⟨2, 4, 2, Real.sqrt (4 * 2), 0, 0, 2, 2⟩,
    ⟨4, 8, 4, Real.sqrt (8 * 4), 2, 2, 2, 2⟩], ?_, ?_, ?_, ?_, ?_⟩
  · intro x hx; simp only [List.mem_cons, List.not_mem_nil, or_false] at hx
    rcases hx with rfl | rfl | rfl <;> norm_num
  · intro x hx; simp only [List.mem_cons, List.not_mem_nil, or_false] at hx
    rcases hx with rfl | rfl | rfl <;> rfl
  · intro x hx; simp only [List.mem_cons, List.not_mem_nil, or_false] at hx
    rcases hx with rfl | rfl | rfl <;> norm_num
  · norm_num [List.filter_cons]
  · refine ⟨by norm_num [List.filter_cons], ?_⟩
    norm_num [List.filter_cons]

/-- **C11, fractions.** With fractional craters the cumulative event number read back is the cumulative fraction, not
the number of craters: whenever the two differ the round trip changes the table (and the error bars). -/
theorem C11_events_counterexample (t : List Bin) (area : ℝ) (harea : area ≠ 0)
    (hcum : ∀ x ∈ t, 0 < x.n → x.ncum ≠ 0) (hmean : ∀ x ∈ t, x.dMean = Real.sqrt (x.dMax * x.dMin))
    (hwid : ∀ x ∈ t, x.width = x.dMax - x.dMin)
    (h2 : 2 ≤ (t.filter (fun x => decide (0 < x.n))).length) :
    let q := t.filter (fun x => decide (0 < x.n))
    ∀ i (h : i < q.length), q[i].ncum ≠ q[i].ncumEvent →
      ∃ t' x', readStat (statRows t area) = .ok (area, t') ∧ t'[i]? = some x' ∧ x'.ncumEvent ≠ q[i].ncumEvent := by
  intro q i h hne
  obtain ⟨t', h1, hl, h3⟩ := C11_stat_roundtrip_partial t area harea hcum hmean hwid h2
  have hl' : t'.length = q.length := hl
  refine ⟨t', t'[i], h1, List.getElem?_eq_getElem _, ?_⟩
  rw [(h3 i h).2.2.2.2.1]; exact hne

/-- **C11, single bin.** A count with fewer than two non-empty bins cannot be read back at all. -/
theorem C11_single_row_counterexample (t : List Bin) (area : ℝ)
    (h2 : (t.filter (fun x => decide (0 < x.n))).length < 2) : readStat (statRows t area) = .error .index := by
  have hl : ((statRows t area).map StatRow.diam).length < 2 := by
    simpa [statRows, nonEmpty] using h2
  have hs : statDMax ((statRows t area).map StatRow.diam) = .error .index := by
    generalize (statRows t area).map StatRow.diam = l at hl
    match l, hl with
    | [], _ => rfl
    | [x], _ => rfl
  simp only [readStat, hs, except_error_bind]

example : (([⟨1, 2, 1, Real.sqrt (2 * 1), 3, 3, 3, 3⟩] : List Bin).filter (fun x => decide (0 < x.n))).length < 2 := by
  norm_num [List.filter_cons]

/-- the hypotheses of the round trip hold for every binned crater list with positive fractions -/
theorem C11_applies (b : Binning) (hb : b ≠ .none) (off : ℝ) (cs : List Crater) (hfrac : ∀ c ∈ cs, 0 < c.2)
    (t : List Bin) (ht : applyBinning b off cs = .ok t) :
    (∀ x ∈ t, 0 < x.n → x.ncum ≠ 0) ∧ (∀ x ∈ t, x.dMean = Real.sqrt (x.dMax * x.dMin)) ∧
    (∀ x ∈ t, x.width = x.dMax - x.dMin) := by
  refine ⟨?_, ?_, ?_⟩
  · intro x hx hn
    obtain ⟨_, _, hlt, _, _, _, _, d5, d6, d7, d8⟩ := C03_bin_contents b hb off cs t ht _ hx
    have := weightFrom_sub cs hlt.le
    rw [d7]
    rw [d5] at hn
    have h0 : 0 ≤ weightFrom cs x.dMax := by
      unfold weightFrom
      apply List.sum_nonneg
      intro y hy
      obtain ⟨c, hc, rfl⟩ := List.mem_map.1 hy
      exact (hfrac c (List.mem_filter.1 hc).1).le
    linarith
  · intro x hx; exact (C03_bin_contents b hb off cs t ht _ hx).2.2.2.2.2.2.1
  · intro x hx; exact (C03_bin_contents b hb off cs t ht _ hx).2.2.2.2.2.1

/-! ### C13 -/

theorem resurfLoop_spec (fit : List Point → ℝ) (C : ℝ → ℝ → ℝ) (p0 : List Point) (last : Point) (fuel count : ℕ)
    (adj : ℝ) (hf : 21 ≤ fuel + count) (hc : count ≤ 20) :
    ∃ prev res n, resurfLoop fit C p0 last fuel count adj = some (res, n) ∧ count < n ∧ n ≤ 21 ∧
      res = C last.d (fit (p0.map fun q => { q with y := q.y + prev })) - last.y ∧
      (n ≤ 20 → |prev - res| < 0.0001) := by
  induction fuel generalizing count adj with
  | zero => omega
  | succ fuel ih =>
    simp only [resurfLoop]
    split
    · next h =>
      refine ⟨adj, _, count + 1, rfl, by omega, by omega, rfl, ?_⟩
      intro hn
      rcases h with h | h
      · exact h
      · omega
    · next h =>
      push Not at h
      obtain ⟨prev, res, n, h1, h2, h3, h4⟩ := ih (count + 1)
        (C last.d (fit (p0.map fun q => { q with y := q.y + adj })) - last.y) (by omega) (by omega)
      exact ⟨prev, res, n, h1, by omega, h3, h4⟩

/-- the recursion bound of the model is never reached (see `resurfLoop`) -/
theorem resurf_fuel_enough (fit : List Point → ℝ) (C : ℝ → ℝ → ℝ) (p0 : List Point) :
    resurfAdj fit C p0 ≠ Option.none := by
  unfold resurfAdj
  cases h : p0.getLast? with
  | none => simp
  | some last =>
    by_cases hl : p0.length > 1
    · obtain ⟨prev, res, n, h1, _⟩ := resurfLoop_spec fit C p0 last 21 0 0 (by omega) (by omega)
      simp [hl, h1]
    · simp [hl]

/-- **C13.** Whatever the fit returns, the resurfacing correction ends after at most 21 fits; with fewer than two
points it is 0 without any fit; otherwise the correction makes the corrected largest-diameter value lie on
the curve fitted to the data with the previous correction, and unless all 21 fits were used the last two
corrections differ by less than 0.0001. -/
theorem C13_resurfacing_finishes (fit : List Point → ℝ) (C : ℝ → ℝ → ℝ) (p0 : List Point) :
    ∃ adj n, resurfAdj fit C p0 = some (adj, n) ∧ n ≤ 21 ∧
      (p0.length < 2 → adj = 0 ∧ n = 0) ∧
      (2 ≤ p0.length → ∃ last prev, p0.getLast? = some last ∧
        last.y + adj = C last.d (fit (p0.map fun q => { q with y := q.y + prev })) ∧
        (n < 21 → |prev - adj| < 0.0001)) := by
  unfold resurfAdj
  cases h : p0.getLast? with
  | none =>
    have : p0 = [] := List.getLast?_eq_none_iff.1 h
    subst this
    exact ⟨0, 0, rfl, by omega, fun _ => ⟨rfl, rfl⟩, fun h => by simp at h⟩
  | some last =>
    by_cases hl : p0.length > 1
    · obtain ⟨prev, res, n, h1, h2, h3, h4, h5⟩ := resurfLoop_spec fit C p0 last 21 0 0 (by omega) (by omega)
      refine ⟨res, n, by simp [hl, h1], h3, fun h => by omega, fun _ => ⟨last, prev, rfl, by rw [h4]; ring, ?_⟩⟩
      intro hn; exact h5 (by omega)
    · exact ⟨0, 0, by simp [hl], by omega, fun _ => ⟨rfl, rfl⟩, fun h => by omega⟩

/-- a case in which the correction needs several fits and the bound of 21 is reached: a fit that keeps moving -/
example : ∃ adj, resurfAdj (fun p => (p.map Point.y).sum) (fun _ a => a) [⟨1, 3, 1⟩, ⟨2, 1, 1⟩] = some (adj, 21) := by
  obtain ⟨adj, n, h1, h2, _, h4⟩ := C13_resurfacing_finishes (fun p => (p.map Point.y).sum) (fun _ a => a)
    [⟨1, 3, 1⟩, ⟨2, 1, 1⟩]
  obtain ⟨last, prev, e1, e2, e3⟩ := h4 (by simp)
  have : n = 21 := by
    by_contra hc
    have hn : n < 21 := by omega
    have e4 := e3 hn
    -- the loop `adj ↦ 3 + 2·adj` from 0 only grows
    have key : ∀ fuel count a res m, 0 ≤ a → resurfLoop (fun p => (p.map Point.y).sum) (fun _ a => a)
        [⟨1, 3, 1⟩, ⟨2, 1, 1⟩] ⟨2, 1, 1⟩ fuel count a = some (res, m) → 20 < m := by
      intro fuel
      induction fuel with
      | zero => intro count a res m _ h; simp [resurfLoop] at h
      | succ fuel ih =>
        intro count a res m ha h
        simp only [resurfLoop] at h
        split at h
        · next hh =>
          rcases hh with hh | hh
          · exfalso
            simp only [List.map_cons, List.map_nil, List.sum_cons, List.sum_nil] at hh
            rw [abs_lt] at hh
            linarith [hh.1]
          · have := Option.some.inj h
            simp only [Prod.mk.injEq] at this
            omega
        · apply ih _ _ _ _ _ h
          simp only [List.map_cons, List.map_nil, List.sum_cons, List.sum_nil]
          linarith
    have := key 21 0 0 adj n le_rfl (by simpa [resurfAdj] using h1)
    omega
  exact ⟨adj, by rw [h1, this]⟩

/-- **C13, same shift.** The correction adds the same amount to every cumulative value and changes nothing else but
the error bars. -/
theorem C13_same_shift (bn : Binning) (t : List Bin) (area adj : ℝ) (C : Option (ℝ → ℝ))
    (range : Option (EReal × EReal)) (resurf1 showall : Bool) (pd pd0 : PlotData)
    (h : plotData .cumulative bn t area adj C range resurf1 showall = .ok pd)
    (h0 : plotData .cumulative bn t area 0 C range resurf1 showall = .ok pd0) :
    pd.points.map Point.d = pd0.points.map Point.d ∧
    pd.points.map Point.y = pd0.points.map (fun p => p.y + adj) ∧ pd.n = pd0.n ∧ pd.nEvent = pd0.nEvent := by
  obtain ⟨a1, a2, a3, _⟩ := plotData_ok h
  obtain ⟨b1, b2, b3, _⟩ := plotData_ok h0
  refine ⟨?_, ?_, a2.trans b2.symm, a3.trans b3.symm⟩
  · rw [← forall₂_map_eq a1 (f := plotDiameter .cumulative) (fun a b hab => (pointOK_d hab).symm),
      ← forall₂_map_eq b1 (f := plotDiameter .cumulative) (fun a b hab => (pointOK_d hab).symm)]
  · rw [← forall₂_map_eq a1 (f := fun x => x.ncum / area + adj) (fun a b hab => hab.2.2.2.1.symm),
      ← forall₂_map_eq b1 (f := fun x => x.ncum / area + adj) (fun a b hab => by rw [hab.2.2.2.1]; ring)]

end

end Verif.Props
