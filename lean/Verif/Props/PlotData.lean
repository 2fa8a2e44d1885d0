import Verif.Lemmas.Plot
import Verif.Props.Binning

/-! C06-C08 and C68: selection by diameter range, error bars, relations between presentations, reported bin range. -/

namespace Verif.Props
open Verif.Cratercount Verif.Py Verif.Spec

noncomputable section

/-- **C06.** With a diameter range, the plot data consist of exactly the non-empty bins whose geometric mean is
strictly inside the range (from 0 with `showall`), in table order, and the reported numbers are the totals over these. -/
theorem C06_selection (pr : Presentation) (bn : Binning) (t : List Bin) (area adj : ℝ) (C : Option (ℝ → ℝ))
    (r : EReal × EReal) (resurf1 showall : Bool) (pd : PlotData)
    (h : plotData pr bn t area adj C (some r) resurf1 showall = .ok pd) :
    let lo : EReal := if showall then 0 else r.1
    let sel := t.filter (fun x => decide (0 < x.n ∧ lo < (x.dMean : EReal) ∧ (x.dMean : EReal) < r.2))
    pd.points.map Point.d = sel.map (plotDiameter pr) ∧
    pd.n = (sel.map Bin.n).sum ∧ pd.nEvent = (sel.map Bin.nEvent).sum := by
  obtain ⟨h1, h2, h3, _⟩ := plotData_ok h
  refine ⟨?_, h2, h3⟩
  exact (forall₂_map_eq h1 (fun a b hab => (pointOK_d hab).symm)).symm

/-- **C06, without range.** All non-empty bins are plotted. -/
theorem C06_no_range (pr : Presentation) (bn : Binning) (t : List Bin) (area adj : ℝ) (C : Option (ℝ → ℝ))
    (resurf1 showall : Bool) (pd : PlotData)
    (h : plotData pr bn t area adj C Option.none resurf1 showall = .ok pd) :
    let sel := t.filter (fun x => decide (0 < x.n))
    pd.points.map Point.d = sel.map (plotDiameter pr) ∧
    pd.n = (sel.map Bin.n).sum ∧ pd.nEvent = (sel.map Bin.nEvent).sum := by
  obtain ⟨h1, h2, h3, _⟩ := plotData_ok h
  refine ⟨?_, h2, h3⟩
  exact (forall₂_map_eq h1 (fun a b hab => (pointOK_d hab).symm)).symm

/-- **C06, totals.** For a range running from the lower boundary of bin `i` to the upper boundary of bin `j` of a
binned crater list (as produced by snapping), the reported numbers are exactly the number and total fraction of the
craters with diameters in that range. -/
theorem C06_aligned_totals (b : Binning) (hb : b ≠ .none) (off : ℝ) (cs : List Crater) (hfrac : ∀ c ∈ cs, 0 < c.2)
    (t : List Bin) (ht : applyBinning b off cs = .ok t) (i j : ℕ) (hij : i ≤ j) (hj : j < t.length)
    (pr : Presentation) (bn : Binning) (area adj : ℝ) (C : Option (ℝ → ℝ)) (resurf1 : Bool) (pd : PlotData)
    (h : plotData pr bn t area adj C (some ((t[i].dMin : EReal), (t[j].dMax : EReal))) resurf1 false = .ok pd) :
    pd.n = weightIn cs t[i].dMin t[j].dMax ∧ pd.nEvent = countIn cs t[i].dMin t[j].dMax := by
  obtain ⟨_, h2, h3⟩ := C06_selection _ _ _ _ _ _ _ _ _ _ h
  have hin := fun k hk => inside_iff hb ht i j (by omega) hj k hk
  have hcont := fun x hx => C03_bin_contents b hb off cs t ht x hx
  obtain ⟨A, m, hm, hlen, hte, hcr, hcol⟩ := table_cols hb ht
  -- the selection is the non-empty part of the rows i..j
  have hfil : t.filter (fun x => decide ((t[i].dMin : EReal) < (x.dMean : EReal) ∧ (x.dMean : EReal) < (t[j].dMax : EReal)))
      = slice t i (j + 1) := by
    apply filter_eq_slice _ _ _ _ (by omega) (by omega)
    intro k hk
    simp only [decide_eq_true_eq, EReal.coe_lt_coe_iff]
    rw [(hin k hk).1, (hin k hk).2]
    omega
  have hsel : t.filter (fun x => decide (0 < x.n ∧ (if false = true then (0 : EReal) else (t[i].dMin : EReal)) <
      (x.dMean : EReal) ∧ (x.dMean : EReal) < (t[j].dMax : EReal))) = nonEmpty (slice t i (j + 1)) := by
    rw [← hfil]
    simp only [nonEmpty, List.filter_filter]
    apply List.filter_congr
    intro x _
    by_cases h0 : 0 < x.n <;> simp [h0]
  have hmemS : ∀ x ∈ slice t i (j + 1), x ∈ t := fun x hx => (slice_sublist t i (j + 1)).subset hx
  have hzero : ∀ x ∈ slice t i (j + 1), ¬ 0 < x.n → x.n = 0 ∧ x.nEvent = 0 := by
    intro x hx hn
    obtain ⟨_, _, _, _, _, _, _, e1, e2, _⟩ := hcont x (hmemS x hx)
    rw [e1] at hn
    obtain ⟨g1, g2⟩ := weightIn_pos_iff cs hfrac _ _ hn
    rw [e1, e2, g1, g2]
    simp
  have hsorted := gridList_sorted (gridFn_strictMono hb off) A m
  have hlast : ∀ c ∈ cs, c.1 < (gridList (gridFn b off) A m)[(gridList (gridFn b off) A m).length - 1]'(by simp; omega) := by
    intro c hc
    rw [gridList_last hm]; exact (hcr c hc).2.2
  have ei : t[i].dMin = (gridList (gridFn b off) A m)[i]'(by simp; omega) := by
    rw [(hcol i (by omega)).1, gridList_getElem]
  have ej : t[j].dMax = (gridList (gridFn b off) A m)[j + 1]'(by simp; omega) := by
    rw [(hcol j hj).2.1, gridList_getElem]; congr 1; push_cast; ring
  obtain ⟨c1, c2⟩ := table_n_cols (gridList (gridFn b off) A m) cs
  rw [← hte] at c1 c2
  obtain ⟨d1, d2⟩ := drop_sum_eq _ hsorted cs i (by simp; omega) hlast
  obtain ⟨d3, d4⟩ := drop_sum_eq _ hsorted cs (j + 1) (by simp; omega) hlast
  have hle : t[i].dMin ≤ t[j].dMax := by
    have hmono := (gridFn_strictMono hb off).monotone
    rw [(hcol i (by omega)).1, (hcol j hj).2.1]; exact hmono (by omega)
  have hmap : ∀ f : Bin → ℝ, (slice t i (j + 1)).map f = slice (t.map f) i (j + 1) := by
    intro f; simp [slice, List.map_take, List.map_drop]
  constructor
  · rw [h2, hsel, nonEmpty_sum _ _ (fun x hx hn => (hzero x hx hn).1), hmap, slice_sum _ _ _ (by omega)]
    rw [c1, d1, d3, ei, ej, weightFrom_sub]
    rw [← ei, ← ej]; exact hle
  · rw [h3, hsel, nonEmpty_sum _ _ (fun x hx hn => (hzero x hx hn).2), hmap, slice_sum _ _ _ (by omega)]
    rw [c2, d2, d4, ei, ej, countFrom_sub]
    rw [← ei, ← ej]; exact hle

/-- **C07 (all presentations but 'differential').** The error bar is the value divided by the square root of the
number of craters behind it. -/
theorem C07_error_bars_partial (pr : Presentation) (hpr : pr ≠ .differential) (bn : Binning) (t : List Bin)
    (area adj : ℝ) (C : Option (ℝ → ℝ)) (range : Option (EReal × EReal)) (resurf1 showall : Bool) (pd : PlotData)
    (h : plotData pr bn t area adj C range resurf1 showall = .ok pd) :
    List.Forall₂ (fun x p => 0 < plotEvents pr x ∧ p.err = p.y / Real.sqrt (plotEvents pr x))
      (selected t range showall) pd.points := by
  obtain ⟨h1, _⟩ := plotData_ok h
  refine h1.imp ?_
  intro x p hp
  cases pr <;> simp only [PointOK] at hp <;> simp_all [plotEvents]

/-- **C07, 'differential'.** The error bar belongs to the uncorrected value: it is the bias factor times the
value divided by the square root of the number of craters.  Without production function (slope -3) it is therefore
always larger than `y/√N`, whatever the bin. -/
theorem C07_differential_counterexample (bn : Binning) (t : List Bin) (hpos : ∀ x ∈ t, 0 < x.dMin ∧ x.dMin < x.dMean)
    (hw : ∀ x ∈ t, 0 < x.width)
    (area adj : ℝ) (harea : 0 < area) (range : Option (EReal × EReal)) (resurf1 showall : Bool) (pd : PlotData)
    (h : plotData .differential bn t area adj Option.none range resurf1 showall = .ok pd) :
    List.Forall₂ (fun x p => p.y / Real.sqrt x.nEvent < p.err ∧
        p.err = (((x.dMean / x.dMin) ^ 2 + 1 + 1 / (x.dMean / x.dMin) ^ 2) / 3) * (p.y / Real.sqrt x.nEvent))
      (selected t range showall) pd.points := by
  obtain ⟨h1, _⟩ := plotData_ok h
  rw [List.forall₂_iff_get] at h1 ⊢
  refine ⟨h1.1, ?_⟩
  intro i hi hi'
  have hp := h1.2 i hi hi'
  have hmem : (selected t range showall).get ⟨i, hi⟩ ∈ selected t range showall := List.get_mem _ _
  set x := (selected t range showall).get ⟨i, hi⟩ with hx
  have hxt : x ∈ t ∧ 0 < x.n := by
    cases range with
    | none => simp only [selected, List.mem_filter, decide_eq_true_eq] at hmem; exact hmem
    | some r => simp only [selected, List.mem_filter, decide_eq_true_eq] at hmem; exact ⟨hmem.1, hmem.2.1⟩
  obtain ⟨p1, p2, p3, p4, p5, p6, p7, p8⟩ := hp
  obtain ⟨g1, g2⟩ := hpos x hxt.1
  have g3 := hw x hxt.1
  have hbeta : 1 < (x.dMean / x.dMin) ^ 2 := by
    have : 1 < x.dMean / x.dMin := by rw [one_lt_div g1]; exact g2
    nlinarith
  simp only [slopeK] at p6 p7 p8
  rw [binBias_neg3 hbeta] at p6 p7
  set beta := (x.dMean / x.dMin) ^ 2 with hb
  have hs : 0 < Real.sqrt x.nEvent := Real.sqrt_pos.2 p3
  have hf1 : 1 < (beta + 1 + 1 / beta) / 3 := by
    have h0 : 0 < beta := by linarith
    have : 2 < beta + 1 / beta := by
      have h3 : 0 < (beta - 1) ^ 2 / beta := div_pos (by nlinarith) h0
      have h4 : (beta - 1) ^ 2 / beta = beta + 1 / beta - 2 := by field_simp; ring
      linarith
    linarith
  have he : ((pd.points).get ⟨i, hi'⟩).err = ((beta + 1 + 1 / beta) / 3) * (((pd.points).get ⟨i, hi'⟩).y / Real.sqrt x.nEvent) := by
    rw [p8, p7]; field_simp
  refine ⟨?_, he⟩
  have hy : 0 < ((pd.points).get ⟨i, hi'⟩).y / Real.sqrt x.nEvent := by
    rw [p7]; have := hxt.2; positivity
  rw [he]; nlinarith

/-- two bins (one empty), in which the error bar of 'differential' is not `y/√N` -/
example : ∃ (t : List Bin) (pd : PlotData), (∀ x ∈ t, 0 < x.dMin ∧ x.dMin < x.dMean) ∧ (∀ x ∈ t, 0 < x.width) ∧
    plotData .differential .x2 t 1 0 Option.none Option.none false false = .ok pd ∧ pd.points ≠ [] := by
  let x : Bin := ⟨1, 4, 3, 2, 4, 4, 4, 4⟩
  let y : Bin := ⟨4, 16, 12, 8, 0, 0, 0, 0⟩
  refine ⟨[x, y], ⟨[⟨2, 4 / 3 / (7 / 4), 2 / 3⟩], 4, 4, ((1 : ℝ) : EReal), ((4 : ℝ) : EReal)⟩, ?_, ?_, ?_, by simp⟩
  · intro z hz; simp only [List.mem_cons, List.not_mem_nil, or_false] at hz
    rcases hz with rfl | rfl <;> norm_num [x, y]
  · intro z hz; simp only [List.mem_cons, List.not_mem_nil, or_false] at hz
    rcases hz with rfl | rfl <;> norm_num [x, y]
  · have hq : nonEmpty [x, y] = [x] := by norm_num [nonEmpty, x, y, List.filter_cons]
    have hpt : point .differential 1 0 Option.none x = .ok ⟨2, 4 / 3 / (7 / 4), 2 / 3⟩ := by
      rw [point_iff]
      have hs : Real.sqrt 4 = 2 := by rw [Real.sqrt_eq_iff_mul_self_eq] <;> norm_num
      have hbb := binBias_neg3 (beta := (2 / 1 : ℝ) ^ 2) (by norm_num)
      simp only [PointOK, slopeK, x, hbb, hs]
      norm_num
    have hm : [x].mapM (point .differential 1 0 Option.none) = .ok [⟨2, 4 / 3 / (7 / 4), 2 / 3⟩] :=
      mapM_of_forall₂ _ (List.Forall₂.cons hpt List.Forall₂.nil)
    simp only [plotData, hq, hm]
    simp [x]

/-- **C08.** The presentations are one and the same distribution: with `ρ` the number of craters per unit diameter and
area in the bin, the incremental value is `ρ·width`, the Hartmann value `ρ·D·(√2−1)`, the R value `ρ·D³`, and the
differential value times the bias factor is `ρ`; all are plotted at the geometric mean of the bin, in the same order. -/
theorem C08_presentations_agree (bn : Binning) (t : List Bin) (area adj : ℝ) (C : Option (ℝ → ℝ))
    (range : Option (EReal × EReal)) (resurf1 showall : Bool) (pI pH pD pR : PlotData)
    (hI : plotData .incremental bn t area adj C range resurf1 showall = .ok pI)
    (hH : plotData .hartmann bn t area adj C range resurf1 showall = .ok pH)
    (hD : plotData .differential bn t area adj C range resurf1 showall = .ok pD)
    (hR : plotData .rplot bn t area adj C range resurf1 showall = .ok pR) :
    List.Forall₂ (fun x p => p.d = x.dMean ∧ p.y = density area x * x.width) (selected t range showall) pI.points ∧
    List.Forall₂ (fun x p => p.d = x.dMean ∧ p.y = density area x * (x.dMean * (Real.sqrt 2 - 1)))
      (selected t range showall) pH.points ∧
    List.Forall₂ (fun x p => p.d = x.dMean ∧ p.y = density area x * x.dMean ^ 3) (selected t range showall) pR.points ∧
    List.Forall₂ (fun x p => p.d = x.dMean ∧ p.y * binBiasCorrection ((x.dMean / x.dMin) ^ 2)
        (slopeK C ((x.dMean / x.dMin) ^ 2) x.dMean) = density area x)
      (selected t range showall) pD.points ∧
    (∀ q ∈ [pH, pD, pR], q.n = pI.n ∧ q.nEvent = pI.nEvent) := by
  obtain ⟨i1, i2, i3, _⟩ := plotData_ok hI
  obtain ⟨j1, j2, j3, _⟩ := plotData_ok hH
  obtain ⟨k1, k2, k3, _⟩ := plotData_ok hD
  obtain ⟨l1, l2, l3, _⟩ := plotData_ok hR
  have hwid : ∀ x ∈ selected t range showall, x.width ≠ 0 := by
    intro x hx
    obtain ⟨i, hi, rfl⟩ := List.getElem_of_mem hx
    have := (List.forall₂_iff_get.1 j1).2 i hi (by rw [← j1.length_eq]; exact hi)
    exact this.2.1
  refine ⟨?_, ?_, ?_, ?_, ?_⟩
  · rw [List.forall₂_iff_get] at i1 ⊢
    refine ⟨i1.1, fun i hi hi' => ?_⟩
    obtain ⟨a1, a2, a3, a4, a5⟩ := i1.2 i hi hi'
    have := hwid _ (List.get_mem _ ⟨i, hi⟩)
    refine ⟨a3, ?_⟩
    rw [a4, density]; field_simp
  · refine j1.imp ?_
    rintro x p ⟨a1, a2, a3, a4, a5, a6⟩
    refine ⟨a4, ?_⟩
    rw [a5, density]; field_simp
  · refine l1.imp ?_
    rintro x p ⟨a1, a2, a3, a4, a5, a6⟩
    refine ⟨a4, ?_⟩
    rw [a5, density]; field_simp
  · refine k1.imp ?_
    rintro x p ⟨a1, a2, a3, a4, a5, a6, a7, a8⟩
    refine ⟨a5, ?_⟩
    rw [a7, density, div_mul_cancel₀ _ a6]; field_simp
  · intro q hq
    simp only [List.mem_cons, List.not_mem_nil, or_false] at hq
    rcases hq with rfl | rfl | rfl
    · exact ⟨j2.trans i2.symm, j3.trans i3.symm⟩
    · exact ⟨k2.trans i2.symm, k3.trans i3.symm⟩
    · exact ⟨l2.trans i2.symm, l3.trans i3.symm⟩

/-- **C08, cumulative.** Without range and resurfacing correction, consecutive cumulative values differ by the
incremental value, and the last one equals the last incremental value. -/
theorem C08_cumulative_differences (b : Binning) (off : ℝ) (cs : List Crater) (hfrac : ∀ c ∈ cs, 0 < c.2)
    (t : List Bin) (ht : applyBinning b off cs = .ok t) (bn : Binning) (area : ℝ) (C : Option (ℝ → ℝ))
    (resurf1 showall : Bool) (pC pI : PlotData)
    (hC : plotData .cumulative bn t area 0 C Option.none resurf1 showall = .ok pC)
    (hI : plotData .incremental bn t area 0 C Option.none resurf1 showall = .ok pI) :
    pC.points.length = pI.points.length ∧
    ∀ i (h1 : i < pC.points.length) (h2 : i < pI.points.length),
      pC.points[i].y - (if h : i + 1 < pC.points.length then pC.points[i + 1].y else 0) = pI.points[i].y := by
  obtain ⟨i1, _⟩ := plotData_ok hC
  obtain ⟨j1, _⟩ := plotData_ok hI
  have hss : SuffixSums (selected t Option.none showall) :=
    suffixSums_filter t (table_suffixSums ht) (nonEmpty_zero hfrac ht)
  rw [List.forall₂_iff_get] at i1 j1
  have hlen : pC.points.length = pI.points.length := i1.1.symm.trans j1.1
  refine ⟨hlen, fun i h1 h2 => ?_⟩
  have hs : i < (selected t Option.none showall).length := by rw [i1.1]; exact h1
  have hsucc := suffixSums_succ _ hss i hs
  obtain ⟨_, _, _, a4, _⟩ := i1.2 i hs h1
  obtain ⟨_, _, _, b4, _⟩ := j1.2 i hs h2
  simp only [List.get_eq_getElem] at a4 b4
  rw [a4, b4, hsucc]
  by_cases hn : i + 1 < pC.points.length
  · have hs' : i + 1 < (selected t Option.none showall).length := by rw [i1.1]; exact hn
    obtain ⟨_, _, _, c4, _⟩ := i1.2 (i + 1) hs' hn
    simp only [List.get_eq_getElem] at c4
    rw [dif_pos hn, dif_pos hs', c4]; ring
  · have hs' : ¬ i + 1 < (selected t Option.none showall).length := by rw [i1.1]; exact hn
    rw [dif_neg hn, dif_neg hs']; ring

/-- **C68.** For a range running from the lower boundary of bin `i` to the upper boundary of bin `j` of a table made
with the same binning, the reported bin range is exactly this range (unless the lower limit is replaced because of
`resurfacing = 1`). -/
theorem C68_bin_range (b : Binning) (hb : b ≠ .none) (cs : List Crater) (t : List Bin)
    (ht : applyBinning b 0 cs = .ok t) (i j : ℕ) (hij : i ≤ j) (hj : j < t.length)
    (pr : Presentation) (area adj : ℝ) (C : Option (ℝ → ℝ)) (showall : Bool) (pd : PlotData)
    (h : plotData pr b t area adj C (some ((t[i].dMin : EReal), (t[j].dMax : EReal))) false showall = .ok pd) :
    pd.binRange = ((t[i].dMin : EReal), (t[j].dMax : EReal)) := by
  obtain ⟨_, _, _, h4⟩ := plotData_ok h
  have h4 := h4 _ rfl
  obtain ⟨A, m, hm, hlen, hte, hcr, hcol⟩ := table_cols hb ht
  have e1 := (hcol i (by omega)).1
  have e2 := (hcol j hj).2.1
  have p1 := gridFn_pos b 0 (A + i)
  have hne : (t[i].dMin : EReal) ≠ 0 := by rw [e1]; exact_mod_cast p1.ne'
  obtain ⟨m', hm', hj', hg⟩ := generateBins_aligned hb 0 (A + i) (A + j + 1) (by omega)
  have hhead : t.head? = some t[0] := by rw [List.head?_eq_getElem?, List.getElem?_eq_getElem]
  have hlast : t.getLast? = some (t[t.length - 1]) := by
    rw [List.getLast?_eq_getElem?, List.getElem?_eq_getElem]
  unfold binRangeOf at h4
  simp only [hhead, hlast, Bool.false_eq_true, if_false, hne, hb] at h4
  simp only [EReal.coe_ne_top, EReal.coe_ne_bot, or_self, if_false, EReal.toReal_coe] at h4
  rw [e1, e2, hg] at h4
  have hh : (gridList (gridFn b 0) (A + i) m').head? = some (gridFn b 0 (A + i)) := by
    rw [List.head?_eq_getElem?, List.getElem?_eq_getElem (by simp; omega), gridList_getElem]; simp
  have hl : (gridList (gridFn b 0) (A + i) m').getLast? = some (gridFn b 0 (A + j + 1)) := by
    rw [List.getLast?_eq_getElem?, List.getElem?_eq_getElem (by simp; omega), gridList_getElem, ← hj']; simp
  simp only [hh, hl] at h4
  rw [e1, e2]
  exact (Except.ok.inj h4).symm

/-- `binRangeOf` for an aligned range -/
theorem binRangeOf_aligned (b : Binning) (hb : b ≠ .none) (cs : List Crater) (t : List Bin)
    (ht : applyBinning b 0 cs = .ok t) (i j : ℕ) (hij : i ≤ j) (hj : j < t.length) :
    binRangeOf b t ((t[i].dMin : EReal), (t[j].dMax : EReal)) false =
      .ok ((t[i].dMin : EReal), (t[j].dMax : EReal)) := by
  obtain ⟨A, m, hm, hlen, hte, hcr, hcol⟩ := table_cols hb ht
  have e1 := (hcol i (by omega)).1
  have e2 := (hcol j hj).2.1
  have p1 := gridFn_pos b 0 (A + i)
  have hne : (t[i].dMin : EReal) ≠ 0 := by rw [e1]; exact_mod_cast p1.ne'
  obtain ⟨m', hm', hj', hg⟩ := generateBins_aligned hb 0 (A + i) (A + j + 1) (by omega)
  have hhead : t.head? = some t[0] := by rw [List.head?_eq_getElem?, List.getElem?_eq_getElem]
  have hlast : t.getLast? = some (t[t.length - 1]) := by
    rw [List.getLast?_eq_getElem?, List.getElem?_eq_getElem]
  unfold binRangeOf
  simp only [hhead, hlast, Bool.false_eq_true, if_false, hne, hb]
  simp only [EReal.coe_ne_top, EReal.coe_ne_bot, or_self, if_false, EReal.toReal_coe]
  rw [e1, e2, hg]
  have hh : (gridList (gridFn b 0) (A + i) m').head? = some (gridFn b 0 (A + i)) := by
    rw [List.head?_eq_getElem?, List.getElem?_eq_getElem (by simp; omega), gridList_getElem]; simp
  have hl : (gridList (gridFn b 0) (A + i) m').getLast? = some (gridFn b 0 (A + j + 1)) := by
    rw [List.getLast?_eq_getElem?, List.getElem?_eq_getElem (by simp; omega), gridList_getElem, ← hj']; simp
  simp only [hh, hl]

/-- `binRangeOf` for a range with open ends -/
theorem binRangeOf_open (b : Binning) (hb : b ≠ .none) (cs : List Crater) (t : List Bin)
    (ht : applyBinning b 0 cs = .ok t) (i j : ℕ) (hij : i ≤ j) (hj : j < t.length)
    (lo hi : EReal) (resurf1 : Bool)
    (hlo : (resurf1 = true ∨ lo = 0) ∧ i = 0 ∨ resurf1 = false ∧ lo = (t[i].dMin : EReal))
    (hhi : hi = ⊤ ∧ j = t.length - 1 ∨ hi = (t[j].dMax : EReal)) :
    binRangeOf b t (lo, hi) resurf1 = .ok ((t[i].dMin : EReal), (t[j].dMax : EReal)) := by
  have h5 := binRangeOf_aligned b hb cs t ht i j hij hj
  have hne : (t[i].dMin : EReal) ≠ 0 := by
    obtain ⟨A, m, hm, hlen, hte, hcr, hcol⟩ := table_cols hb ht
    rw [(hcol i (by omega)).1]; exact_mod_cast (gridFn_pos b 0 (A + i)).ne'
  have hhead : t.head? = some t[0] := by rw [List.head?_eq_getElem?, List.getElem?_eq_getElem]
  have hlast : t.getLast? = some (t[t.length - 1]) := by
    rw [List.getLast?_eq_getElem?, List.getElem?_eq_getElem]
  have key : binRangeOf b t (lo, hi) resurf1 = binRangeOf b t ((t[i].dMin : EReal), (t[j].dMax : EReal)) false := by
    have ea : (if (if resurf1 = true then (0 : EReal) else lo) = 0 then ((t[0]'(by omega)).dMin : EReal)
        else (if resurf1 = true then (0 : EReal) else lo)) = (t[i].dMin : EReal) := by
      rcases hlo with ⟨h1, rfl⟩ | ⟨h1, h2⟩
      · rcases h1 with h1 | h1
        · simp [h1]
        · simp [h1]
      · simp [h1, h2, hne]
    have eb : (if hi = ⊤ then ((t[t.length - 1]'(by omega)).dMax : EReal) else hi) = (t[j].dMax : EReal) := by
      rcases hhi with ⟨h1, h2⟩ | h1
      · subst h2; simp [h1]
      · simp [h1]
    unfold binRangeOf
    simp only [hhead, hlast, ea, eb, Bool.false_eq_true, if_false, hne, EReal.coe_ne_top]
  rw [key, h5]

/-- **C68, open ends.** A lower limit 0 (or any lower limit, when the resurfacing correction extends the range) is
reported as the lower boundary of the first bin, an infinite upper limit as the upper boundary of the last bin; limits
on bin boundaries are reported as they are. -/
theorem C68_open_ends (b : Binning) (hb : b ≠ .none) (cs : List Crater) (t : List Bin)
    (ht : applyBinning b 0 cs = .ok t) (i j : ℕ) (hij : i ≤ j) (hj : j < t.length)
    (lo hi : EReal) (resurf1 : Bool)
    (hlo : (resurf1 = true ∨ lo = 0) ∧ i = 0 ∨ resurf1 = false ∧ lo = (t[i].dMin : EReal))
    (hhi : hi = ⊤ ∧ j = t.length - 1 ∨ hi = (t[j].dMax : EReal))
    (pr : Presentation) (area adj : ℝ) (C : Option (ℝ → ℝ)) (showall : Bool) (pd : PlotData)
    (h : plotData pr b t area adj C (some (lo, hi)) resurf1 showall = .ok pd) :
    pd.binRange = ((t[i].dMin : EReal), (t[j].dMax : EReal)) := by
  obtain ⟨_, _, _, h4⟩ := plotData_ok h
  have h4 := h4 _ rfl
  rw [binRangeOf_open b hb cs t ht i j hij hj lo hi resurf1 hlo hhi] at h4
  exact (Except.ok.inj h4).symm

/-- every non-empty bin of a binned crater list can be plotted in every presentation -/
theorem point_succeeds (pr : Presentation) (hpr : pr ≠ .other) (b : Binning) (hb : b ≠ .none) (off : ℝ)
    (cs : List Crater) (hfrac : ∀ c ∈ cs, 0 < c.2) (t : List Bin) (ht : applyBinning b off cs = .ok t)
    (area adj : ℝ) (harea : 0 < area) (x : Bin) (hx : x ∈ t) (hn : 0 < x.n) :
    ∃ p, point pr area adj Option.none x = .ok p := by
  obtain ⟨A, m, hm, hlen, hte, hcr, hcol⟩ := table_cols hb ht
  obtain ⟨k, hk, rfl⟩ := List.getElem_of_mem hx
  obtain ⟨c1, c2, c3, c4, _⟩ := hcol k hk
  have hmono := gridFn_strictMono hb off (show A + k < A + k + 1 by omega)
  have hp := gridFn_pos b off (A + k)
  obtain ⟨_, _, _, _, _, _, _, d5, d6, d7, d8⟩ := C03_bin_contents b hb off cs t ht _ hx
  have hcnt : 0 < countIn cs t[k].dMin t[k].dMax := by
    by_contra hc
    have h0 : cs.filter (fun c => decide (t[k].dMin ≤ c.1 ∧ c.1 < t[k].dMax)) = [] :=
      List.eq_nil_of_length_eq_zero (Nat.eq_zero_of_not_pos hc)
    rw [d5, weightIn, h0] at hn
    simp at hn
  have hev : (0 : ℝ) < t[k].nEvent := by rw [d6]; exact_mod_cast hcnt
  have hcum : (0 : ℝ) < t[k].ncumEvent := by
    have := countFrom_sub cs (lo := t[k].dMin) (hi := t[k].dMax) (by rw [c1, c2]; exact hmono.le)
    rw [d8]
    have h2 : (0 : ℝ) < countIn cs t[k].dMin t[k].dMax := by exact_mod_cast hcnt
    have h3 : (0 : ℝ) ≤ countFrom cs t[k].dMax := Nat.cast_nonneg _
    linarith
  have hw : t[k].width ≠ 0 := by rw [c4, c1, c2]; exact (sub_pos.2 hmono).ne'
  have hd : t[k].dMin ≠ 0 := by rw [c1]; exact hp.ne'
  have hbeta : 1 < (t[k].dMean / t[k].dMin) ^ 2 := by
    have h1 := (sqrt_between (hi := t[k].dMax) (lo := t[k].dMin) (by rw [c1]; exact hp) (by rw [c1, c2]; exact hmono)).1
    rw [← c3] at h1
    have : 1 < t[k].dMean / t[k].dMin := by rw [one_lt_div (by rw [c1]; exact hp)]; exact h1
    nlinarith
  have hbb := binBias_neg3 hbeta
  have hbn : binBiasCorrection ((t[k].dMean / t[k].dMin) ^ 2) (-3) ≠ 0 := by
    rw [hbb]
    have : 0 < 1 / (t[k].dMean / t[k].dMin) ^ 2 := by apply div_pos one_pos; linarith
    linarith
  cases pr with
  | other => exact absurd rfl hpr
  | cumulative =>
    exact ⟨⟨t[k].dMin, t[k].ncum / area + adj, (t[k].ncum / area + adj) / Real.sqrt t[k].ncumEvent⟩,
      (point_iff _ _ _ _ _ _).2 ⟨harea.ne', hcum, rfl, rfl, rfl⟩⟩
  | incremental =>
    exact ⟨⟨t[k].dMean, t[k].n / area, (t[k].n / area) / Real.sqrt t[k].nEvent⟩,
      (point_iff _ _ _ _ _ _).2 ⟨harea.ne', hev, rfl, rfl, rfl⟩⟩
  | hartmann =>
    exact ⟨⟨t[k].dMean, t[k].n / t[k].width / area * t[k].dMean * (Real.sqrt 2 - 1),
      t[k].n / t[k].width / area * t[k].dMean * (Real.sqrt 2 - 1) / Real.sqrt t[k].nEvent⟩,
      (point_iff _ _ _ _ _ _).2 ⟨harea.ne', hw, hev, rfl, rfl, rfl⟩⟩
  | differential => exact ⟨⟨_, _, _⟩, (point_iff _ _ _ _ _ _).2 ⟨harea.ne', hw, hev, hd, rfl, hbn, rfl, rfl⟩⟩
  | rplot =>
    exact ⟨⟨t[k].dMean, t[k].dMean ^ 3 * t[k].n / t[k].width / area,
      t[k].dMean ^ 3 * t[k].n / t[k].width / area / Real.sqrt t[k].nEvent⟩,
      (point_iff _ _ _ _ _ _).2 ⟨harea.ne', hw, hev, rfl, rfl, rfl⟩⟩

theorem mapM_succeeds {α β ε : Type} (f : α → Except ε β) (l : List α) (h : ∀ x ∈ l, ∃ y, f x = .ok y) :
    ∃ r, l.mapM f = .ok r := by
  induction l with
  | nil => exact ⟨[], rfl⟩
  | cons x l ih =>
    obtain ⟨y, hy⟩ := h x (List.mem_cons_self)
    obtain ⟨r, hr⟩ := ih (fun z hz => h z (List.mem_cons_of_mem _ hz))
    exact ⟨y :: r, by rw [List.mapM_cons, hy, except_ok_bind, hr]; rfl⟩

/-- **C06, success.** For every binned crater list and every aligned range the plot data exist, in every
presentation; so the hypotheses of the theorems above are met by every such list. -/
theorem C06_succeeds (pr : Presentation) (hpr : pr ≠ .other) (b : Binning) (hb : b ≠ .none)
    (cs : List Crater) (hfrac : ∀ c ∈ cs, 0 < c.2) (t : List Bin) (ht : applyBinning b 0 cs = .ok t)
    (area adj : ℝ) (harea : 0 < area) (i j : ℕ) (hij : i ≤ j) (hj : j < t.length) (showall : Bool) :
    ∃ pd, plotData pr b t area adj Option.none (some ((t[i].dMin : EReal), (t[j].dMax : EReal))) false showall
      = .ok pd := by
  obtain ⟨pts, hpts⟩ := mapM_succeeds (point pr area adj Option.none)
    ((nonEmpty t).filter (inRange ((t[i].dMin : EReal), (t[j].dMax : EReal)) showall)) (by
      intro x hx
      have h1 := (List.mem_filter.1 hx).1
      unfold nonEmpty at h1
      rw [List.mem_filter] at h1
      exact point_succeeds pr hpr b hb 0 cs hfrac t ht area adj harea x h1.1 (by simpa using h1.2))
  simp only [plotData, hpts, binRangeOf_aligned b hb cs t ht i j hij hj, except_ok_bind]
  exact ⟨_, rfl⟩

/-- **C08, success.** Without range, every binned non-empty crater list can be plotted in every presentation. -/
theorem C08_succeeds (pr : Presentation) (hpr : pr ≠ .other) (b : Binning) (hb : b ≠ .none) (bn : Binning) (off : ℝ)
    (cs : List Crater) (hcs : cs ≠ []) (hfrac : ∀ c ∈ cs, 0 < c.2) (t : List Bin) (ht : applyBinning b off cs = .ok t)
    (area adj : ℝ) (harea : 0 < area) (resurf1 showall : Bool) :
    ∃ pd, plotData pr bn t area adj Option.none Option.none resurf1 showall = .ok pd ∧ pd.points ≠ [] := by
  obtain ⟨pts, hpts⟩ := mapM_succeeds (point pr area adj Option.none) (nonEmpty t) (by
      intro x hx
      unfold nonEmpty at hx
      rw [List.mem_filter] at hx
      exact point_succeeds pr hpr b hb off cs hfrac t ht area adj harea x hx.1 (by simpa using hx.2))
  have hne : nonEmpty t ≠ [] := by
    intro h0
    have h1 := (C02_conservation b off cs t ht).2
    have h2 := nonEmpty_sum t Bin.n (nonEmpty_zero hfrac ht)
    rw [h0] at h2
    have h3 : 0 < weightAll cs := by
      unfold weightAll
      apply List.sum_pos
      · intro x hx
        obtain ⟨c, hc, rfl⟩ := List.mem_map.1 hx
        exact hfrac c hc
      · simpa using hcs
    simp at h2
    linarith
  have hpne : pts ≠ [] := by
    intro h0
    have := (mapM_ok _ hpts).length_eq
    rw [h0] at this
    exact hne (List.eq_nil_of_length_eq_zero this)
  have hhead : (nonEmpty t).head? = some ((nonEmpty t).head hne) := List.head?_eq_some_head hne
  have hlast : (nonEmpty t).getLast? = some ((nonEmpty t).getLast hne) := List.getLast?_eq_some_getLast hne
  simp only [plotData, hpts, except_ok_bind, hhead, hlast]
  exact ⟨_, rfl, hpne⟩

/-- a concrete crater list meeting the hypotheses of C06-C08 and C68: every binning works -/
example (b : Binning) (hb : b ≠ .none) : ∃ t pd, applyBinning b 0 [(1, 1), (2.5, 0.5)] = .ok t ∧
    ∃ h : 0 < t.length, plotData .hartmann b t 3 0 Option.none
      (some ((t[0].dMin : EReal), (t[t.length - 1].dMax : EReal))) false false = .ok pd := by
  obtain ⟨t, ht, hne⟩ := C01_binning_succeeds b [(1, 1), (2.5, 0.5)] (by simp) (by
    intro c hc; simp only [List.mem_cons, List.not_mem_nil, or_false] at hc
    rcases hc with rfl | rfl <;> norm_num) 0
  have hl : 0 < t.length := List.length_pos_iff.2 hne
  obtain ⟨pd, hpd⟩ := C06_succeeds .hartmann (by simp) b hb _ (by
    intro c hc; simp only [List.mem_cons, List.not_mem_nil, or_false] at hc
    rcases hc with rfl | rfl <;> norm_num) t ht 3 0 (by norm_num) 0 (t.length - 1) (by omega) (by omega) false
  exact ⟨t, pd, ht, hl, hpd⟩

/-- the same for a range open at both ends -/
example (b : Binning) (hb : b ≠ .none) : ∃ t pd, applyBinning b 0 [(1, 1), (2.5, 0.5)] = .ok t ∧
    ∃ h : 0 < t.length, plotData .hartmann b t 3 0 Option.none (some (0, ⊤)) false false = .ok pd ∧
      pd.binRange = ((t[0].dMin : EReal), (t[t.length - 1].dMax : EReal)) := by
  have hf : ∀ c ∈ [((1 : ℝ), (1 : ℝ)), (2.5, 0.5)], 0 < c.2 := by
    intro c hc; simp only [List.mem_cons, List.not_mem_nil, or_false] at hc
    rcases hc with rfl | rfl <;> norm_num
  obtain ⟨t, ht, hne⟩ := C01_binning_succeeds b [(1, 1), (2.5, 0.5)] (by simp) (by
    intro c hc; simp only [List.mem_cons, List.not_mem_nil, or_false] at hc
    rcases hc with rfl | rfl <;> norm_num) 0
  have hl : 0 < t.length := List.length_pos_iff.2 hne
  obtain ⟨pts, hpts⟩ := mapM_succeeds (point .hartmann 3 0 Option.none)
    ((nonEmpty t).filter (inRange (0, ⊤) false)) (by
      intro x hx
      have h1 := (List.mem_filter.1 hx).1
      unfold nonEmpty at h1
      rw [List.mem_filter] at h1
      exact point_succeeds .hartmann (by simp) b hb 0 _ hf t ht 3 0 (by norm_num) x h1.1 (by simpa using h1.2))
  have h1 := binRangeOf_open b hb _ t ht 0 (t.length - 1) (by omega) (by omega) 0 ⊤ false (by simp) (by simp)
  have hp : ∃ pd, plotData .hartmann b t 3 0 Option.none (some (0, ⊤)) false false = .ok pd := by
    simp only [plotData, hpts, h1, except_ok_bind]
    exact ⟨_, rfl⟩
  obtain ⟨pd, hpd⟩ := hp
  exact ⟨t, pd, ht, hl, hpd, C68_open_ends b hb _ t ht 0 (t.length - 1) (by omega) (by omega) 0 ⊤ false (by simp) (by simp)
    _ _ _ _ _ pd hpd⟩

end

end Verif.Props
