import Verif.Lemmas.Table

/-! C01-C04: bins cover every crater, binning conserves craters, meaning of cumulative numbers, order of craters. -/

namespace Verif.Props
open Verif.Cratercount Verif.Py Verif.Spec

/-- **C01.** For every named binning (other than 'none'), every offset and every non-empty list of positive
diameters, `generate_bins` delivers a gap-free increasing stretch of the published grid in which every diameter lies
in exactly one half-open bin; and it delivers no more than needed: every boundary but the first is not below the
smallest diameter, every boundary but the last is below the largest diameter times 10^0.001. -/
theorem C01_bins_cover (b : Binning) (hb : b ≠ .none) (d : List ℝ) (hd : d ≠ []) (hpos : ∀ x ∈ d, 0 < x)
    (off : ℝ) : ∃ edges, generateBins b d off true = .ok edges ∧
      Stretch (gridOf b off) edges ∧ Covers edges d ∧
      (∀ i (h : i < edges.length), 1 ≤ i → ∃ x ∈ d, x ≤ edges[i]) ∧
      (∀ i (h : i + 1 < edges.length), ∃ x ∈ d, edges[i] < x * (10 : ℝ) ^ (0.001 : ℝ)) := by
  obtain ⟨A, m, mn, mx, hr, hm, e, k1, k2, k3, k4⟩ := generateBins_expand hb d hd hpos off
  obtain ⟨m1, m2, m3⟩ := rangeOf_spec hr
  have hmono := gridFn_strictMono hb off
  have hst := gridList_stretch hb off A m
  refine ⟨_, e, hst, ?_, ?_, ?_⟩
  · intro x hx
    obtain ⟨hx0, hx1⟩ := m3 x hx
    set edges := gridList (gridFn b off) A m with hedges
    have hlen : edges.length = m := by simp [hedges]
    have hle := pairwise_le_of_lt hst.increasing
    have hfirst : edges[0] ≤ x := by
      rw [gridList_getElem]; simpa using k1.trans hx0
    have hlast : x < edges[edges.length - 1] := by
      rw [gridList_last hm]; exact lt_of_le_of_lt hx1 k2
    have hss := searchsortedRight_le_length edges x
    have hpos' : 0 < searchsortedRight edges x := by
      by_contra hc
      have := lt_getElem_searchsortedRight (a := edges) (v := x) (by omega)
      have e0 : searchsortedRight edges x = 0 := by omega
      simp only [e0] at this
      exact absurd hfirst (not_le.2 this)
    have hlt : searchsortedRight edges x < edges.length := by
      by_contra hc
      have := le_of_lt_searchsortedRight (a := edges) (v := x) (i := edges.length - 1) (by omega) (by omega)
      exact absurd hlast (not_lt.2 this)
    refine ⟨searchsortedRight edges x - 1, ⟨by omega, ?_, ?_⟩, ?_⟩
    · exact le_of_lt_searchsortedRight (by omega) (by omega)
    · have := lt_getElem_searchsortedRight (a := edges) (v := x) hlt
      have e1 : searchsortedRight edges x - 1 + 1 = searchsortedRight edges x := by omega
      simpa only [e1] using this
    · rintro j ⟨hj, hj1, hj2⟩
      have : searchsortedRight edges x = j + 1 := by
        apply searchsortedRight_eq_of _ (by omega)
        · intro k hk hkj
          exact (getElem_mono hle (by omega) (by omega)).trans hj1
        · intro _; exact hj2
      omega
  · intro i h hi
    refine ⟨mn, m1, ?_⟩
    rw [gridList_getElem]
    exact k3.trans (hmono.monotone (by omega))
  · intro i h
    refine ⟨mx, m2, ?_⟩
    rw [gridList_getElem]
    simp only [gridList_length] at h
    exact lt_of_le_of_lt (hmono.monotone (by omega)) k4

/-- hypotheses of `C01_bins_cover` are met by a real list, with a diameter on a boundary -/
example : ([1, 3.3, 0.25] : List ℝ) ≠ [] ∧ ∀ x ∈ ([1, 3.3, 0.25] : List ℝ), 0 < x := by
  refine ⟨by simp, ?_⟩
  intro x hx
  simp only [List.mem_cons, List.not_mem_nil, or_false] at hx
  rcases hx with rfl | rfl | rfl <;> norm_num

/-- **C01, error branch.** A list containing a diameter that is not positive is rejected. -/
theorem C01_nonpositive_rejected (b : Binning) (hb : b ≠ .none) (d : List ℝ) (off : ℝ) (expand : Bool)
    (h : ∃ x ∈ d, x ≤ 0) : generateBins b d off expand = .error .domain :=
  generateBins_domain hb d off expand h

example : ∃ x ∈ ([1, 0] : List ℝ), x ≤ 0 := ⟨0, by simp, le_rfl⟩

/-- success of `apply_binning` on every non-empty list of positive diameters -/
theorem C01_binning_succeeds (b : Binning) (cs : List Crater) (hcs : cs ≠ []) (hpos : ∀ c ∈ cs, 0 < c.1) (off : ℝ) :
    ∃ t, applyBinning b off cs = .ok t ∧ t ≠ [] := by
  by_cases hb : b = .none
  · refine ⟨tableNone cs, by simp [applyBinning, hb, hcs], ?_⟩
    intro h
    have := congrArg List.length h
    simp at this
    exact hcs this
  · have hpos' : ∀ x ∈ cs.map Prod.fst, 0 < x := by
      intro x hx
      obtain ⟨c, hc, rfl⟩ := List.mem_map.1 hx
      exact hpos c hc
    obtain ⟨A, m, mn, mx, hr, hm, e, _⟩ := generateBins_expand hb (cs.map Prod.fst) (by simpa using hcs) hpos' off
    refine ⟨tableOf (gridList (gridFn b off) A m) cs, ?_, ?_⟩
    · simp only [applyBinning, hb, if_false, e]; rfl
    · intro h
      have := congrArg List.length h
      simp at this
      omega

example : ([(1, 1), (2.5, 0.5)] : List Crater) ≠ [] ∧ ∀ c ∈ ([(1, 1), (2.5, 0.5)] : List Crater), 0 < c.1 := by
  refine ⟨by simp, ?_⟩
  intro c hc
  simp only [List.mem_cons, List.not_mem_nil, or_false] at hc
  rcases hc with rfl | rfl <;> norm_num

/-- **C02.** Whatever the binning and offset, the event numbers of the bins add up to the number of craters and the
crater numbers to the sum of the fractions. -/
theorem C02_conservation (b : Binning) (off : ℝ) (cs : List Crater) (t : List Bin)
    (h : applyBinning b off cs = .ok t) :
    (t.map Bin.nEvent).sum = cs.length ∧ (t.map Bin.n).sum = weightAll cs := by
  by_cases hb : b = .none
  · simp only [applyBinning, hb, if_true] at h
    split at h
    · cases h
    · have ht : tableNone cs = t := Except.ok.inj h
      subst ht
      have key : ∀ f : Bin → ℝ, ∀ g : Crater → ℝ,
          (∀ i (h1 : i < (tableNone cs).length) (h2 : i < (cs.mergeSort craterLe).length),
            f (tableNone cs)[i] = g (cs.mergeSort craterLe)[i]) →
          (tableNone cs).map f = (cs.mergeSort craterLe).map g := by
        intro f g hfg
        apply List.ext_getElem
        · simp
        · intro i h1 h2
          simp only [List.getElem_map]
          exact hfg i _ _
      constructor
      · rw [key Bin.nEvent (fun _ => 1) (by intro i h1 h2; rw [tableNone_getElem cs i h1 h2]), map_one_sum]
        simp
      · rw [key Bin.n Prod.snd (by intro i h1 h2; rw [tableNone_getElem cs i h1 h2])]
        exact ((List.mergeSort_perm cs craterLe).map Prod.snd).sum_eq
  · obtain ⟨A, m, hm, _, rfl, hc⟩ := applyBinning_ok hb h
    have hs := gridList_sorted (gridFn_strictMono hb off) A m
    set edges := gridList (gridFn b off) A m with hedges
    have hlen : edges.length = m := by simp [hedges]
    have hn : (tableOf edges cs).map Bin.n = histogram cs edges := by
      apply List.ext_getElem
      · simp
      · intro i h1 h2
        have hi : i + 1 < edges.length := by simp at h2; omega
        rw [List.getElem_map]
        exact (tableOf_getElem edges cs i (by simpa using h1) hi).2.2.2.2.1
    have he : (tableOf edges cs).map Bin.nEvent = histogram (cs.map fun c => (c.1, (1 : ℝ))) edges := by
      apply List.ext_getElem
      · simp
      · intro i h1 h2
        have hi : i + 1 < edges.length := by simp at h2; omega
        rw [List.getElem_map]
        exact (tableOf_getElem edges cs i (by simpa using h1) hi).2.2.2.2.2.1
    have hin : ∀ c ∈ cs, edges[0] ≤ c.1 ∧ c.1 ≤ edges[edges.length - 1] := by
      intro c hcc
      obtain ⟨_, g1, g2⟩ := hc c hcc
      rw [gridList_last hm, gridList_getElem]
      exact ⟨by simpa using g1, g2.le⟩
    constructor
    · rw [he, histogram_sum _ edges hs (by omega),
        count_eq cs (fun x => decide (edges[0] ≤ x ∧ x ≤ edges[edges.length - 1]))]
      rw [List.filter_eq_self.2 (by intro c hcc; simpa using hin c hcc)]
    · rw [hn, histogram_sum _ edges hs (by omega)]
      rw [List.filter_eq_self.2 (by intro c hcc; simpa using hin c hcc)]
      rfl

/-- hypothesis of C02-C03 for a concrete list (existence by `C01_binning_succeeds`) -/
example : ∃ t, applyBinning .root2 0.5 [(1, 1), (2.5, 0.5)] = .ok t ∧ t ≠ [] := by
  apply C01_binning_succeeds _ _ (by simp)
  intro c hc
  simp only [List.mem_cons, List.not_mem_nil, or_false] at hc
  rcases hc with rfl | rfl <;> norm_num

/-- **C03.** For every log-type binning, each bin has the listed columns: number and event number are those of the
craters in `[d_min, d_max)`, cumulative numbers those of the craters of diameter at least `d_min`; width and
geometric mean are those of its boundaries; and the boundaries are neighbouring boundaries of the published grid. -/
theorem C03_bin_contents (b : Binning) (hb : b ≠ .none) (off : ℝ) (cs : List Crater) (t : List Bin)
    (h : applyBinning b off cs = .ok t) (x : Bin) (hx : x ∈ t) :
    (gridOf b off).Edge x.dMin ∧ (gridOf b off).Edge x.dMax ∧ x.dMin < x.dMax ∧ 0 < x.dMin ∧
    (∀ e, (gridOf b off).Edge e → x.dMin < e → x.dMax ≤ e) ∧
    x.width = x.dMax - x.dMin ∧ x.dMean = Real.sqrt (x.dMax * x.dMin) ∧
    x.n = weightIn cs x.dMin x.dMax ∧ x.nEvent = countIn cs x.dMin x.dMax ∧
    x.ncum = weightFrom cs x.dMin ∧ x.ncumEvent = countFrom cs x.dMin := by
  obtain ⟨A, m, hm, _, rfl, hc⟩ := applyBinning_ok hb h
  have hst := gridList_stretch hb off A m
  obtain ⟨i, hi, e1, e2, rest⟩ := tableOf_spec _ hst.increasing cs
    (by intro c hcc hl; rw [gridList_last hm]; exact (hc c hcc).2.2) x hx
  refine ⟨?_, ?_, ?_, ?_, ?_, rest⟩
  · rw [e1]; exact hst.onGrid _ (List.getElem_mem _)
  · rw [e2]; exact hst.onGrid _ (List.getElem_mem _)
  · rw [e1, e2]; exact List.pairwise_iff_getElem.1 hst.increasing _ _ _ _ (by omega)
  · rw [e1, gridList_getElem]; exact gridFn_pos b off _
  · intro e he hlt
    rw [e2]; rw [e1] at hlt
    exact hst.noGap i hi e he hlt

/-- **C03, order.** Consecutive bins of the table share a boundary, so the table is ordered by diameter, and the
cumulative numbers do not increase along it (for non-negative fractions). -/
theorem C03_cumulative_monotone (b : Binning) (hb : b ≠ .none) (off : ℝ) (cs : List Crater) (t : List Bin)
    (h : applyBinning b off cs = .ok t) (i j : ℕ) (hij : i < j) (hj : j < t.length) :
    t[i].dMax ≤ t[j].dMin ∧ (j = i + 1 → t[i].dMax = t[j].dMin) ∧ t[j].ncumEvent ≤ t[i].ncumEvent ∧
      ((∀ c ∈ cs, 0 ≤ c.2) → t[j].ncum ≤ t[i].ncum) := by
  have key := fun x hx => C03_bin_contents b hb off cs t h x hx
  obtain ⟨A, m, hm, _, ht, hc⟩ := applyBinning_ok hb h
  have hst := gridList_stretch hb off A m
  have hlen : t.length = m - 1 := by rw [ht]; simp
  have ei : t[i].dMin = gridFn b off (A + i) ∧ t[i].dMax = gridFn b off (A + i + 1) := by
    subst ht
    obtain ⟨e1, e2, _⟩ := tableOf_getElem (gridList (gridFn b off) A m) cs i (by omega) (by simp; omega)
    rw [e1, e2, gridList_getElem, gridList_getElem]
    refine ⟨rfl, ?_⟩
    congr 1; push_cast; ring
  have ej : t[j].dMin = gridFn b off (A + j) := by
    subst ht
    obtain ⟨e1, _⟩ := tableOf_getElem (gridList (gridFn b off) A m) cs j (by omega) (by simp; omega)
    rw [e1, gridList_getElem]
  have hmono := gridFn_strictMono hb off
  have hle : t[i].dMin ≤ t[j].dMin := by
    rw [ei.1, ej]; exact hmono.monotone (by omega)
  obtain ⟨_, _, _, _, _, _, _, _, _, n1, n2⟩ := key t[i] (List.getElem_mem _)
  obtain ⟨_, _, _, _, _, _, _, _, _, k1, k2⟩ := key t[j] (List.getElem_mem _)
  have hsub : (cs.filter (fun c => decide (t[j].dMin ≤ c.1))).Sublist
      (cs.filter (fun c => decide (t[i].dMin ≤ c.1))) := by
    have hff : (cs.filter (fun c => decide (t[i].dMin ≤ c.1))).filter (fun c => decide (t[j].dMin ≤ c.1)) =
        cs.filter (fun c => decide (t[j].dMin ≤ c.1)) := by
      rw [List.filter_filter]
      apply List.filter_congr
      intro c _
      by_cases hcc : t[j].dMin ≤ c.1
      · have := hle.trans hcc
        simp [hcc, this]
      · simp [hcc]
    rw [← hff]
    exact List.filter_sublist
  refine ⟨?_, ?_, ?_, ?_⟩
  · rw [ei.2, ej]; exact hmono.monotone (by omega)
  · rintro rfl
    rw [ei.2, ej]; congr 1; push_cast; ring
  · rw [n2, k2]
    unfold countFrom
    exact_mod_cast hsub.length_le
  · intro hpos
    rw [n1, k1]
    unfold weightFrom
    exact List.Sublist.sum_le_sum (hsub.map _) (by
      intro w hw
      obtain ⟨c, hcc, rfl⟩ := List.mem_map.1 hw
      exact hpos c (List.mem_of_mem_filter hcc))

/-- **C03 for binning 'none'.** Row `i` of the table is the `i`-th smallest crater; at the first row of a given
diameter the cumulative numbers are those of the craters of at least that diameter. -/
theorem C03_none_contents (off : ℝ) (cs : List Crater) (t : List Bin) (h : applyBinning .none off cs = .ok t) :
    (t.map fun x => (x.dMean, x.n)).Perm cs ∧
    (t.map Bin.dMean).Pairwise (· ≤ ·) ∧
    (∀ x ∈ t, x.dMin = x.dMean ∧ x.dMax = x.dMean ∧ x.width = 0 ∧ x.nEvent = 1) ∧
    ∀ i (hi : i < t.length), (∀ j (hj : j < i), t[j].dMean < t[i].dMean) →
      t[i].ncum = weightFrom cs t[i].dMean ∧ t[i].ncumEvent = countFrom cs t[i].dMean := by
  simp only [applyBinning, if_true] at h
  split at h
  · cases h
  · have ht : tableNone cs = t := Except.ok.inj h
    subst ht
    have hperm := List.mergeSort_perm cs craterLe
    have hsort := sorted_craters cs
    have hlen : (cs.mergeSort craterLe).length = (tableNone cs).length := by simp
    have hmap : (tableNone cs).map (fun x => (x.dMean, x.n)) = cs.mergeSort craterLe := by
      apply List.ext_getElem
      · simp
      · intro i h1 h2
        rw [List.getElem_map, tableNone_getElem cs i (by omega) h2]
    refine ⟨by rw [hmap]; exact hperm, ?_, ?_, ?_⟩
    · have : (tableNone cs).map Bin.dMean = (cs.mergeSort craterLe).map Prod.fst := by
        rw [← hmap, List.map_map]; rfl
      rw [this, List.pairwise_map]
      exact hsort.imp fun h => craterLe_fst h
    · intro x hx
      obtain ⟨i, hi, rfl⟩ := List.mem_iff_getElem.1 hx
      rw [tableNone_getElem cs i hi (by omega)]
      simp
    · intro i hi hfirst
      have hi' : i < (cs.mergeSort craterLe).length := by omega
      have hf := sorted_drop_filter (cs.mergeSort craterLe) hsort i hi' (by
        intro j hj
        have := hfirst j hj
        rw [tableNone_getElem cs i hi hi', tableNone_getElem cs j (by omega) (by omega)] at this
        exact this)
      rw [tableNone_getElem cs i hi hi']
      have hp := hperm.filter (fun c => decide ((cs.mergeSort craterLe)[i].1 ≤ c.1))
      rw [hf] at hp
      constructor
      · exact (hp.map Prod.snd).sum_eq
      · exact congrArg (Nat.cast : ℕ → ℝ) hp.length_eq

/-- the hypothesis on the first of equal diameters is met in a list with equal diameters -/
example : ∃ t, applyBinning .none 0 [(2, 1), (1, 1), (2, 0.5)] = .ok t ∧ t ≠ [] := by
  apply C01_binning_succeeds _ _ (by simp)
  intro c hc
  simp only [List.mem_cons, List.not_mem_nil, or_false] at hc
  rcases hc with rfl | rfl | rfl <;> norm_num

/-- **C04.** The binned table does not depend on the order of the craters. -/
theorem C04_order_irrelevant (b : Binning) (off : ℝ) (cs cs' : List Crater) (h : cs.Perm cs') :
    applyBinning b off cs = applyBinning b off cs' := by
  by_cases hb : b = .none
  · have h1 : cs = [] ↔ cs' = [] := ⟨fun e => List.nil_perm.1 (e ▸ h), fun e => List.perm_nil.1 (e ▸ h)⟩
    have h2 : tableNone cs = tableNone cs' := by
      unfold tableNone; rw [sort_perm h]
    simp only [applyBinning, hb, if_true, h1, h2]
  · have h1 : generateBins b (cs.map Prod.fst) off true = generateBins b (cs'.map Prod.fst) off true := by
      unfold generateBins
      rw [rangeOf_perm (h.map Prod.fst)]
      simp [hb]
    have h2 : ∀ edges, tableOf edges cs = tableOf edges cs' := by
      intro edges
      unfold tableOf
      rw [histogram_perm h, histogram_perm (h.map _)]
    simp only [applyBinning, hb, if_false, h1, h2]

/-- a non-trivial permutation -/
example : ([(1, 1), (2, 0.5), (3, 1)] : List Crater).Perm [(3, 1), (1, 1), (2, 0.5)] := by
  exact (List.perm_append_comm (l₁ := [(1, 1), (2, 0.5)]) (l₂ := [(3, 1)]))

/-- **C04, plot data.** Nor do plot data and decoded ranges of freshly read objects. -/
theorem C04_plot_order_irrelevant (cs cs' : List Crater) (h : cs.Perm cs') (area : ℝ) (a : PlotArgs)
    (l0 l1 : Lim) (b : Binning) (snap : Bool) :
    let o : Obj := ⟨cs, area, false, Option.none, []⟩
    let o' : Obj := ⟨cs', area, false, Option.none, []⟩
    (o.getplotdata a).2 = (o'.getplotdata a).2 ∧
    (o.decodeRange l0 l1 b snap).2 = (o'.decodeRange l0 l1 b snap).2 := by
  intro o o'
  constructor
  · simp only [Obj.getplotdata, Obj.ensure, o, o', C04_order_irrelevant a.binning 0 cs cs' h]
    cases applyBinning a.binning 0 cs' <;> rfl
  · simp only [Obj.decodeRange, Obj.ensure, o, o', C04_order_irrelevant b 0 cs cs' h]
    cases applyBinning b 0 cs' <;> rfl

end Verif.Props
