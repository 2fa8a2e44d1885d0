import Verif.Props.FileAge
import Verif.Props.Stat
import Verif.Props.PlotData

/-!
C148: ages of a count exported as a .stat table.
-/

namespace Verif.Props

open Verif.Py Verif.Spec Verif.CountFile Verif.Cratercount Verif.Chronology Verif.Production Verif.Craterpdf Verif.Age Verif.FileAge

noncomputable section

/-- the table read back, with the upper limits of its bins -/
theorem read_back (t q : List Bin) (hq : q = nonEmpty t) (area : ℝ) (harea : area ≠ 0) (hcum : ∀ x ∈ t, 0 < x.n → x.ncum ≠ 0)
    (hpos : ∀ x ∈ t, 0 < x.dMin) (hinc : q.Pairwise (fun x y => x.dMin < y.dMin)) (h2 : 2 ≤ q.length) :
    ∃ t', readStat (statRows t area) = .ok (area, t') ∧ ∃ hl : t'.length = q.length,
      ∀ i (hi : i < q.length), t'[i].dMin = q[i].dMin ∧ t'[i].n = q[i].n ∧
        t'[i].nEvent = q[i].nEvent ∧ t'[i].ncum = q[i].ncum ∧ t'[i].ncumEvent = q[i].ncum ∧
        t'[i].dMean = Real.sqrt (t'[i].dMin * t'[i].dMax) ∧ t'[i].width = t'[i].dMax - t'[i].dMin ∧
        (∀ h : i + 1 < q.length, t'[i].dMax = q[i + 1].dMin) ∧ t'[i].dMin < t'[i].dMax := by
  have hmem : ∀ x ∈ q, x ∈ t ∧ 0 < x.n := by
    intro x hx
    rw [hq, nonEmpty, List.mem_filter] at hx
    exact ⟨hx.1, by simpa using hx.2⟩
  have hrows : statRows t area = q.map (fun b => (⟨b.dMin, b.n, b.ncum, b.ncum / area, b.nEvent⟩ : StatRow)) := by rw [statRows, hq]
  have hd : (statRows t area).map StatRow.diam = q.map Bin.dMin := by rw [hrows, List.map_map]; rfl
  have hm := statDMax_ok (q.map Bin.dMin) (by simpa using h2)
  obtain ⟨x0, l, e0⟩ := List.exists_cons_of_ne_nil (show q ≠ [] by intro h; rw [h] at h2; simp at h2)
  have hx0 := hmem x0 (by rw [e0]; simp)
  have hdiv : fdiv x0.ncum (x0.ncum / area) = .ok area := by
    have h := hcum x0 hx0.1 hx0.2
    rw [fdiv, if_neg (div_ne_zero h harea)]
    congr 1
    field_simp
  have hread : readStat (statRows t area) = .ok (area, List.zipWith (fun (r : StatRow) (hi : ℝ) =>
      ({ dMin := r.diam, dMax := hi, width := hi - r.diam, dMean := Real.sqrt (r.diam * hi),
         n := r.n, nEvent := r.nEvent, ncum := r.ncum, ncumEvent := r.ncum } : Bin))
      (q.map (fun b => (⟨b.dMin, b.n, b.ncum, b.ncum / area, b.nEvent⟩ : StatRow)))
      ((q.map Bin.dMin).tail ++ [(q.map Bin.dMin)[(q.map Bin.dMin).length - 1]'(by simp; omega) *
        ((q.map Bin.dMin)[(q.map Bin.dMin).length - 1]'(by simp; omega) / (q.map Bin.dMin)[(q.map Bin.dMin).length - 2]'(by simp; omega))])) := by
    unfold readStat
    dsimp only
    rw [hd, hm, hrows]
    simp only [except_ok_bind]
    have : (q.map (fun b => (⟨b.dMin, b.n, b.ncum, b.ncum / area, b.nEvent⟩ : StatRow))).head? =
        some ⟨x0.dMin, x0.n, x0.ncum, x0.ncum / area, x0.nEvent⟩ := by rw [e0]; rfl
    rw [this]
    simp only [hdiv, except_ok_bind]
  refine ⟨_, hread, by simp; omega, ?_⟩
  intro i hi
  simp only [List.getElem_zipWith, List.getElem_map]
  refine ⟨trivial, trivial, trivial, trivial, trivial, trivial, trivial, ?_, ?_⟩
  · intro h
    rw [List.getElem_append_left (by simp; omega), List.getElem_tail, List.getElem_map]
  · by_cases h : i + 1 < q.length
    · rw [List.getElem_append_left (by simp; omega), List.getElem_tail]
      simpa only [List.getElem_map] using List.pairwise_iff_getElem.1 hinc i (i + 1) hi h (by omega)
    · have hi' : i = q.length - 1 := by omega
      rw [List.getElem_append_right (by simp; omega)]
      simp only [List.getElem_singleton, List.length_map, List.getElem_map]
      subst hi'
      have h1 := List.pairwise_iff_getElem.1 hinc (q.length - 2) (q.length - 1) (by omega) (by omega) (by omega)
      have h0 := hpos _ (hmem _ (List.getElem_mem (l := q) (n := q.length - 2) (by omega))).1
      have : 1 < q[q.length - 1].dMin / q[q.length - 2].dMin := by rw [lt_div_iff₀ h0]; linarith
      nlinarith

/-- the bins of a table hold the craters between two limits if no bin with craters is cut by a limit -/
theorem aligned_count {b : Binning} (hb : b ≠ .none) {off : ℝ} {cs : List Crater} {t : List Bin} (ht : applyBinning b off cs = .ok t) (lo hi : ℝ)
    (hlo : ∀ x ∈ t, x.nEvent ≠ 0 → lo ≤ x.dMin ∨ x.dMax ≤ lo) (hhi : ∀ x ∈ t, x.nEvent ≠ 0 → hi ≤ x.dMin ∨ x.dMax ≤ hi) :
    (t.map (fun x => if lo ≤ x.dMin ∧ x.dMax ≤ hi then x.nEvent else 0)).sum = (countIn cs lo hi : ℝ) := by
  have hcont := fun x hx => C03_bin_contents b hb off cs t ht x hx
  obtain ⟨A, m, hm, hlen, hte, hcr, hcol⟩ := table_cols hb ht
  obtain ⟨cs', hcs'⟩ : ∃ cs', cs' = cs.filter (fun c => decide (lo ≤ c.1 ∧ c.1 < hi)) := ⟨_, rfl⟩
  have hsub : ∀ c ∈ cs', c ∈ cs := fun c hc => by rw [hcs'] at hc; exact List.mem_of_mem_filter hc
  have hsorted := gridList_sorted (gridFn_strictMono hb off) A m
  have hlast : ∀ c ∈ cs', c.1 < (gridList (gridFn b off) A m)[(gridList (gridFn b off) A m).length - 1]'(by simp; omega) := by
    intro c hc
    rw [gridList_last hm]; exact (hcr c (hsub c hc)).2.2
  have hsum : ((tableOf (gridList (gridFn b off) A m) cs').map Bin.nEvent).sum = (cs'.length : ℝ) := by
    rw [(table_n_cols _ cs').2]
    have := (drop_sum_eq _ hsorted cs' 0 (by simp; omega) hlast).2
    rw [List.drop_zero] at this
    rw [this, gridList_getElem, countFrom]
    congr 2
    rw [List.filter_eq_self]
    intro c hc
    simpa using (hcr c (hsub c hc)).2.1
  have key : t.map (fun x => if lo ≤ x.dMin ∧ x.dMax ≤ hi then x.nEvent else 0) =
      (tableOf (gridList (gridFn b off) A m) cs').map Bin.nEvent := by
    apply List.ext_getElem
    · rw [hte]; simp
    · intro i h1 h2
      simp only [List.getElem_map]
      have hi1 : i < t.length := by simpa using h1
      have hi2 : i < (tableOf (gridList (gridFn b off) A m) cs').length := by simpa using h2
      obtain ⟨j, hj, f1, f2, _, _, _, f3, _⟩ := tableOf_spec _ hsorted cs' (fun c hc _ => hlast c hc) _ (List.getElem_mem hi2)
      have g := tableOf_getElem (gridList (gridFn b off) A m) cs' i hi2 (by simp; omega)
      rw [f3, g.1, g.2.1, gridList_getElem, gridList_getElem]
      obtain ⟨_, _, hlt, _, _, _, _, _, e, _⟩ := hcont _ (List.getElem_mem hi1)
      have d1 := (hcol i hi1).1
      have d2 := (hcol i hi1).2.1
      have d3 : gridFn b off (A + ((i + 1 : ℕ) : ℤ)) = t[i].dMax := by rw [d2]; congr 1; push_cast; ring
      rw [d3, ← d1]
      have hx := List.getElem_mem hi1
      generalize t[i] = x at hx hlt e d1 d2 d3 ⊢
      by_cases hc : lo ≤ x.dMin ∧ x.dMax ≤ hi
      · rw [if_pos hc, e, countIn, countIn, hcs', List.filter_filter]
        congr 2
        apply List.filter_congr
        intro c _
        rw [← Bool.decide_and]
        apply decide_eq_decide.2
        constructor
        · intro h; exact ⟨h, hc.1.trans h.1, h.2.trans_le hc.2⟩
        · exact fun h => h.1
      · rw [if_neg hc, eq_comm]
        norm_cast
        rw [countIn, List.length_eq_zero_iff, List.filter_eq_nil_iff]
        intro c hc' hin
        have hin : x.dMin ≤ c.1 ∧ c.1 < x.dMax := by simpa using hin
        have hc2 : lo ≤ c.1 ∧ c.1 < hi := by
          rw [hcs', List.mem_filter] at hc'
          simpa using hc'.2
        have hne : x.nEvent ≠ 0 := by
          rw [e]
          intro h0
          have h0 : countIn cs x.dMin x.dMax = 0 := by exact_mod_cast h0
          rw [countIn, List.length_eq_zero_iff, List.filter_eq_nil_iff] at h0
          exact h0 c (hsub c hc') (by simpa using hin)
        rcases hlo x hx hne with a | a
        · rcases hhi x hx hne with d | d
          · linarith
          · exact hc ⟨a, d⟩
        · linarith
  rw [key, hsum, hcs']
  rfl

/-! ### limits at bins with craters -/

/-- Specification: a lower limit which is the lower boundary of a bin with craters, or below all of them -/
def StartsAtBin (t : List Bin) (lo : EReal) : Prop :=
  (∃ y ∈ t, 0 < y.n ∧ lo = (y.dMin : EReal)) ∨ ∀ y ∈ t, 0 < y.n → lo ≤ (y.dMin : EReal)

/-- Specification: an upper limit which is the lower boundary of a bin with craters, or above all of them -/
def EndsAtBin (t : List Bin) (hi : EReal) : Prop :=
  (∃ y ∈ t, 0 < y.n ∧ hi = (y.dMin : EReal)) ∨ ∀ y ∈ t, 0 < y.n → (y.dMax : EReal) ≤ hi

theorem bins_order {r : List Bin} (hord : r.Pairwise (fun x y => x.dMax ≤ y.dMin)) {x y : Bin} (hx : x ∈ r) (hy : y ∈ r) :
    x = y ∨ x.dMax ≤ y.dMin ∨ y.dMax ≤ x.dMin := by
  obtain ⟨i, hi, rfl⟩ := List.getElem_of_mem hx
  obtain ⟨j, hj, rfl⟩ := List.getElem_of_mem hy
  rcases lt_trichotomy i j with h | h | h
  · exact Or.inr (Or.inl (List.pairwise_iff_getElem.1 hord i j hi hj h))
  · subst h; exact Or.inl rfl
  · exact Or.inr (Or.inr (List.pairwise_iff_getElem.1 hord j i hj hi h))

theorem starts_iff {r : List Bin} (hord : r.Pairwise (fun x y => x.dMax ≤ y.dMin))
    (hin : ∀ x ∈ r, x.dMin < x.dMean ∧ x.dMean < x.dMax) {lo : EReal}
    (h : (∃ y ∈ r, lo = (y.dMin : EReal)) ∨ ∀ y ∈ r, lo ≤ (y.dMin : EReal)) {x : Bin} (hx : x ∈ r) :
    (lo < (x.dMean : EReal) ↔ lo ≤ (x.dMin : EReal)) ∧ (lo ≤ (x.dMin : EReal) ∨ (x.dMax : EReal) ≤ lo) := by
  obtain ⟨h1, h2⟩ := hin x hx
  rcases h with ⟨y, hy, rfl⟩ | h
  · simp only [EReal.coe_lt_coe_iff, EReal.coe_le_coe_iff]
    obtain ⟨h3, h4⟩ := hin y hy
    rcases bins_order hord hx hy with rfl | h | h
    · exact ⟨⟨fun _ => le_rfl, fun _ => h1⟩, Or.inl le_rfl⟩
    · exact ⟨⟨fun _ => by linarith, fun _ => by linarith⟩, Or.inr h⟩
    · exact ⟨⟨fun _ => by linarith, fun _ => by linarith⟩, Or.inl (by linarith)⟩
  · exact ⟨⟨fun _ => h x hx, fun g => lt_of_le_of_lt g (by exact_mod_cast h1)⟩, Or.inl (h x hx)⟩

theorem ends_at_iff {r : List Bin} (hord : r.Pairwise (fun x y => x.dMax ≤ y.dMin))
    (hin : ∀ x ∈ r, x.dMin < x.dMean ∧ x.dMean < x.dMax) {hi : EReal}
    (h : (∃ y ∈ r, hi = (y.dMin : EReal)) ∨ ∀ y ∈ r, (y.dMax : EReal) ≤ hi) {x : Bin} (hx : x ∈ r) :
    ((x.dMean : EReal) < hi ↔ (x.dMin : EReal) < hi) ∧ ((x.dMax : EReal) ≤ hi ↔ (x.dMin : EReal) < hi) ∧
      (hi ≤ (x.dMin : EReal) ∨ (x.dMax : EReal) ≤ hi) := by
  obtain ⟨h1, h2⟩ := hin x hx
  rcases h with ⟨y, hy, rfl⟩ | h
  · simp only [EReal.coe_lt_coe_iff, EReal.coe_le_coe_iff]
    obtain ⟨h3, h4⟩ := hin y hy
    rcases bins_order hord hx hy with rfl | h | h
    · exact ⟨⟨fun g => by linarith, fun g => by linarith⟩, ⟨fun g => by linarith, fun g => by linarith⟩, Or.inl le_rfl⟩
    · exact ⟨⟨fun _ => by linarith, fun _ => by linarith⟩, ⟨fun g => by linarith, fun g => h⟩, Or.inr h⟩
    · exact ⟨⟨fun g => by linarith, fun g => by linarith⟩, ⟨fun g => by linarith, fun g => by linarith⟩, Or.inl (by linarith)⟩
  · have g := h x hx
    have g1 : (x.dMean : EReal) < hi := lt_of_lt_of_le (by exact_mod_cast h2) g
    have g0 : (x.dMin : EReal) < hi := lt_of_lt_of_le (by exact_mod_cast (h1.trans h2)) g
    exact ⟨⟨fun _ => g0, fun _ => g1⟩, ⟨fun _ => g0, fun _ => g⟩, Or.inr g⟩

/-- what is known of an exported table and the table it was made of -/
structure Exported (t t' : List Bin) : Prop where
  ordered : (nonEmpty t).Pairwise (fun x y => x.dMax ≤ y.dMin)
  inside : ∀ x ∈ nonEmpty t, x.dMin < x.dMean ∧ x.dMean < x.dMax
  ordered' : t'.Pairwise (fun x y => x.dMax ≤ y.dMin)
  inside' : ∀ x ∈ t', x.dMin < x.dMean ∧ x.dMean < x.dMax
  same : t'.map (fun x => (x.dMin, x.n, x.nEvent, x.ncum)) = (nonEmpty t).map (fun x => (x.dMin, x.n, x.nEvent, x.ncum))
  events : ∀ x ∈ t', x.ncumEvent = x.ncum
  positive : ∀ x ∈ t', 0 < x.n
  upper : ∀ i (h : i + 1 < t'.length), t'[i].dMax = t'[i + 1].dMin
  mean : ∀ x ∈ t', x.dMean = Real.sqrt (x.dMin * x.dMax)

theorem exported {b : Binning} (hb : b ≠ .none) {off : ℝ} {cs : List Crater} (hfrac : ∀ c ∈ cs, 0 < c.2) {t : List Bin}
    (ht : applyBinning b off cs = .ok t) (area : ℝ) (harea : area ≠ 0) (h2 : 2 ≤ (nonEmpty t).length) :
    ∃ t', readStat (statRows t area) = .ok (area, t') ∧ Exported t t' := by
  obtain ⟨q, hq⟩ : ∃ q, q = nonEmpty t := ⟨_, rfl⟩
  have hmem : ∀ x ∈ q, x ∈ t ∧ 0 < x.n := by
    intro x hx
    rw [hq, nonEmpty, List.mem_filter] at hx
    exact ⟨hx.1, by simpa using hx.2⟩
  have hcont := fun x hx => C03_bin_contents b hb off cs t ht x hx
  obtain ⟨A, m, hm, hlen, hte, hcr, hcol⟩ := table_cols hb ht
  have hto : t.Pairwise (fun x y => x.dMax ≤ y.dMin) := by
    rw [List.pairwise_iff_getElem]
    intro i j hi hj hij
    exact (C03_cumulative_monotone b hb off cs t ht i j hij hj).1
  have hqo : q.Pairwise (fun x y => x.dMax ≤ y.dMin) := by rw [hq]; exact hto.filter _
  have hqi : ∀ x ∈ q, x.dMin < x.dMean ∧ x.dMean < x.dMax := by
    intro x hx
    obtain ⟨i, hi, rfl⟩ := List.getElem_of_mem (hmem x hx).1
    exact ⟨(hcol i hi).2.2.2.2.1, (hcol i hi).2.2.2.2.2.1⟩
  have hinc : q.Pairwise (fun x y => x.dMin < y.dMin) := by
    rw [List.pairwise_iff_getElem] at hqo ⊢
    intro i j hi hj hij
    have := hqi _ (List.getElem_mem hi)
    linarith [hqo i j hi hj hij]
  rw [← hq] at h2
  obtain ⟨t', h1, hl, h3⟩ := read_back t q hq area harea (C11_applies b hb off cs hfrac t ht).1 (fun x hx => (hcont x hx).2.2.2.1) hinc h2
  have hpos : ∀ x ∈ q, 0 < x.dMin := fun x hx => (hcont x (hmem x hx).1).2.2.2.1
  refine ⟨t', h1, hq ▸ hqo, hq ▸ hqi, ?_, ?_, ?_, ?_, ?_, ?_, ?_⟩
  · rw [List.pairwise_iff_getElem]
    intro i j hi hj hij
    have hi' : i < q.length := hl ▸ hi
    have hj' : j < q.length := hl ▸ hj
    rw [(h3 i hi').2.2.2.2.2.2.2.1 (by omega), (h3 j hj').1]
    rcases Nat.lt_or_ge (i + 1) j with h | h
    · exact (List.pairwise_iff_getElem.1 hinc (i + 1) j (by omega) hj' h).le
    · have : i + 1 = j := by omega
      subst this; exact le_rfl
  · intro x hx
    obtain ⟨i, hi, rfl⟩ := List.getElem_of_mem hx
    have hi' : i < q.length := hl ▸ hi
    obtain ⟨e1, _, _, _, _, e2, _, _, e3⟩ := h3 i hi'
    have h0 := hpos _ (List.getElem_mem hi')
    rw [← e1] at h0
    rw [e2]
    generalize t'[i].dMin = a at *
    generalize t'[i].dMax = d at *
    constructor
    · rw [Real.lt_sqrt h0.le]; nlinarith
    · rw [Real.sqrt_lt' (h0.trans e3)]; nlinarith
  · rw [← hq]
    apply List.ext_getElem
    · simpa using hl
    · intro i g1 g2
      have hi' : i < q.length := by simpa using g2
      obtain ⟨e1, e2, e3, e4, _⟩ := h3 i hi'
      simp only [List.getElem_map, e1, e2, e3, e4]
  · intro x hx
    obtain ⟨i, hi, rfl⟩ := List.getElem_of_mem hx
    have hi' : i < q.length := hl ▸ hi
    rw [(h3 i hi').2.2.2.2.1, (h3 i hi').2.2.2.1]
  · intro x hx
    obtain ⟨i, hi, rfl⟩ := List.getElem_of_mem hx
    have hi' : i < q.length := hl ▸ hi
    rw [(h3 i hi').2.1]
    exact (hmem _ (List.getElem_mem hi')).2
  · intro i hi
    rw [(h3 i (by omega)).2.2.2.2.2.2.2.1 (by omega), (h3 (i + 1) (by omega)).1]
  · intro x hx
    obtain ⟨i, hi, rfl⟩ := List.getElem_of_mem hx
    exact (h3 i (hl ▸ hi)).2.2.2.2.2.1

/-- limits at bins with craters of the table are limits at bins of the exported one -/
theorem exported_starts {t t' : List Bin} (h : Exported t t') {lo : EReal} (hlo : StartsAtBin t lo) :
    ((∃ y ∈ nonEmpty t, lo = (y.dMin : EReal)) ∨ ∀ y ∈ nonEmpty t, lo ≤ (y.dMin : EReal)) ∧
    ((∃ y ∈ t', lo = (y.dMin : EReal)) ∨ ∀ y ∈ t', lo ≤ (y.dMin : EReal)) := by
  have hmin : t'.map Bin.dMin = (nonEmpty t).map Bin.dMin := by
    have := congrArg (List.map (fun p : ℝ × ℝ × ℝ × ℝ => p.1)) h.same
    rw [List.map_map, List.map_map] at this
    exact this
  have hm : ∀ y, y ∈ nonEmpty t ↔ y ∈ t ∧ 0 < y.n := fun y => by rw [nonEmpty, List.mem_filter, decide_eq_true_eq]
  have e : ∀ z : ℝ, (∃ y ∈ t', y.dMin = z) ↔ ∃ y ∈ nonEmpty t, y.dMin = z := by
    intro z; rw [← List.mem_map, hmin, List.mem_map]
  rcases hlo with ⟨y, hy, hn, rfl⟩ | hlo
  · refine ⟨Or.inl ⟨y, (hm y).2 ⟨hy, hn⟩, rfl⟩, Or.inl ?_⟩
    obtain ⟨z, hz, ez⟩ := (e y.dMin).2 ⟨y, (hm y).2 ⟨hy, hn⟩, rfl⟩
    exact ⟨z, hz, by rw [ez]⟩
  · refine ⟨Or.inr (fun y hy => hlo y ((hm y).1 hy).1 ((hm y).1 hy).2), Or.inr (fun y hy => ?_)⟩
    obtain ⟨z, hz, ez⟩ := (e y.dMin).1 ⟨y, hy, rfl⟩
    rw [← ez]
    exact hlo z ((hm z).1 hz).1 ((hm z).1 hz).2

theorem exported_ends {t t' : List Bin} (h : Exported t t') {hi : EReal} (hhi : EndsAtBin t hi) (hhi' : EndsAtBin t' hi) :
    ((∃ y ∈ nonEmpty t, hi = (y.dMin : EReal)) ∨ ∀ y ∈ nonEmpty t, (y.dMax : EReal) ≤ hi) ∧
    ((∃ y ∈ t', hi = (y.dMin : EReal)) ∨ ∀ y ∈ t', (y.dMax : EReal) ≤ hi) := by
  have hm : ∀ y, y ∈ nonEmpty t ↔ y ∈ t ∧ 0 < y.n := fun y => by rw [nonEmpty, List.mem_filter, decide_eq_true_eq]
  constructor
  · rcases hhi with ⟨y, hy, hn, rfl⟩ | hhi
    · exact Or.inl ⟨y, (hm y).2 ⟨hy, hn⟩, rfl⟩
    · exact Or.inr (fun y hy => hhi y ((hm y).1 hy).1 ((hm y).1 hy).2)
  · rcases hhi' with ⟨y, hy, hn, rfl⟩ | hhi
    · exact Or.inl ⟨y, hy, rfl⟩
    · exact Or.inr (fun y hy => hhi y hy (h.positive y hy))

/-- an upper limit at a bin with craters is one of the exported table too -/
theorem ends_exported {t t' : List Bin} (h : Exported t t') {hi : EReal} (y : Bin) (hy : y ∈ t) (hn : 0 < y.n) (e : hi = (y.dMin : EReal)) :
    EndsAtBin t' hi := by
  have hmin : t'.map Bin.dMin = (nonEmpty t).map Bin.dMin := by
    have := congrArg (List.map (fun p : ℝ × ℝ × ℝ × ℝ => p.1)) h.same
    rw [List.map_map, List.map_map] at this
    exact this
  have : y.dMin ∈ t'.map Bin.dMin := by
    rw [hmin, List.mem_map]
    exact ⟨y, by rw [nonEmpty, List.mem_filter, decide_eq_true_eq]; exact ⟨hy, hn⟩, rfl⟩
  obtain ⟨z, hz, ez⟩ := List.mem_map.1 this
  exact Or.inl ⟨z, hz, h.positive z hz, by rw [ez, e]⟩

theorem exported_count {b : Binning} (hb : b ≠ .none) {off : ℝ} {cs : List Crater} (hfrac : ∀ c ∈ cs, 0 < c.2) {t t' : List Bin}
    (ht : applyBinning b off cs = .ok t) (h : Exported t t') {lo hi : ℝ} (hlo : StartsAtBin t lo) (hhi : EndsAtBin t hi)
    (hhi' : EndsAtBin t' hi) :
    (t'.map (fun x => if lo ≤ x.dMin ∧ x.dMax ≤ hi then x.nEvent else 0)).sum = (countIn cs lo hi : ℝ) := by
  have hcont := fun x hx => C03_bin_contents b hb off cs t ht x hx
  obtain ⟨s1, s2⟩ := exported_starts h hlo
  obtain ⟨e1, e2⟩ := exported_ends h hhi hhi'
  have hm : ∀ y, y ∈ nonEmpty t ↔ y ∈ t ∧ 0 < y.n := fun y => by rw [nonEmpty, List.mem_filter, decide_eq_true_eq]
  have hzero : ∀ x ∈ t, ¬ 0 < x.n → x.nEvent = 0 := by
    intro x hx hn
    obtain ⟨_, _, _, _, _, _, _, g1, g2, _⟩ := hcont x hx
    rw [g1] at hn
    rw [g2, (weightIn_pos_iff cs hfrac _ _ hn).2]
    simp
  have hpos : ∀ x ∈ t, x.nEvent ≠ 0 → 0 < x.n := fun x hx hn => by
    by_contra h0; exact hn (hzero x hx h0)
  rw [← aligned_count hb ht lo hi
    (fun x hx hn => by simpa only [EReal.coe_le_coe_iff] using (starts_iff h.ordered h.inside s1 ((hm x).2 ⟨hx, hpos x hx hn⟩)).2)
    (fun x hx hn => by simpa only [EReal.coe_le_coe_iff] using (ends_at_iff h.ordered h.inside e1 ((hm x).2 ⟨hx, hpos x hx hn⟩)).2.2)]
  rw [← nonEmpty_sum t _ (fun x hx hn => by rw [hzero x hx hn, ite_self])]
  have f1 : t'.map (fun x => if lo ≤ x.dMin ∧ x.dMax ≤ hi then x.nEvent else 0) =
      (t'.map (fun x => (x.dMin, x.n, x.nEvent, x.ncum))).map (fun p => if lo ≤ p.1 ∧ p.1 < hi then p.2.2.1 else 0) := by
    rw [List.map_map]
    apply List.map_congr_left
    intro x hx
    have := (ends_at_iff h.ordered' h.inside' e2 hx).2.1
    simp only [EReal.coe_le_coe_iff, EReal.coe_lt_coe_iff] at this
    simp only [Function.comp_apply, this]
  have f2 : (nonEmpty t).map (fun x => if lo ≤ x.dMin ∧ x.dMax ≤ hi then x.nEvent else 0) =
      ((nonEmpty t).map (fun x => (x.dMin, x.n, x.nEvent, x.ncum))).map (fun p => if lo ≤ p.1 ∧ p.1 < hi then p.2.2.1 else 0) := by
    rw [List.map_map]
    apply List.map_congr_left
    intro x hx
    have := (ends_at_iff h.ordered h.inside e1 hx).2.1
    simp only [EReal.coe_le_coe_iff, EReal.coe_lt_coe_iff] at this
    simp only [Function.comp_apply, this]
  rw [f1, f2, h.same]

theorem filter_sum (l : List Bin) (p : Bin → Prop) [DecidablePred p] :
    ((l.filter (fun x => decide (p x))).map Bin.nEvent).sum = (l.map (fun x => if p x then x.nEvent else 0)).sum := by
  induction l with
  | nil => rfl
  | cons x l ih =>
    by_cases h : p x
    · simp [h, ih]
    · simp [h, ih]

/-- **C148, Poisson ages.** A crater list, written as .stat table with any binning and read back, has the Poisson ages of the list - the same
likelihood, ages, densities and crater numbers, or the same failure - for all diameter ranges which begin and end at the lower boundary of
a bin with craters (or include all craters and bins below or above), within the range of the production function. -/
theorem C148_poisson_partial (b : Binning) (hb : b ≠ .none) (off : ℝ) (k : Reading.Count) (hfrac : ∀ c ∈ k.craters, 0 < c.2) (harea : k.area ≠ 0)
    (t : List Bin) (ht : applyBinning b off k.craters = .ok t) (h2 : 2 ≤ (t.filter (fun x => decide (0 < x.n))).length) :
    ∃ t', readStat (statRows t k.area) = .ok (k.area, t') ∧ ∀ (pf : PFn) (c : Chron) (simpson : Simpson) (range : EReal × EReal) (ref lo hi : ℝ),
      lo = clipE range.1 pf.range.1 pf.range.2 → hi = clipE range.2 pf.range.1 pf.range.2 →
      StartsAtBin t lo → EndsAtBin t hi → EndsAtBin t' hi →
      ageOf pf c simpson (.table k.area t') range false ref = ageOf pf c simpson (.craters k) range false ref := by
  obtain ⟨t', h1, h⟩ := exported hb hfrac ht k.area harea h2
  refine ⟨t', h1, ?_⟩
  intro pf c simpson range ref lo hi elo ehi hlo hhi hhi'
  have hk : countK none (source (.table k.area t')) lo hi = countK none (source (.craters k)) lo hi := by
    have e1 : countK none (source (.table k.area t')) lo hi = (countIn k.craters lo hi : ℝ) := by
      rw [← exported_count hb hfrac ht h hlo hhi hhi', ← filter_sum]
      rfl
    have e2 : countK none (source (.craters k)) lo hi = (countIn k.craters lo hi : ℝ) := by
      have key : ∀ l : List ℝ, countK none ⟨some l, [], k.area, k.perimeter⟩ lo hi =
          ((l.filter (fun e => decide (lo ≤ e ∧ e < hi))).length : ℝ) := by
        intro l
        cases l with
        | nil => simp [countK]
        | cons d l => rfl
      rw [source, key, ← List.countP_eq_length_filter, List.countP_map, countIn, ← List.countP_eq_length_filter]
      rfl
    rw [e1, e2]
  unfold ageOf poissonAge Craterpdf.init lams
  rw [← elo, ← ehi, hk]
  rfl

/-! ### cumulative plots and fits -/

/-- a point of a cumulative plot uses only what is exported -/
theorem point_congr (area adj : ℝ) (C : Option (ℝ → ℝ)) (f : ℝ × ℝ × ℝ × ℝ → Except Err Point)
    (hf : f = fun p => do
      let y ← fdiv p.2.2.2 area
      let e ← errBar (y + adj) p.2.2.2
      .ok ⟨p.1, y + adj, e⟩) (x : Bin) (hx : x.ncumEvent = x.ncum) :
    point .cumulative area adj C x = f (x.dMin, x.n, x.nEvent, x.ncum) := by
  subst hf
  simp only [point, hx]

theorem mapM_pointwise {α β γ : Type} (l : List α) (g : α → β) (f : α → Except Err γ) (f' : β → Except Err γ)
    (h : ∀ x ∈ l, f x = f' (g x)) : l.mapM f = (l.map g).mapM f' := by
  induction l with
  | nil => rfl
  | cons x l ih =>
    rw [List.map_cons, List.mapM_cons, List.mapM_cons, h x (by simp), ih (fun y hy => h y (List.mem_cons_of_mem _ hy))]

theorem cumulative_same {b : Binning} (hb : b ≠ .none) {off : ℝ} {cs : List Crater} (hone : ∀ c ∈ cs, c.2 = 1) {t t' : List Bin}
    (ht : applyBinning b off cs = .ok t) (h : Exported t t') {range : Option (EReal × EReal)}
    (hr : ∀ r, range = some r → StartsAtBin t r.1 ∧ EndsAtBin t r.2 ∧ EndsAtBin t' r.2) {bn bn' : Binning} {area adj : ℝ} {C : Option (ℝ → ℝ)}
    {resurf1 resurf1' showall : Bool} {p p' : PlotData} (hp : plotData .cumulative bn t area adj C range resurf1 showall = .ok p)
    (hp' : plotData .cumulative bn' t' area adj C range resurf1' showall = .ok p') :
    p'.points = p.points ∧ p'.n = p.n ∧ p'.nEvent = p.nEvent := by
  have hcont := fun x hx => C03_bin_contents b hb off cs t ht x hx
  have hm : ∀ y, y ∈ nonEmpty t ↔ y ∈ t ∧ 0 < y.n := fun y => by rw [nonEmpty, List.mem_filter, decide_eq_true_eq]
  have hev : ∀ x ∈ nonEmpty t, x.ncumEvent = x.ncum := by
    intro x hx
    obtain ⟨_, _, _, _, _, _, _, _, _, g1, g2⟩ := hcont x ((hm x).1 hx).1
    rw [g1, g2, weightFrom, countFrom]
    have : ∀ l : List Crater, (∀ c ∈ l, c.2 = 1) → (l.map Prod.snd).sum = (l.length : ℝ) := by
      intro l hl
      induction l with
      | nil => simp
      | cons c l ih =>
        rw [List.map_cons, List.sum_cons, ih (fun c hc => hl c (List.mem_cons_of_mem _ hc)), hl c (by simp), List.length_cons]
        push_cast; ring
    rw [this _ (fun c hc => hone c (List.mem_of_mem_filter hc))]
  have hne' : nonEmpty t' = t' := by
    rw [nonEmpty, List.filter_eq_self]
    intro x hx
    simpa using h.positive x hx
  obtain ⟨g, hg⟩ : ∃ g : Bin → ℝ × ℝ × ℝ × ℝ, g = fun x => (x.dMin, x.n, x.nEvent, x.ncum) := ⟨_, rfl⟩
  have hsame : t'.map g = (nonEmpty t).map g := by rw [hg]; exact h.same
  -- the selected bins
  obtain ⟨s, hs⟩ : ∃ s, s = match range with | some r => (nonEmpty t).filter (inRange r showall) | none => nonEmpty t := ⟨_, rfl⟩
  obtain ⟨s', hs'⟩ : ∃ s, s = match range with | some r => (nonEmpty t').filter (inRange r showall) | none => nonEmpty t' := ⟨_, rfl⟩
  have hsel : s'.map g = s.map g := by
    cases range with
    | none => rw [hs, hs', hne']; exact hsame
    | some r =>
      dsimp only at hs hs'
      obtain ⟨r1, r2, r3⟩ := hr r rfl
      have r1' : StartsAtBin t (if showall then (0 : EReal) else r.1) := by
        cases showall with
        | false => exact r1
        | true =>
          refine Or.inr (fun y hy _ => ?_)
          rw [if_pos rfl]
          exact_mod_cast (hcont y hy).2.2.2.1.le
      obtain ⟨s1, s2⟩ := exported_starts h r1'
      obtain ⟨e1, e2⟩ := exported_ends h r2 r3
      obtain ⟨P, hP⟩ : ∃ P : ℝ × ℝ × ℝ × ℝ → Bool, P = fun p => decide ((if showall then (0 : EReal) else r.1) ≤ (p.1 : EReal)) &&
        decide ((p.1 : EReal) < r.2) := ⟨_, rfl⟩
      have k1 : (nonEmpty t).filter (inRange r showall) = (nonEmpty t).filter (P ∘ g) := by
        apply List.filter_congr
        intro x hx
        rw [inRange, hP, hg]
        simp only [Function.comp_apply, (starts_iff h.ordered h.inside s1 hx).1, (ends_at_iff h.ordered h.inside e1 hx).1]
      have k2 : t'.filter (inRange r showall) = t'.filter (P ∘ g) := by
        apply List.filter_congr
        intro x hx
        rw [inRange, hP, hg]
        simp only [Function.comp_apply, (starts_iff h.ordered' h.inside' s2 hx).1, (ends_at_iff h.ordered' h.inside' e2 hx).1]
      rw [hs, hs', hne', k1, k2, ← List.filter_map, ← List.filter_map, hsame]
  have hsub : ∀ x ∈ s, x ∈ nonEmpty t := by
    cases range with
    | none => rw [hs]; exact fun x hx => hx
    | some r => rw [hs]; exact fun x hx => List.mem_of_mem_filter hx
  have hsub' : ∀ x ∈ s', x ∈ t' := by
    cases range with
    | none => rw [hs', hne']; exact fun x hx => hx
    | some r => rw [hs', hne']; exact fun x hx => List.mem_of_mem_filter hx
  have hn : (s'.map Bin.n).sum = (s.map Bin.n).sum := by
    have := congrArg (fun l => (l.map (fun p : ℝ × ℝ × ℝ × ℝ => p.2.1)).sum) hsel
    simp only [List.map_map, hg] at this
    exact this
  have hne : (s'.map Bin.nEvent).sum = (s.map Bin.nEvent).sum := by
    have := congrArg (fun l => (l.map (fun p : ℝ × ℝ × ℝ × ℝ => p.2.2.1)).sum) hsel
    simp only [List.map_map, hg] at this
    exact this
  have hpts : s'.mapM (point .cumulative area adj C) = s.mapM (point .cumulative area adj C) := by
    obtain ⟨F, hF⟩ : ∃ F : ℝ × ℝ × ℝ × ℝ → Except Err Point, F = (fun p => (do
      let y ← fdiv p.2.2.2 area
      let e ← errBar (y + adj) p.2.2.2
      .ok ⟨p.1, y + adj, e⟩ : Except Err Point)) := by exact ⟨_, rfl⟩
    rw [mapM_pointwise s' g _ F (fun x hx => by rw [hg]; exact point_congr area adj C F hF x (h.events x (hsub' x hx))),
      mapM_pointwise s g _ F (fun x hx => by rw [hg]; exact point_congr area adj C F hF x (hev x (hsub x hx))), hsel]
  cases range with
  | none =>
    dsimp only at hs hs'
    unfold plotData at hp hp'
    rw [← hs] at hp
    rw [← hs'] at hp'
    dsimp only at hp hp'
    obtain ⟨pts, q1, q2⟩ := except_bind_eq_ok hp
    obtain ⟨pts', q1', q2'⟩ := except_bind_eq_ok hp'
    rw [hpts, q1] at q1'
    injection q1' with q1'
    subst q1'
    split at q2
    · split at q2'
      · injection q2 with q2
        injection q2' with q2'
        rw [← q2, ← q2']
        exact ⟨rfl, hn, hne⟩
      · cases q2'
    · cases q2
  | some r =>
    dsimp only at hs hs'
    unfold plotData at hp hp'
    dsimp only at hp hp'
    rw [← hs] at hp
    rw [← hs'] at hp'
    obtain ⟨pts, q1, q2⟩ := except_bind_eq_ok hp
    obtain ⟨pts', q1', q2'⟩ := except_bind_eq_ok hp'
    rw [hpts, q1] at q1'
    injection q1' with q1'
    subst q1'
    obtain ⟨br, _, q2⟩ := except_bind_eq_ok q2
    obtain ⟨br', _, q2'⟩ := except_bind_eq_ok q2'
    injection q2 with q2
    injection q2' with q2'
    rw [← q2, ← q2']
    exact ⟨rfl, hn, hne⟩

/-- **C148, cumulative plots.** A list of whole craters, written as .stat table and read back, has the points of the list, with their error bars,
in cumulative plots, with and without resurfacing correction, and the same crater numbers, for diameter ranges as in `C148_poisson_partial`
and without limits.  (The range of bins reported beside them may differ.) -/
theorem C148_cumulative_partial (b : Binning) (hb : b ≠ .none) (k : Reading.Count) (hone : ∀ c ∈ k.craters, c.2 = 1)
    (hk : k.prebinned = false) (harea : k.area ≠ 0) (t : List Bin) (ht : applyBinning b 0 k.craters = .ok t)
    (h2 : 2 ≤ (t.filter (fun x => decide (0 < x.n))).length) :
    ∃ t', readStat (statRows t k.area) = .ok (k.area, t') ∧ ∀ (a : PlotArgs) (p p' : PlotData), a.pr = .cumulative → a.binning = b →
      (∀ r, a.range = some r → StartsAtBin t r.1 ∧ EndsAtBin t r.2 ∧ EndsAtBin t' r.2) →
      ((object (.craters k)).getplotdata a).2 = .ok p → ((object (.table k.area t')).getplotdata a).2 = .ok p' →
      p'.points = p.points ∧ p'.n = p.n ∧ p'.nEvent = p.nEvent := by
  obtain ⟨t', h1, h⟩ := exported hb (fun c hc => by rw [hone c hc]; exact one_pos) ht k.area harea h2
  refine ⟨t', h1, ?_⟩
  intro a p p' hpr hbin hr hp hp'
  have hp : plotDataFull b t k.area a = .ok p := by
    have e : (object (.craters k)).ensure a.binning = .ok ⟨k.craters, k.area, false, some b, t⟩ := by
      rw [object, Obj.ensure, hk, if_neg (by simp), if_neg (by simp), hbin, ht]
      rfl
    unfold Obj.getplotdata at hp
    rw [e] at hp
    exact hp
  have hp' : plotDataFull .pseudoLog t' k.area a = .ok p' := hp'
  unfold plotDataFull at hp hp'
  obtain ⟨adj, g1, g2⟩ := except_bind_eq_ok hp
  obtain ⟨adj', g1', g2'⟩ := except_bind_eq_ok hp'
  have hadj : adj' = adj := by
    unfold adjOf at g1 g1'
    by_cases h0 : a.resurfacing = some 0
    · rw [if_pos h0] at g1 g1'
      injection g1 with g1
      injection g1' with g1'
      rw [← g1, ← g1']
    · rw [if_neg h0] at g1 g1'
      obtain ⟨q, u1, u2⟩ := except_bind_eq_ok g1
      obtain ⟨q', u1', u2'⟩ := except_bind_eq_ok g1'
      obtain ⟨v, _⟩ := cumulative_same hb hone ht h hr u1 u1'
      rw [v, u2] at u2'
      injection u2' with u2'
      exact u2'.symm
  rw [hadj, hpr] at g2'
  rw [hpr] at g2
  exact cumulative_same hb hone ht h hr g2 g2'

/-- **C148, cumulative fits.** The age of a cumulative fit to the exported table is that of the fit to the list of whole craters, with its
bounds, its density and its crater numbers. -/
theorem C148_fit_partial (b : Binning) (hb : b ≠ .none) (k : Reading.Count) (hone : ∀ c ∈ k.craters, c.2 = 1)
    (hk : k.prebinned = false) (harea : k.area ≠ 0) (t : List Bin) (ht : applyBinning b 0 k.craters = .ok t)
    (h2 : 2 ≤ (t.filter (fun x => decide (0 < x.n))).length) :
    ∃ t', readStat (statRows t k.area) = .ok (k.area, t') ∧ ∀ (pf : PFn) (c : Chron) (cf : CurveFit) (pfc : PF) (range : EReal × EReal)
      (resurf : Bool) (ref : ℝ) (r r' : FitAge), StartsAtBin t range.1 → EndsAtBin t range.2 → EndsAtBin t' range.2 →
      fitAge pf c cf pfc (object (.craters k)) .cFit b range resurf ref = .ok r →
      fitAge pf c cf pfc (object (.table k.area t')) .cFit b range resurf ref = .ok r' →
      r'.t = r.t ∧ r'.tLower = r.tLower ∧ r'.tUpper = r.tUpper ∧ r'.a0 = r.a0 ∧ r'.nd = r.nd ∧ r'.n = r.n ∧ r'.nEvent = r.nEvent := by
  obtain ⟨t', h1, h⟩ := C148_cumulative_partial b hb k hone hk harea t ht h2
  refine ⟨t', h1, ?_⟩
  intro pf c cf pfc range resurf ref r r' s1 s2 s3 hr hr'
  unfold fitAge at hr hr'
  dsimp only at hr hr'
  obtain ⟨p, p1, hr⟩ := except_bind_eq_ok hr
  obtain ⟨p', p1', hr'⟩ := except_bind_eq_ok hr'
  obtain ⟨e1, e2, e3⟩ := h (FitType.cFit.args b range resurf pfc) p p' rfl rfl
    (fun r hr => by injection hr with hr; rw [← hr]; exact ⟨s1, s2, s3⟩) p1 p1'
  obtain ⟨a0, q1, hr⟩ := except_bind_eq_ok hr
  obtain ⟨a0', q1', hr'⟩ := except_bind_eq_ok hr'
  rw [e1, q1] at q1'
  injection q1' with q1'
  subst q1'
  obtain ⟨u, q2, hr⟩ := except_bind_eq_ok hr
  obtain ⟨u', q2', hr'⟩ := except_bind_eq_ok hr'
  rw [q2] at q2'
  injection q2' with q2'
  subst q2'
  obtain ⟨v, q3, hr⟩ := except_bind_eq_ok hr
  obtain ⟨v', q3', hr'⟩ := except_bind_eq_ok hr'
  rw [q3] at q3'
  injection q3' with q3'
  subst q3'
  injection hr with hr
  injection hr' with hr'
  rw [← hr, ← hr']
  exact ⟨rfl, rfl, rfl, rfl, rfl, e2, e3⟩

/-! ### gaps -/

/-- **C148 is false for ranges ending at a gap.** Whenever a bin with craters is followed by an empty one, the craters of the bin are in the list
but not in the exported table, if the range ends with the bin: the table has no upper boundaries and the next bin with craters is taken as
the end. -/
theorem C148_gap_counterexample (b : Binning) (hb : b ≠ .none) (off : ℝ) (k : Reading.Count) (hfrac : ∀ c ∈ k.craters, 0 < c.2) (harea : k.area ≠ 0)
    (t q : List Bin) (ht : applyBinning b off k.craters = .ok t) (hq : q = t.filter (fun x => decide (0 < x.n))) (i : ℕ) (hi : i + 1 < q.length)
    (hgap : q[i].dMax < q[i + 1].dMin) (pf : PFn) (c : Chron) (simpson : Simpson) (ref : ℝ) (h0 : pf.range.1 ≤ q[i].dMin) (h1 : q[i].dMax ≤ pf.range.2) :
    ∃ t', readStat (statRows t k.area) = .ok (k.area, t') ∧
      (∀ r, ageOf pf c simpson (.craters k) ((q[i].dMin : EReal), (q[i].dMax : EReal)) false ref = .ok r → 0 < r.n) ∧
      ∀ r, ageOf pf c simpson (.table k.area t') ((q[i].dMin : EReal), (q[i].dMax : EReal)) false ref = .ok r → r.n = 0 := by
  have hcont := fun x hx => C03_bin_contents b hb off k.craters t ht x hx
  obtain ⟨t', g1, h⟩ := exported hb hfrac ht k.area harea (by rw [nonEmpty, ← hq]; omega)
  have hq' : q = nonEmpty t := hq
  have hx := List.getElem_mem (l := q) (n := i) (by omega)
  have hxt : q[i] ∈ t ∧ 0 < q[i].n := by
    have : q[i] ∈ t.filter (fun x => decide (0 < x.n)) := hq ▸ hx
    rw [List.mem_filter, decide_eq_true_eq] at this
    exact this
  have hlt : q[i].dMin < q[i].dMax := (hcont _ hxt.1).2.2.1
  have clip_id : ∀ z : ℝ, pf.range.1 ≤ z → z ≤ pf.range.2 → clipE (z : EReal) pf.range.1 pf.range.2 = z := by
    intro z z1 z2
    unfold clipE
    rw [max_eq_left (by exact_mod_cast z1), min_eq_right (by exact_mod_cast z2)]
    exact EReal.toReal_coe z
  have c1 := clip_id q[i].dMin h0 (hlt.le.trans h1)
  have c2 := clip_id q[i].dMax (h0.trans hlt.le) h1
  have hn : ∀ o r, ageOf pf c simpson o ((q[i].dMin : EReal), (q[i].dMax : EReal)) false ref = .ok r →
      r.n = countK none (source o) q[i].dMin q[i].dMax := by
    intro o r hr
    unfold ageOf poissonAge at hr
    obtain ⟨pdf, e1, hr⟩ := except_bind_eq_ok hr
    dsimp only at hr
    obtain ⟨a0, _, hr⟩ := except_bind_eq_ok hr
    obtain ⟨nd, _, hr⟩ := except_bind_eq_ok hr
    injection hr with hr
    obtain ⟨_, _, _, _, _, B⟩ := built e1
    rw [← hr]
    show pdf.k = _
    rw [B.k_eq, c1, c2]
  refine ⟨t', g1, ?_, ?_⟩
  · intro r hr
    rw [hn _ r hr]
    obtain ⟨_, _, _, _, _, _, _, d1, _⟩ := hcont _ hxt.1
    have hw := hxt.2
    rw [d1, weightIn] at hw
    obtain ⟨cr, hcr⟩ := List.exists_mem_of_ne_nil (k.craters.filter (fun c => decide (q[i].dMin ≤ c.1 ∧ c.1 < q[i].dMax)))
      (by intro e; rw [e] at hw; simp at hw)
    rw [List.mem_filter, decide_eq_true_eq] at hcr
    have key : ∀ l : List ℝ, countK none ⟨some l, [], k.area, k.perimeter⟩ q[i].dMin q[i].dMax =
        ((l.filter (fun e => decide (q[i].dMin ≤ e ∧ e < q[i].dMax))).length : ℝ) := by
      intro l
      cases l with
      | nil => simp [countK]
      | cons d l => rfl
    rw [source, key]
    have : 0 < ((k.craters.map Prod.fst).filter (fun e => decide (q[i].dMin ≤ e ∧ e < q[i].dMax))).length :=
      List.length_pos_of_mem (a := cr.1) (by
        rw [List.mem_filter, decide_eq_true_eq]
        exact ⟨List.mem_map_of_mem hcr.1, hcr.2⟩)
    exact_mod_cast this
  · intro r hr
    rw [hn _ r hr]
    show ((t'.filter (fun x => decide (q[i].dMin ≤ x.dMin ∧ x.dMax ≤ q[i].dMax))).map Bin.nEvent).sum = 0
    have : t'.filter (fun x => decide (q[i].dMin ≤ x.dMin ∧ x.dMax ≤ q[i].dMax)) = [] := by
      rw [List.filter_eq_nil_iff]
      intro x hx' hc
      rw [decide_eq_true_eq] at hc
      have hmin : t'.map Bin.dMin = q.map Bin.dMin := by
        have := congrArg (List.map (fun p : ℝ × ℝ × ℝ × ℝ => p.1)) h.same
        rw [List.map_map, List.map_map, ← hq'] at this
        exact this
      have hlen : t'.length = q.length := by simpa using congrArg List.length hmin
      have hget : ∀ j (hj : j < q.length), t'[j].dMin = q[j].dMin := by
        intro j hj
        have : (t'.map Bin.dMin)[j]'(by simpa [hlen] using hj) = (q.map Bin.dMin)[j]'(by simpa using hj) := by simp only [hmin]
        simpa only [List.getElem_map] using this
      obtain ⟨j, hj, rfl⟩ := List.getElem_of_mem hx'
      have hj' : j < q.length := hlen ▸ hj
      have hord := h.ordered
      rw [← hq'] at hord
      rcases Nat.lt_or_ge i j with hij | hij
      · have h3 : q[i + 1].dMin ≤ q[j].dMin := by
          rcases Nat.lt_or_ge (i + 1) j with g | g
          · have := List.pairwise_iff_getElem.1 hord (i + 1) j hi hj' g
            have hl : q[i + 1].dMin < q[i + 1].dMax := by
              have := h.inside q[i + 1] (by rw [← hq']; exact List.getElem_mem _)
              exact this.1.trans this.2
            linarith
          · have : i + 1 = j := by omega
            subst this; exact le_rfl
        have h4 := h.inside' t'[j] (List.getElem_mem _)
        rw [hget j hj'] at h4
        linarith [hc.2]
      · rcases Nat.lt_or_ge j i with g | g
        · have h5 := List.pairwise_iff_getElem.1 hord j i hj' (by omega) g
          have h6 := h.inside q[j] (by rw [← hq']; exact List.getElem_mem _)
          have h7 := hc.1
          rw [hget j hj'] at h7
          linarith
        · have : j = i := by omega
          subst this
          have h8 := h.upper j (by omega)
          rw [hget (j + 1) hi] at h8
          linarith [hc.2]
    rw [this]
    rfl

/-- **C148 is false for other presentations.** Before every gap the exported table shows the bin at a greater diameter than the list, in every
presentation but the cumulative one. -/
theorem C148_presentation_counterexample (b : Binning) (hb : b ≠ .none) (k : Reading.Count) (hfrac : ∀ c ∈ k.craters, 0 < c.2)
    (hk : k.prebinned = false) (harea : k.area ≠ 0) (t q : List Bin) (ht : applyBinning b 0 k.craters = .ok t)
    (hq : q = t.filter (fun x => decide (0 < x.n))) (i : ℕ) (hi : i + 1 < q.length) (hgap : q[i].dMax < q[i + 1].dMin) :
    ∃ t', readStat (statRows t k.area) = .ok (k.area, t') ∧ ∀ (a : PlotArgs) (p p' : PlotData), a.pr ≠ .cumulative → a.binning = b → a.range = none →
      ((object (.craters k)).getplotdata a).2 = .ok p → ((object (.table k.area t')).getplotdata a).2 = .ok p' →
      p'.points.length = p.points.length ∧ ∃ x x', p.points[i]? = some x ∧ p'.points[i]? = some x' ∧ x.d < x'.d := by
  have hcont := fun x hx => C03_bin_contents b hb 0 k.craters t ht x hx
  obtain ⟨t', g1, h⟩ := exported hb hfrac ht k.area harea (by rw [nonEmpty, ← hq]; omega)
  have hq' : q = nonEmpty t := hq
  refine ⟨t', g1, ?_⟩
  intro a p p' hpr hbin hr hp hp'
  have hp : plotDataFull b t k.area a = .ok p := by
    have e : (object (.craters k)).ensure a.binning = .ok ⟨k.craters, k.area, false, some b, t⟩ := by
      rw [object, Obj.ensure, hk, if_neg (by simp), if_neg (by simp), hbin, ht]
      rfl
    unfold Obj.getplotdata at hp
    rw [e] at hp
    exact hp
  have hp' : plotDataFull .pseudoLog t' k.area a = .ok p' := hp'
  unfold plotDataFull at hp hp'
  obtain ⟨adj, _, u⟩ := except_bind_eq_ok hp
  obtain ⟨adj', _, u'⟩ := except_bind_eq_ok hp'
  rw [hr] at u u'
  obtain ⟨v, _⟩ := C06_no_range _ _ _ _ _ _ _ _ _ u
  obtain ⟨v', _⟩ := C06_no_range _ _ _ _ _ _ _ _ _ u'
  have hall : t'.filter (fun x => decide (0 < x.n)) = t' := by
    rw [List.filter_eq_self]
    intro x hx
    simpa using h.positive x hx
  rw [← hq] at v
  rw [hall] at v'
  have hmin : t'.map Bin.dMin = q.map Bin.dMin := by
    have := congrArg (List.map (fun p : ℝ × ℝ × ℝ × ℝ => p.1)) h.same
    rw [List.map_map, List.map_map, ← hq'] at this
    exact this
  have hlen : t'.length = q.length := by simpa using congrArg List.length hmin
  have hget : ∀ j (hj : j < q.length), t'[j].dMin = q[j].dMin := by
    intro j hj
    have : (t'.map Bin.dMin)[j]'(by simpa [hlen] using hj) = (q.map Bin.dMin)[j]'(by simpa using hj) := by simp only [hmin]
    simpa only [List.getElem_map] using this
  have l1 : p.points.length = q.length := by simpa using congrArg List.length v
  have l2 : p'.points.length = t'.length := by simpa using congrArg List.length v'
  refine ⟨by omega, p.points[i], p'.points[i], List.getElem?_eq_getElem _, List.getElem?_eq_getElem _, ?_⟩
  have w : (p.points[i]'(by omega)).d = plotDiameter a.pr (q[i]'(by omega)) := by
    have : (p.points.map Point.d)[i]'(by simp; omega) = (q.map (plotDiameter a.pr))[i]'(by simp; omega) := by simp only [v]
    simpa only [List.getElem_map] using this
  have w' : (p'.points[i]'(by omega)).d = plotDiameter a.pr (t'[i]'(by omega)) := by
    have : (p'.points.map Point.d)[i]'(by simp; omega) = (t'.map (plotDiameter a.pr))[i]'(by simp; omega) := by simp only [v']
    simpa only [List.getElem_map] using this
  rw [w, w', plotDiameter, plotDiameter, if_neg hpr, if_neg hpr, h.mean _ (List.getElem_mem _), h.upper i (by omega), hget i (by omega), hget (i + 1) hi]
  have hx : q[i] ∈ t := by
    have : q[i] ∈ nonEmpty t := by rw [← hq']; exact List.getElem_mem _
    exact List.mem_of_mem_filter this
  rw [(hcont _ hx).2.2.2.2.2.2.1, mul_comm]
  have hpos := (hcont _ hx).2.2.2.1
  have hlt := (hcont _ hx).2.2.1
  apply Real.sqrt_lt_sqrt (mul_nonneg hpos.le (hpos.le.trans hlt.le))
  exact mul_lt_mul_of_pos_left hgap hpos

/-- a list meeting the hypotheses of all theorems above: two craters, with empty bins between them, counted from the first bin to the second -/
theorem export_example : ∃ t q, applyBinning .pseudoLog 0 [((1 : ℝ), (1 : ℝ)), (100, 1)] = .ok t ∧ q = t.filter (fun x => decide (0 < x.n)) ∧
    ∃ h : 1 < q.length, q[0].dMax < q[1].dMin ∧ StartsAtBin t q[0].dMin ∧ EndsAtBin t q[1].dMin ∧
    ∀ t', readStat (statRows t 5) = .ok (5, t') → EndsAtBin t' q[1].dMin := by
  obtain ⟨t, ht, _⟩ := C01_binning_succeeds .pseudoLog [((1 : ℝ), (1 : ℝ)), (100, 1)] (by simp) (by simp) 0
  have key := fun x hx => C03_bin_contents .pseudoLog (by decide) 0 _ t ht x hx
  have hcons := (C02_conservation .pseudoLog 0 _ t ht).2
  have hmono := C03_cumulative_monotone .pseudoLog (by decide) 0 _ t ht
  have e10 : (gridOf .pseudoLog 0).Edge 10 := ⟨1, 1, by simp [pseudoLogMantissas], by norm_num⟩
  have e100 : (gridOf .pseudoLog 0).Edge 100 := ⟨2, 1, by simp [pseudoLogMantissas], by norm_num⟩
  have hn : ∀ x ∈ t, x.n = (if x.dMin ≤ 1 ∧ 1 < x.dMax then 1 else 0) + (if x.dMin ≤ 100 ∧ 100 < x.dMax then 1 else 0) := by
    intro x hx
    rw [(key x hx).2.2.2.2.2.2.2.1]
    by_cases h1 : x.dMin ≤ 1 ∧ 1 < x.dMax <;> by_cases h2 : x.dMin ≤ 100 ∧ 100 < x.dMax <;>
      simp [weightIn, List.filter_cons, h1, h2]
  have hone : ∀ x ∈ t, x.dMin ≤ 1 → x.dMax ≤ 10 := fun x hx h => (key x hx).2.2.2.2.1 10 e10 (by linarith)
  have hhun : ∀ x ∈ t, 100 < x.dMax → 100 ≤ x.dMin := by
    intro x hx h
    by_contra hc
    have := (key x hx).2.2.2.2.1 100 e100 (by linarith)
    linarith
  have hle : ∀ x ∈ t, x.n ≤ 1 := by
    intro x hx
    rw [hn x hx]
    by_cases h1 : x.dMin ≤ 1 ∧ 1 < x.dMax
    · have := hone x hx h1.1
      rw [if_pos h1, if_neg (fun h => by linarith [h.2])]
      norm_num
    · rw [if_neg h1]
      split <;> norm_num
  obtain ⟨q, hq⟩ : ∃ q, q = t.filter (fun x => decide (0 < x.n)) := ⟨_, rfl⟩
  have hm : ∀ y, y ∈ q ↔ y ∈ t ∧ 0 < y.n := fun y => by rw [hq, List.mem_filter, decide_eq_true_eq]
  have hsum : (q.map Bin.n).sum = 2 := by
    have : (q.map Bin.n).sum = (t.map Bin.n).sum := by
      rw [hq]
      apply nonEmpty_sum t Bin.n
      intro x hx h
      have h0 : 0 ≤ x.n := by rw [hn x hx]; positivity
      linarith [not_lt.1 h]
    rw [this, hcons]
    norm_num [weightAll]
  have hlen : 1 < q.length := by
    by_contra hc
    have : (q.map Bin.n).sum ≤ (q.map Bin.n).length • (1 : ℝ) := List.sum_le_card_nsmul _ _ (by
      intro w hw
      obtain ⟨x, hx, rfl⟩ := List.mem_map.1 hw
      exact hle x ((hm x).1 hx).1)
    rw [hsum, List.length_map, nsmul_eq_mul, mul_one] at this
    have h3 : (q.length : ℝ) ≤ 1 := by exact_mod_cast (by omega : q.length ≤ 1)
    linarith
  have hord : q.Pairwise (fun a b => a.dMax ≤ b.dMin) := by
    rw [hq]
    apply List.Pairwise.sublist List.filter_sublist
    rw [List.pairwise_iff_getElem]
    intro i j hi hj hij
    exact (hmono i j hij hj).1
  have h01 := List.pairwise_iff_getElem.1 hord 0 1 (by omega) hlen (by omega)
  have hor : ∀ x ∈ q, (x.dMin ≤ 1 ∧ 1 < x.dMax) ∨ (x.dMin ≤ 100 ∧ 100 < x.dMax) := by
    intro x hx
    have h1 := ((hm x).1 hx).2
    rw [hn x ((hm x).1 hx).1] at h1
    by_contra hc
    push Not at hc
    rw [if_neg (fun h => by linarith [hc.1 h.1, h.2]), if_neg (fun h => by linarith [hc.2 h.1, h.2])] at h1
    norm_num at h1
  have m0 : q[0] ∈ q := List.getElem_mem _
  have m1 : q[1] ∈ q := List.getElem_mem _
  have a1 : 100 < q[1].dMax := by
    rcases hor _ m1 with h | h
    · rcases hor _ m0 with g | g <;> linarith [h.1, h.2, g.1, g.2]
    · exact h.2
  have a2 := hhun _ ((hm _).1 m1).1 a1
  have a0 : q[0].dMin ≤ 1 := by
    rcases hor _ m0 with h | h
    · exact h.1
    · rcases hor _ m1 with g | g <;> linarith [h.1, h.2, g.1, g.2]
  have a3 := hone _ ((hm _).1 m0).1 a0
  refine ⟨t, q, ht, hq, hlen, by linarith, Or.inl ⟨q[0], ((hm _).1 m0).1, ((hm _).1 m0).2, rfl⟩,
    Or.inl ⟨q[1], ((hm _).1 m1).1, ((hm _).1 m1).2, rfl⟩, ?_⟩
  intro t' ht'
  obtain ⟨t'', g1, g2⟩ := exported (by decide) (by simp) ht 5 (by norm_num) (by rw [nonEmpty, ← hq]; omega)
  have : t' = t'' := by
    rw [ht'] at g1
    injection g1 with g1
    exact (Prod.mk.inj g1).2
  rw [this]
  exact ends_exported g2 q[1] ((hm _).1 m1).1 ((hm _).1 m1).2 rfl

end

end Verif.Props
