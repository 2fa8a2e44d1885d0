import Verif.Lemmas.Table
import Verif.Spec.Presentation

/-! Lemmas on selection and plot data. -/

namespace Verif.Cratercount
open Verif.Py Verif.Spec

theorem mapM_ok {α β ε : Type} (f : α → Except ε β) {l : List α} {r : List β} (h : l.mapM f = .ok r) :
    List.Forall₂ (fun a b => f a = .ok b) l r := by
  induction l generalizing r with
  | nil =>
    simp only [List.mapM_nil] at h
    have : r = [] := (Except.ok.inj h).symm
    subst this
    exact .nil
  | cons a l ih =>
    rw [List.mapM_cons] at h
    obtain ⟨b, hb, h⟩ := except_bind_eq_ok h
    obtain ⟨bs, hbs, h⟩ := except_bind_eq_ok h
    have : b :: bs = r := Except.ok.inj h
    subst this
    exact .cons hb (ih hbs)

theorem mapM_of_forall₂ {α β ε : Type} (f : α → Except ε β) {l : List α} {r : List β}
    (h : List.Forall₂ (fun a b => f a = .ok b) l r) : l.mapM f = .ok r := by
  induction h with
  | nil => rfl
  | cons h1 _ ih => rw [List.mapM_cons, h1, except_ok_bind, ih]; rfl

theorem filter_eq_slice {α : Type*} (p : α → Bool) (l : List α) (i e : ℕ) (hie : i ≤ e) (he : e ≤ l.length)
    (h : ∀ k (hk : k < l.length), p l[k] = true ↔ i ≤ k ∧ k < e) : l.filter p = slice l i e := by
  have h0 : l = l.take i ++ ((l.take e).drop i ++ l.drop e) := by
    rw [← List.append_assoc]
    have : l.take i ++ (l.take e).drop i = l.take e := by
      have h1 : (l.take e).take i = l.take i := by rw [List.take_take, min_eq_left hie]
      rw [← h1, List.take_append_drop]
    rw [this, List.take_append_drop]
  have h1 : (l.take i).filter p = [] := by
    rw [List.filter_eq_nil_iff]
    intro a ha
    obtain ⟨k, hk, rfl⟩ := List.mem_iff_getElem.1 ha
    simp only [List.length_take] at hk
    rw [List.getElem_take, h k (by omega)]
    omega
  have h2 : ((l.take e).drop i).filter p = (l.take e).drop i := by
    rw [List.filter_eq_self]
    intro a ha
    obtain ⟨k, hk, rfl⟩ := List.mem_iff_getElem.1 ha
    simp only [List.length_drop, List.length_take] at hk
    rw [List.getElem_drop, List.getElem_take, h (i + k) (by omega)]
    omega
  have h3 : (l.drop e).filter p = [] := by
    rw [List.filter_eq_nil_iff]
    intro a ha
    obtain ⟨k, hk, rfl⟩ := List.mem_iff_getElem.1 ha
    simp only [List.length_drop] at hk
    rw [List.getElem_drop, h (e + k) (by omega)]
    omega
  conv_lhs => rw [h0]
  rw [List.filter_append, List.filter_append, h1, h2, h3, List.nil_append, List.append_nil]
  rfl

theorem slice_sum (l : List ℝ) (i e : ℕ) (hie : i ≤ e) :
    (slice l i e).sum = (l.drop i).sum - (l.drop e).sum := by
  unfold slice
  rw [List.drop_take]
  have : (l.drop i).sum = ((l.drop i).take (e - i)).sum + (l.drop e).sum := by
    conv_lhs => rw [← List.take_append_drop (e - i) (l.drop i)]
    rw [List.sum_append, List.drop_drop]
    congr 3; omega
  linarith

theorem sqrt_between {lo hi : ℝ} (h0 : 0 < lo) (h1 : lo < hi) : lo < Real.sqrt (hi * lo) ∧ Real.sqrt (hi * lo) < hi := by
  constructor
  · rw [Real.lt_sqrt h0.le]; nlinarith
  · rw [Real.sqrt_lt' (by linarith)]; nlinarith

/-- columns of the table in terms of the grid -/
theorem table_cols {b : Binning} (h1 : b ≠ .none) {cs : List Crater} {off : ℝ} {t : List Bin}
    (h : applyBinning b off cs = .ok t) :
    ∃ (A : ℤ) (m : ℕ), 2 ≤ m ∧ t.length = m - 1 ∧ t = tableOf (gridList (gridFn b off) A m) cs ∧
      (∀ c ∈ cs, 0 < c.1 ∧ gridFn b off A ≤ c.1 ∧ c.1 < gridFn b off (A + (m - 1 : ℕ))) ∧
      ∀ i (hi : i < t.length), t[i].dMin = gridFn b off (A + i) ∧ t[i].dMax = gridFn b off (A + i + 1) ∧
        t[i].dMean = Real.sqrt (t[i].dMax * t[i].dMin) ∧ t[i].width = t[i].dMax - t[i].dMin ∧
        t[i].dMin < t[i].dMean ∧ t[i].dMean < t[i].dMax ∧ 0 < t[i].dMin := by
  obtain ⟨A, m, hm, _, rfl, hc⟩ := applyBinning_ok h1 h
  refine ⟨A, m, hm, by simp, rfl, hc, ?_⟩
  intro i hi
  have hi' : i + 1 < (gridList (gridFn b off) A m).length := by simp at hi ⊢; omega
  obtain ⟨e1, e2, e3, e4, _⟩ := tableOf_getElem (gridList (gridFn b off) A m) cs i hi hi'
  rw [gridList_getElem] at e1 e2
  have e2' : (tableOf (gridList (gridFn b off) A m) cs)[i].dMax = gridFn b off (A + i + 1) := by
    rw [e2]; congr 1; push_cast; ring
  have e4' : (tableOf (gridList (gridFn b off) A m) cs)[i].dMean =
      Real.sqrt ((tableOf (gridList (gridFn b off) A m) cs)[i].dMax *
        (tableOf (gridList (gridFn b off) A m) cs)[i].dMin) := by
    rw [e4, e1, e2, gridList_getElem, gridList_getElem]
  have hp := gridFn_pos b off (A + i)
  have hlt : gridFn b off (A + i) < gridFn b off (A + i + 1) := gridFn_strictMono h1 off (by omega)
  have hb := sqrt_between hp hlt
  refine ⟨e1, e2', e4', ?_, ?_, ?_, ?_⟩
  · rw [e3, e1, e2, gridList_getElem, gridList_getElem]
  · rw [e4', e1, e2']; exact hb.1
  · rw [e4', e1, e2']; exact hb.2
  · rw [e1]; exact hp

/-- bins of a table whose mean diameter is inside `(t[i].dMin, t[j].dMax)` are the bins `i..j` -/
theorem inside_iff {b : Binning} (h1 : b ≠ .none) {cs : List Crater} {off : ℝ} {t : List Bin}
    (h : applyBinning b off cs = .ok t) (i j : ℕ) (hi : i < t.length) (hj : j < t.length) (k : ℕ) (hk : k < t.length) :
    (t[i].dMin < t[k].dMean ↔ i ≤ k) ∧ (t[k].dMean < t[j].dMax ↔ k ≤ j) := by
  obtain ⟨A, m, hm, hlen, _, _, hcol⟩ := table_cols h1 h
  obtain ⟨a1, a2, _⟩ := hcol i hi
  obtain ⟨b1, b2, _⟩ := hcol j hj
  obtain ⟨c1, c2, _, _, c5, c6, _⟩ := hcol k hk
  have hmono := gridFn_strictMono h1 off
  constructor
  · constructor
    · intro hlt
      by_contra hc
      have : t[k].dMax ≤ t[i].dMin := by
        rw [c2, a1]; exact hmono.monotone (by omega)
      linarith
    · intro hle
      have : t[i].dMin ≤ t[k].dMin := by
        rw [c1, a1]; exact hmono.monotone (by omega)
      linarith
  · constructor
    · intro hlt
      by_contra hc
      have : t[j].dMax ≤ t[k].dMin := by
        rw [c1, b2]; exact hmono.monotone (by omega)
      linarith
    · intro hle
      have : t[k].dMax ≤ t[j].dMax := by
        rw [c2, b2]; exact hmono.monotone (by omega)
      linarith

theorem weightFrom_sub (cs : List Crater) {lo hi : ℝ} (h : lo ≤ hi) :
    weightFrom cs lo - weightFrom cs hi = weightIn cs lo hi := by
  unfold weightFrom weightIn
  rw [filter_map_sum, filter_map_sum, filter_map_sum, sub_eq_iff_eq_add, ← List.sum_map_add]
  congr 1
  apply List.map_congr_left
  intro c _
  simp only [decide_eq_true_eq]
  by_cases h1 : lo ≤ c.1
  · by_cases h2 : c.1 < hi
    · simp [h1, h2, not_le.2 h2]
    · simp [h1, h2, not_lt.1 h2]
  · have : ¬ hi ≤ c.1 := fun h' => h1 (h.trans h')
    simp [h1, this]

theorem countFrom_sub (cs : List Crater) {lo hi : ℝ} (h : lo ≤ hi) :
    (countFrom cs lo : ℝ) - countFrom cs hi = countIn cs lo hi := by
  have := weightFrom_sub (cs.map fun c => (c.1, (1 : ℝ))) h
  unfold weightFrom weightIn at this
  rw [count_eq cs (fun x => decide (lo ≤ x)), count_eq cs (fun x => decide (hi ≤ x)),
    count_eq cs (fun x => decide (lo ≤ x ∧ x < hi))] at this
  exact this

/-- the `n` and `nEvent` columns are histograms -/
theorem table_n_cols (edges : List ℝ) (cs : List Crater) :
    (tableOf edges cs).map Bin.n = histogram cs edges ∧
    (tableOf edges cs).map Bin.nEvent = histogram (cs.map fun c => (c.1, (1 : ℝ))) edges := by
  constructor
  · apply List.ext_getElem
    · simp
    · intro i h1 h2
      have hi : i + 1 < edges.length := by simp at h2; omega
      rw [List.getElem_map]
      exact (tableOf_getElem edges cs i (by simpa using h1) hi).2.2.2.2.1
  · apply List.ext_getElem
    · simp
    · intro i h1 h2
      have hi : i + 1 < edges.length := by simp at h2; omega
      rw [List.getElem_map]
      exact (tableOf_getElem edges cs i (by simpa using h1) hi).2.2.2.2.2.1

theorem drop_sum_eq (edges : List ℝ) (hs : edges.Pairwise (· < ·)) (cs : List Crater) (i : ℕ) (hi : i < edges.length)
    (hlast : ∀ c ∈ cs, c.1 < edges[edges.length - 1]) :
    ((histogram cs edges).drop i).sum = weightFrom cs edges[i] ∧
    ((histogram (cs.map fun c => (c.1, (1 : ℝ))) edges).drop i).sum = countFrom cs edges[i] := by
  have hl2 : ∀ p ∈ (cs.map fun c => (c.1, (1 : ℝ))), p.1 < edges[edges.length - 1] := by
    intro p hp
    obtain ⟨c, hc, rfl⟩ := List.mem_map.1 hp
    exact hlast c hc
  by_cases h : i + 1 < edges.length
  · constructor
    · rw [histogram_suffix cs edges hs i h hlast]; rfl
    · rw [histogram_suffix _ edges hs i h hl2]
      exact count_eq cs (fun x => decide (edges[i] ≤ x))
  · have e : i = edges.length - 1 := by omega
    subst e
    have h0 : cs.filter (fun c => decide (edges[edges.length - 1] ≤ c.1)) = [] := by
      rw [List.filter_eq_nil_iff]
      intro c hc
      simpa using hlast c hc
    constructor
    · rw [List.drop_of_length_le (by simp)]
      simp [weightFrom, h0]
    · rw [List.drop_of_length_le (by simp)]
      simp [countFrom, h0]

/-- dropping rows with `n = 0` changes no sum, provided the summed column vanishes there -/
theorem nonEmpty_sum (l : List Bin) (f : Bin → ℝ) (h : ∀ x ∈ l, ¬ 0 < x.n → f x = 0) :
    ((nonEmpty l).map f).sum = (l.map f).sum := by
  induction l with
  | nil => simp [nonEmpty]
  | cons x l ih =>
    have ih' := ih (fun y hy => h y (List.mem_cons_of_mem _ hy))
    unfold nonEmpty at ih' ⊢
    by_cases hx : 0 < x.n
    · simp [hx, ih']
    · simp [hx, ih', h x (by simp) hx]

theorem weightIn_pos_iff (cs : List Crater) (hpos : ∀ c ∈ cs, 0 < c.2) (lo hi : ℝ) (h : ¬ 0 < weightIn cs lo hi) :
    weightIn cs lo hi = 0 ∧ countIn cs lo hi = 0 := by
  have hf : cs.filter (fun c => decide (lo ≤ c.1 ∧ c.1 < hi)) = [] := by
    by_contra hc
    obtain ⟨c, hcm⟩ := List.exists_mem_of_ne_nil _ hc
    apply h
    unfold weightIn
    apply List.sum_pos
    · intro w hw
      obtain ⟨c', hc', rfl⟩ := List.mem_map.1 hw
      exact hpos c' (List.mem_of_mem_filter hc')
    · simpa using hc
  unfold weightIn countIn
  rw [hf]
  simp

/-- complete description of the plotted value of one bin -/
def PointOK (pr : Presentation) (area adj : ℝ) (C : Option (ℝ → ℝ)) (x : Bin) (p : Point) : Prop :=
  match pr with
  | .cumulative => area ≠ 0 ∧ 0 < x.ncumEvent ∧ p.d = x.dMin ∧ p.y = x.ncum / area + adj ∧
      p.err = p.y / Real.sqrt x.ncumEvent
  | .incremental => area ≠ 0 ∧ 0 < x.nEvent ∧ p.d = x.dMean ∧ p.y = x.n / area ∧ p.err = p.y / Real.sqrt x.nEvent
  | .hartmann => area ≠ 0 ∧ x.width ≠ 0 ∧ 0 < x.nEvent ∧ p.d = x.dMean ∧
      p.y = x.n / x.width / area * x.dMean * (Real.sqrt 2 - 1) ∧ p.err = p.y / Real.sqrt x.nEvent
  | .differential => area ≠ 0 ∧ x.width ≠ 0 ∧ 0 < x.nEvent ∧ x.dMin ≠ 0 ∧ p.d = x.dMean ∧
      binBiasCorrection ((x.dMean / x.dMin) ^ 2) (slopeK C ((x.dMean / x.dMin) ^ 2) x.dMean) ≠ 0 ∧
      p.y = x.n / x.width / area /
        binBiasCorrection ((x.dMean / x.dMin) ^ 2) (slopeK C ((x.dMean / x.dMin) ^ 2) x.dMean) ∧
      p.err = x.n / x.width / area / Real.sqrt x.nEvent
  | .rplot => area ≠ 0 ∧ x.width ≠ 0 ∧ 0 < x.nEvent ∧ p.d = x.dMean ∧
      p.y = x.dMean ^ 3 * x.n / x.width / area ∧ p.err = p.y / Real.sqrt x.nEvent
  | .other => False

theorem fdiv_ok {x y z : ℝ} : fdiv x y = .ok z ↔ y ≠ 0 ∧ z = x / y := by
  unfold fdiv
  by_cases h : y = 0
  · simp [h]
  · simp [h, eq_comm]

theorem errBar_ok {x y z : ℝ} : errBar x y = .ok z ↔ 0 < y ∧ z = x / Real.sqrt y := by
  unfold errBar
  by_cases h : y ≤ 0
  · simp [h, not_lt.2 h]
  · simp [h, not_le.1 h, eq_comm]

theorem bind_ok_iff {ε α β : Type} {x : Except ε α} {f : α → Except ε β} {b : β} :
    (x >>= f) = .ok b ↔ ∃ a, x = .ok a ∧ f a = .ok b := by
  constructor
  · exact except_bind_eq_ok
  · rintro ⟨a, rfl, h⟩; exact h

theorem point_iff (pr : Presentation) (area adj : ℝ) (C : Option (ℝ → ℝ)) (x : Bin) (p : Point) :
    point pr area adj C x = .ok p ↔ PointOK pr area adj C x p := by
  obtain ⟨pd, py, pe⟩ := p
  cases pr with
  | cumulative =>
    simp only [point, bind_ok_iff, fdiv_ok, errBar_ok, Except.ok.injEq, Point.mk.injEq, PointOK]
    constructor
    · rintro ⟨_, ⟨h1, rfl⟩, _, ⟨h2, rfl⟩, rfl, rfl, rfl⟩; exact ⟨h1, h2, rfl, rfl, rfl⟩
    · rintro ⟨h1, h2, rfl, rfl, rfl⟩; exact ⟨_, ⟨h1, rfl⟩, _, ⟨h2, rfl⟩, rfl, rfl, rfl⟩
  | incremental =>
    simp only [point, bind_ok_iff, fdiv_ok, errBar_ok, Except.ok.injEq, Point.mk.injEq, PointOK]
    constructor
    · rintro ⟨_, ⟨h1, rfl⟩, _, ⟨h2, rfl⟩, rfl, rfl, rfl⟩; exact ⟨h1, h2, rfl, rfl, rfl⟩
    · rintro ⟨h1, h2, rfl, rfl, rfl⟩; exact ⟨_, ⟨h1, rfl⟩, _, ⟨h2, rfl⟩, rfl, rfl, rfl⟩
  | hartmann =>
    simp only [point, bind_ok_iff, fdiv_ok, errBar_ok, Except.ok.injEq, Point.mk.injEq, PointOK]
    constructor
    · rintro ⟨_, ⟨h1, rfl⟩, _, ⟨h2, rfl⟩, _, ⟨h3, rfl⟩, rfl, rfl, rfl⟩; exact ⟨h2, h1, h3, rfl, rfl, rfl⟩
    · rintro ⟨h2, h1, h3, rfl, rfl, rfl⟩; exact ⟨_, ⟨h1, rfl⟩, _, ⟨h2, rfl⟩, _, ⟨h3, rfl⟩, rfl, rfl, rfl⟩
  | differential =>
    simp only [point, bind_ok_iff, fdiv_ok, errBar_ok, Except.ok.injEq, Point.mk.injEq, PointOK]
    constructor
    · rintro ⟨_, ⟨h1, rfl⟩, _, ⟨h2, rfl⟩, _, ⟨h3, rfl⟩, _, ⟨h4, rfl⟩, _, ⟨h5, rfl⟩, rfl, rfl, rfl⟩
      exact ⟨h2, h1, h3, h4, rfl, h5, rfl, rfl⟩
    · rintro ⟨h2, h1, h3, h4, rfl, h5, rfl, rfl⟩
      exact ⟨_, ⟨h1, rfl⟩, _, ⟨h2, rfl⟩, _, ⟨h3, rfl⟩, _, ⟨h4, rfl⟩, _, ⟨h5, rfl⟩, rfl, rfl, rfl⟩
  | rplot =>
    simp only [point, bind_ok_iff, fdiv_ok, errBar_ok, Except.ok.injEq, Point.mk.injEq, PointOK]
    constructor
    · rintro ⟨_, ⟨h1, rfl⟩, _, ⟨h2, rfl⟩, _, ⟨h3, rfl⟩, rfl, rfl, rfl⟩; exact ⟨h2, h1, h3, rfl, rfl, rfl⟩
    · rintro ⟨h2, h1, h3, rfl, rfl, rfl⟩; exact ⟨_, ⟨h1, rfl⟩, _, ⟨h2, rfl⟩, _, ⟨h3, rfl⟩, rfl, rfl, rfl⟩
  | other => simp [point, PointOK]

theorem pointOK_d {pr : Presentation} {area adj : ℝ} {C : Option (ℝ → ℝ)} {x : Bin} {p : Point}
    (h : PointOK pr area adj C x p) : p.d = plotDiameter pr x := by
  cases pr <;> simp only [PointOK] at h <;> simp [plotDiameter, h]

theorem plotData_ok {pr : Presentation} {bn : Binning} {t : List Bin} {area adj : ℝ} {C : Option (ℝ → ℝ)}
    {range : Option (EReal × EReal)} {resurf1 showall : Bool} {pd : PlotData}
    (h : plotData pr bn t area adj C range resurf1 showall = .ok pd) :
    List.Forall₂ (PointOK pr area adj C) (selected t range showall) pd.points ∧
    pd.n = ((selected t range showall).map Bin.n).sum ∧
    pd.nEvent = ((selected t range showall).map Bin.nEvent).sum ∧
    (∀ r, range = some r → binRangeOf bn t r resurf1 = .ok pd.binRange) := by
  cases range with
  | some r =>
    have hsel : (nonEmpty t).filter (inRange r showall) = selected t (some r) showall := by
      simp only [nonEmpty, List.filter_filter, selected, inRange]
      apply List.filter_congr
      intro x _
      by_cases h0 : 0 < x.n <;> simp [h0]
    simp only [plotData, hsel, bind_ok_iff, Except.ok.injEq] at h
    obtain ⟨pts, hp, br, hbr, rfl⟩ := h
    refine ⟨?_, rfl, rfl, ?_⟩
    · exact (mapM_ok _ hp).imp fun a b h => (point_iff pr area adj C a b).1 h
    · intro r' hr; cases hr; exact hbr
  | none =>
    have hsel : nonEmpty t = selected t Option.none showall := rfl
    simp only [plotData, bind_ok_iff] at h
    obtain ⟨pts, hp, h⟩ := h
    split at h
    · have h := Except.ok.inj h
      subst h
      rw [hsel] at hp
      refine ⟨?_, rfl, rfl, by intro r hr; cases hr⟩
      exact (mapM_ok _ hp).imp fun a b h => (point_iff pr area adj C a b).1 h
    · cases h

theorem forall₂_map_eq {α β γ : Type*} {R : α → β → Prop} {f : α → γ} {g : β → γ} {l : List α} {r : List β}
    (h : List.Forall₂ R l r) (hfg : ∀ a b, R a b → f a = g b) : l.map f = r.map g := by
  induction h with
  | nil => rfl
  | cons h1 _ ih => simp [hfg _ _ h1, ih]

theorem binBias_neg3 {beta : ℝ} (hb : 1 < beta) : binBiasCorrection beta (-3) = (beta + 1 + 1 / beta) / 3 := by
  have h0 : 0 < beta := by linarith
  set s := Real.sqrt beta with hs
  have hs0 : 0 < s := Real.sqrt_pos.2 h0
  have hss : s * s = beta := Real.mul_self_sqrt h0.le
  have e1 : beta ^ (0.5 : ℝ) = s := by rw [hs, Real.sqrt_eq_rpow]; norm_num
  have e2 : beta ^ (-0.5 : ℝ) = 1 / s := by
    rw [Real.rpow_neg h0.le, e1, one_div]
  have e3 : beta ^ (-(-3 : ℝ) / 2) = s ^ 3 := by
    have : (-(-3 : ℝ) / 2) = 0.5 * (3 : ℕ) := by norm_num
    rw [this, Real.rpow_mul h0.le, e1, Real.rpow_natCast]
  have e4 : beta ^ ((-3 : ℝ) / 2) = 1 / s ^ 3 := by
    have : ((-3 : ℝ) / 2) = -(-(-3 : ℝ) / 2) := by norm_num
    rw [this, Real.rpow_neg h0.le, e3, one_div]
  have hk : ¬ |(-3 : ℝ)| < 0.00001 := by norm_num
  simp only [binBiasCorrection, hk, if_false, e1, e2, e3, e4]
  have hs1 : 1 < s := by rw [hs, Real.lt_sqrt (by norm_num)]; simpa using hb
  have hne : s - 1 / s ≠ 0 := by
    have : 1 / s < 1 := by rw [div_lt_one hs0]; exact hs1
    linarith
  have hne' : s ^ 2 - 1 ≠ 0 := by nlinarith
  rw [← hss]
  field_simp
  ring

/-- cumulative numbers are suffix sums of the bin numbers -/
def SuffixSums : List Bin → Prop
  | [] => True
  | x :: l => x.ncum = ((x :: l).map Bin.n).sum ∧ SuffixSums l

theorem suffixSums_of_getElem (l : List Bin) (h : ∀ i (hi : i < l.length), l[i].ncum = ((l.map Bin.n).drop i).sum) :
    SuffixSums l := by
  induction l with
  | nil => trivial
  | cons x l ih =>
    refine ⟨by have h0 := h 0 (by simp); simp only [List.drop_zero] at h0; exact h0, ih ?_⟩
    intro i hi
    have := h (i + 1) (by simp; omega)
    simpa using this

theorem suffixSums_filter (l : List Bin) (h : SuffixSums l) (hz : ∀ x ∈ l, ¬ 0 < x.n → x.n = 0) :
    SuffixSums (nonEmpty l) := by
  induction l with
  | nil => trivial
  | cons x l ih =>
    have ih' := ih h.2 (fun y hy => hz y (List.mem_cons_of_mem _ hy))
    have hsum := nonEmpty_sum (x :: l) Bin.n hz
    by_cases hx : 0 < x.n
    · have e : nonEmpty (x :: l) = x :: nonEmpty l := by simp [nonEmpty, hx]
      rw [e] at hsum ⊢
      exact ⟨by rw [hsum]; exact h.1, ih'⟩
    · have e : nonEmpty (x :: l) = nonEmpty l := by simp [nonEmpty, hx]
      rw [e]; exact ih'

theorem suffixSums_succ (l : List Bin) (h : SuffixSums l) (i : ℕ) (hi : i < l.length) :
    l[i].ncum = l[i].n + (if h' : i + 1 < l.length then l[i + 1].ncum else 0) := by
  induction l generalizing i with
  | nil => simp at hi
  | cons x l ih =>
    cases i with
    | zero =>
      cases l with
      | nil => simpa using h.1
      | cons y l =>
        have h1 := h.1
        have h2 := h.2.1
        simp only [List.map_cons, List.sum_cons] at h1 h2
        simp only [List.getElem_cons_zero, List.getElem_cons_succ, List.length_cons, Nat.zero_add, Nat.lt_add_left_iff_pos,
          Nat.succ_pos, dif_pos, h1, h2]
    | succ i =>
      have := ih h.2 i (by simpa using hi)
      simpa using this

theorem table_suffixSums {b : Binning} {off : ℝ} {cs : List Crater} {t : List Bin}
    (h : applyBinning b off cs = .ok t) : SuffixSums t := by
  apply suffixSums_of_getElem
  intro i hi
  by_cases hb : b = .none
  · simp only [applyBinning, hb, if_true] at h
    split at h
    · cases h
    · have ht : tableNone cs = t := Except.ok.inj h
      subst ht
      have hi' : i < (cs.mergeSort craterLe).length := by simpa using hi
      have e : (tableNone cs).map Bin.n = (cs.mergeSort craterLe).map Prod.snd := by
        apply List.ext_getElem
        · simp
        · intro k h1 h2
          rw [List.getElem_map, List.getElem_map, tableNone_getElem cs k (by simpa using h1) (by simpa using h2)]
      rw [e, tableNone_getElem cs i hi hi', List.map_drop]
  · obtain ⟨A, m, hm, hlen, hte, hcr, hcol⟩ := table_cols hb h
    subst hte
    have hl : i + 1 < (gridList (gridFn b off) A m).length := by simp; omega
    rw [(table_n_cols _ cs).1]
    have hx := tableOf_getElem (gridList (gridFn b off) A m) cs i hi hl
    rw [hx.2.2.2.2.2.2.1]

theorem nonEmpty_zero {b : Binning} {off : ℝ} {cs : List Crater} (hfrac : ∀ c ∈ cs, 0 < c.2) {t : List Bin}
    (h : applyBinning b off cs = .ok t) : ∀ x ∈ t, ¬ 0 < x.n → x.n = 0 := by
  intro x hx hn
  by_cases hb : b = .none
  · exfalso; apply hn
    simp only [applyBinning, hb, if_true] at h
    split at h
    · cases h
    · have ht : tableNone cs = t := Except.ok.inj h
      subst ht
      obtain ⟨i, hi, rfl⟩ := List.getElem_of_mem hx
      have hi' : i < (cs.mergeSort craterLe).length := by simpa using hi
      rw [tableNone_getElem cs i hi hi']
      apply hfrac
      exact (List.mergeSort_perm cs craterLe).subset (List.getElem_mem hi')
  · obtain ⟨A, m, hm, _, rfl, hcr⟩ := applyBinning_ok hb h
    obtain ⟨i, hi, _, _, _, _, e1, _⟩ := tableOf_spec _ (gridList_sorted (gridFn_strictMono hb off) A m) cs
      (by intro c hc hh; rw [gridList_last hm]; exact (hcr c hc).2.2) x hx
    rw [e1] at hn ⊢
    exact (weightIn_pos_iff cs hfrac _ _ hn).1

theorem gridFn_step {b : Binning} (h1 : b ≠ .none) (off : ℝ) (k : ℤ) :
    gridFn b off k * (10 : ℝ) ^ (0.002 : ℝ) < gridFn b off (k + 1) := by
  have hpl : (10 : ℝ) ^ (0.002 : ℝ) < 1.05 := by
    have h2 : ((10 : ℝ) ^ (0.002 : ℝ)) ^ (50 : ℕ) < (1.05 : ℝ) ^ (50 : ℕ) := by
      rw [← Real.rpow_natCast, ← Real.rpow_mul (by norm_num)]
      have : ((10 : ℝ) ^ ((0.002 : ℝ) * (50 : ℕ))) < 11 / 10 * 2 := by
        have h3 : ((10 : ℝ) ^ ((0.002 : ℝ) * (50 : ℕ))) ^ (10 : ℕ) < (11 / 10 * 2 : ℝ) ^ (10 : ℕ) := by
          rw [← Real.rpow_natCast, ← Real.rpow_mul (by norm_num)]
          norm_num
        exact lt_of_pow_lt_pow_left₀ 10 (by norm_num) h3
      refine this.trans (by norm_num)
    exact lt_of_pow_lt_pow_left₀ 50 (by norm_num) h2
  unfold gridFn
  split
  · have := plGrid_step k
    have hp := plGrid_pos k
    nlinarith
  · next hp =>
    unfold geoGrid
    rw [← Real.rpow_add (by norm_num), pow10_lt]
    have hb0 := binsPerDecade_pos h1 hp
    have hlt : (0.002 : ℝ) < 1 / binsPerDecade b := by
      rw [lt_div_iff₀ hb0]
      have hl2 : (0.3 : ℝ) < log10 2 := by
        unfold log10
        rw [Real.lt_logb_iff_rpow_lt (by norm_num) (by norm_num)]
        have : ((10 : ℝ) ^ (0.3 : ℝ)) ^ (10 : ℕ) < 2 ^ (10 : ℕ) := by
          rw [← Real.rpow_natCast, ← Real.rpow_mul (by norm_num)]
          norm_num
        exact lt_of_pow_lt_pow_left₀ 10 (by norm_num) this
      have hl : ∀ c : ℝ, 0 < c → c < 100 → 0.002 * (c / log10 2) < 1 := by
        intro c hc hc2
        rw [← mul_div_assoc, div_lt_one (by linarith)]
        linarith
      cases b with
      | none => exact absurd rfl h1
      | pseudoLog => exact absurd rfl hp
      | perDecade20 => norm_num [binsPerDecade]
      | perDecade10 => norm_num [binsPerDecade]
      | x2 => exact hl 1 (by norm_num) (by norm_num)
      | root2 => exact hl 2 (by norm_num) (by norm_num)
      | root4 => exact hl 4 (by norm_num) (by norm_num)
    have e : ((k + 1 : ℤ) : ℝ) - off = ((k : ℝ) - off) + 1 := by push_cast; ring
    rw [e, add_div]
    linarith

/-- `generate_bins` on a range of two grid boundaries gives back exactly these -/
theorem generateBins_aligned {b : Binning} (h1 : b ≠ .none) (off : ℝ) (i j : ℤ) (hij : i < j) :
    ∃ m : ℕ, 2 ≤ m ∧ i + (m - 1 : ℕ) = j ∧
      generateBins b [gridFn b off i, gridFn b off j] off false = .ok (gridList (gridFn b off) i m) := by
  have hmono := gridFn_strictMono h1 off
  have hpi := gridFn_pos b off i
  have hpj := gridFn_pos b off j
  have hlt := hmono hij
  have hr : rangeOf [gridFn b off i, gridFn b off j] = some (gridFn b off i, gridFn b off j) := by
    simp [rangeOf, hlt.le]
  have hstep1 := gridFn_step h1 off i
  have hstep2 := gridFn_step h1 off (j - 1)
  rw [sub_add_cancel] at hstep2
  have hep : (1 : ℝ) < (10 : ℝ) ^ (0.001 : ℝ) := Real.one_lt_rpow (by norm_num) (by norm_num)
  have he2 : (10 : ℝ) ^ (0.002 : ℝ) = (10 : ℝ) ^ (0.001 : ℝ) * (10 : ℝ) ^ (0.001 : ℝ) := by
    rw [← Real.rpow_add (by norm_num)]; norm_num
  set ep := (10 : ℝ) ^ (0.001 : ℝ) with hepd
  have e0 : (10 : ℝ) ^ (log10 (gridFn b off i) + 0.001) = gridFn b off i * ep := by
    rw [Real.rpow_add (by norm_num), pow10_log10 hpi]
  have e1 : (10 : ℝ) ^ (log10 (gridFn b off j) - 0.001) = gridFn b off j / ep := by
    rw [Real.rpow_sub (by norm_num), pow10_log10 hpj]
  have hij1 : gridFn b off (i + 1) ≤ gridFn b off j := hmono.monotone (by omega)
  have h01 : log10 (gridFn b off i) + 0.001 < log10 (gridFn b off j) - 0.001 := by
    rw [← pow10_lt, e0, e1, lt_div_iff₀ (by linarith)]
    rw [he2] at hstep1
    nlinarith
  obtain ⟨A, m, hm, e, k1, k2, k3, k4⟩ := generate_grid h1 off _ _ h01
  rw [e0] at k1 k3
  rw [e1] at k2 k4
  rw [he2] at hstep1 hstep2
  have hmul : ∀ k : ℤ, gridFn b off k * ep < gridFn b off k * (ep * ep) := by
    intro k
    have hk := gridFn_pos b off k
    have : 0 < gridFn b off k * ep := by positivity
    nlinarith
  have hA : A = i := by
    have a1 : A ≤ i := by
      by_contra hc
      have := hmono.monotone (show i + 1 ≤ A by omega)
      have := hmul i
      linarith
    have a2 : i ≤ A := by
      by_contra hc
      have := hmono.monotone (show A + 1 ≤ i by omega)
      nlinarith
    omega
  have hB : A + (m - 1 : ℕ) = j := by
    rw [div_le_iff₀ (by linarith)] at k2
    rw [lt_div_iff₀ (by linarith)] at k4
    have hp1 := gridFn_pos b off (j - 1)
    have hp2 := gridFn_pos b off (A + (m - 1 : ℕ))
    have hp3 := gridFn_pos b off (A + (m - 1 : ℕ) - 1)
    have a1 : j ≤ A + (m - 1 : ℕ) := by
      by_contra hc
      have := hmono.monotone (show A + (m - 1 : ℕ) ≤ j - 1 by omega)
      have := hmul (j - 1)
      nlinarith
    have a2 : A + (m - 1 : ℕ) ≤ j := by
      by_contra hc
      have := hmono.monotone (show j ≤ A + (m - 1 : ℕ) - 1 by omega)
      nlinarith
    omega
  refine ⟨m, hm, by rw [← hA]; exact hB, ?_⟩
  rw [hA] at e
  simp only [generateBins, h1, if_false, hr, not_le.2 hpi, Bool.false_eq_true]
  rw [e]

end Verif.Cratercount
