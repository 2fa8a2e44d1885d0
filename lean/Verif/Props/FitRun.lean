import Verif.Props.EpochRun
import Verif.Props.StatAge

/-!
C156: the fits to the cumulative distribution in the table of ages of a command.
-/

namespace Verif.Props

open Verif.Spec Verif.Py Verif.Text Verif.Rand Verif.Cli Verif.PlotObject Verif.Epochs Verif.EpochPlot
open Verif.CountFile Verif.Cratercount Verif.Chronology Verif.Production Verif.Craterpdf Verif.Age Verif.FileAge Verif.RunAges Verif.FunctionRun Verif.EpochRun

noncomputable section

/-- Specification: two neighbouring edges of a grid -/
def NextEdges (G : Grid) (e e' : ℝ) : Prop := G.Edge e ∧ G.Edge e' ∧ e < e' ∧ ∀ x, G.Edge x → e < x → e' ≤ x

/-- Specification: the bins of a fit, in increasing order: the bins of the grid which contain craters and whose geometric mean is inside the range of diameters -/
structure FitBins (G : Grid) (cs : List (ℝ × ℝ)) (r : EReal × EReal) (l : List (ℝ × ℝ)) : Prop where
  sorted : l.Pairwise (fun x y => x.1 < y.1)
  bins : ∀ x, x ∈ l ↔ NextEdges G x.1 x.2 ∧ 0 < weightIn cs x.1 x.2 ∧ r.1 < ((Real.sqrt (x.1 * x.2) : ℝ) : EReal) ∧ ((Real.sqrt (x.1 * x.2) : ℝ) : EReal) < r.2

/-- Specification: the deviation of the craters per area from the curve with logarithm `α` at 1 km: the squares of the differences of the logarithms at the lower edges of the
bins, weighted with the craters per area -/
def fitDeviation (cs : List (ℝ × ℝ)) (area : ℝ) (κ : ℝ → ℝ) (l : List (ℝ × ℝ)) (α : ℝ) : ℝ :=
  (l.map (fun x => weightFrom cs x.1 / area * (Real.logb 10 (weightFrom cs x.1 / area) - (α + Real.logb 10 (κ x.1))) ^ 2)).sum

/-- Specification: the age given for a density `n` at 1 km: in [0,5] Ga, and less than 5 Ma (the step of the table of ages) below the age at which the chronology gives the
density, or 5 Ga beyond -/
def AgeNear (p0 p1 p3 n x : ℝ) : Prop :=
  0 ≤ x ∧ x ≤ 5 ∧ ∀ τ : ℝ, 0 ≤ τ → p0 * (Real.exp (p1 * τ) - 1) + p3 * τ = n → (τ ≤ 5 → x ≤ τ ∧ τ - 5 / 999 < x) ∧ (5 ≤ τ → x = 5)

theorem forall₂_mapped {α β : Type} {R : α → β → Prop} {l1 : List α} {l2 : List β} (h : List.Forall₂ R l1 l2) (g : α → β)
    (hg : ∀ a ∈ l1, ∀ b, R a b → b = g a) : l2 = l1.map g := by
  induction h with
  | nil => rfl
  | cons h1 _ ih =>
    rw [List.map_cons, ← hg _ List.mem_cons_self _ h1, ← ih (fun a ha => hg a (List.mem_cons_of_mem _ ha))]

/-- the bins selected are those of the specification -/
theorem selected_bins {b : Binning} (hb : b ≠ .none) {cs : List Crater} (hfrac : ∀ c ∈ cs, 0 < c.2) {t : List Bin} (ht : applyBinning b 0 cs = .ok t) (r : EReal × EReal) :
    FitBins (gridOf b 0) cs r ((Verif.Spec.selected t (some r) false).map (fun x => (x.dMin, x.dMax))) := by
  have hcont := fun x hx => C03_bin_contents b hb 0 cs t ht x hx
  obtain ⟨A, m, hm, hlen, _, hcr, hcol⟩ := table_cols hb ht
  have hmono := gridFn_strictMono hb (0 : ℝ)
  have hpw : t.Pairwise (fun x y => x.dMin < y.dMin) := by
    rw [List.pairwise_iff_getElem]
    intro i j hi hj hij
    rw [(hcol i hi).1, (hcol j hj).1]
    exact hmono (by omega)
  have hmem : ∀ x, x ∈ Verif.Spec.selected t (some r) false ↔ x ∈ t ∧ 0 < x.n ∧ r.1 < (x.dMean : EReal) ∧ (x.dMean : EReal) < r.2 := by
    intro x
    simp [Verif.Spec.selected]
  constructor
  · rw [List.pairwise_map]
    exact hpw.sublist List.filter_sublist
  · rintro ⟨e, e'⟩
    rw [List.mem_map]
    constructor
    · rintro ⟨x, hx, he⟩
      rw [Prod.mk.injEq] at he
      obtain ⟨rfl, rfl⟩ := he
      obtain ⟨h1, h2, h3, h4⟩ := (hmem x).1 hx
      obtain ⟨d1, d2, d3, d4, d5, d6, d7, d8, _⟩ := hcont x h1
      rw [d7, mul_comm] at h3 h4
      exact ⟨⟨d1, d2, d3, d5⟩, by rw [← d8]; exact h2, h3, h4⟩
    · rintro ⟨⟨g1, g2, g3, g4⟩, hw, hr1, hr2⟩
      dsimp only at g1 g2 g3 g4 hw hr1 hr2
      have hex : ∃ c ∈ cs, e ≤ c.1 ∧ c.1 < e' := by
        by_contra hno
        push Not at hno
        have : cs.filter (fun c => decide (e ≤ c.1 ∧ c.1 < e')) = [] := by
          rw [List.filter_eq_nil_iff]
          intro c hc
          simp only [decide_eq_true_eq, not_and, not_lt]
          exact hno c hc
        rw [weightIn, this] at hw
        simp at hw
      obtain ⟨c, hc, c1, c2⟩ := hex
      obtain ⟨i, hi⟩ := (edge_iff hb 0 e).1 g1
      have hA := hcr c hc
      have l1 : A ≤ i := by
        by_contra hlt
        push Not at hlt
        have : e' ≤ gridFn b 0 A := g4 _ ((edge_iff hb 0 _).2 ⟨A, rfl⟩) (by rw [hi]; exact hmono hlt)
        linarith [hA.2.1]
      have l2 : i < A + (m - 1 : ℕ) := by
        have h : gridFn b 0 i < gridFn b 0 (A + (m - 1 : ℕ)) := by
          rw [← hi]
          exact lt_of_le_of_lt c1 hA.2.2
        exact hmono.lt_iff_lt.1 h
      obtain ⟨k, hik⟩ := Int.eq_ofNat_of_zero_le (show 0 ≤ i - A by omega)
      obtain rfl : i = A + (k : ℤ) := by omega
      have hk : k < t.length := by omega
      obtain ⟨q1, q2, _⟩ := hcol k hk
      have e1 : t[k].dMin = e := by rw [q1, hi]
      obtain ⟨d1, d2, d3, d4, d5, d6, d7, d8, _⟩ := hcont t[k] (List.getElem_mem hk)
      have e2 : t[k].dMax = e' := le_antisymm (d5 e' g2 (by rw [e1]; exact g3)) (g4 _ d2 (by rw [← e1]; exact d3))
      refine ⟨t[k], (hmem _).2 ⟨List.getElem_mem hk, ?_, ?_, ?_⟩, by rw [e1, e2]⟩
      · rw [d8, e1, e2]; exact hw
      · rw [d7, e1, e2, mul_comm]; exact hr1
      · rw [d7, e1, e2, mul_comm]; exact hr2

theorem bin_weight {b : Binning} (hb : b ≠ .none) {cs : List Crater} (hfrac : ∀ c ∈ cs, 0 < c.2) {t : List Bin} (ht : applyBinning b 0 cs = .ok t) {x : Bin} (hx : x ∈ t)
    (hn : 0 < x.n) : 0 < weightFrom cs x.dMin := by
  obtain ⟨_, _, hlt, _, _, _, _, d5, _⟩ := C03_bin_contents b hb 0 cs t ht x hx
  have hsub := weightFrom_sub cs hlt.le
  have h0 : 0 ≤ weightFrom cs x.dMax := by
    unfold weightFrom
    apply List.sum_nonneg
    intro y hy
    obtain ⟨c, hc, rfl⟩ := List.mem_map.1 hy
    exact (hfrac c (List.mem_filter.1 hc).1).le
  rw [d5] at hn
  linarith

/-- **C156, a list of craters.** A fit to the cumulative distribution of a list of craters, without correction for resurfacing: the density found is the only one for which the craters per area
deviate least from the curve of the production function, over the bins with craters in the range; the bounds are those of the number of craters of at least the diameter of
the first bin; the ages are those of the chronology; the numbers are those of the craters in the bins. -/
theorem C156_fit (f : PFn) (hf : Constructed f) (c : Chron) (p0 p1 p3 : ℝ) (hc : GoodChron c p0 p1 p3) (cf : CurveFit) (hcf : CurveFitSpec cf) (pfc : PF)
    (κ : ℝ → ℝ) (hκ : ∀ d, 0 < d → ∀ a : ℝ, f.C d a = .ok (10 ^ a * κ d)) (k : Reading.Count) (hpre : k.prebinned = false) (harea : 0 < k.area)
    (cs : List Crater) (hperm : k.craters.Perm cs) (hfrac : ∀ c ∈ cs, 0 < c.2) (b : Binning) (hb : b ≠ .none) (r : EReal × EReal) (ref : ℝ) (res : FitAge)
    (h : Verif.Age.fitAge f c cf pfc (object (.craters k)) .cFit b r false ref = .ok res) :
    ∃ first rest lo hi tlo thi, FitBins (gridOf b 0) cs r (first :: rest) ∧
      (∀ α, α ≠ res.a0.best → fitDeviation cs k.area κ (first :: rest) res.a0.best < fitDeviation cs k.area κ (first :: rest) α) ∧
      res.a0.lower = .ok lo ∧ res.a0.upper = .ok hi ∧
      lo = res.a0.best + Real.logb 10 (1 - 0.98 / Real.sqrt (countFrom cs first.1)) ∧ hi = res.a0.best + Real.logb 10 (1 + 0.98 / Real.sqrt (countFrom cs first.1)) ∧
      res.tLower = .ok tlo ∧ res.tUpper = .ok thi ∧
      AgeNear p0 p1 p3 (10 ^ res.a0.best) res.t ∧ AgeNear p0 p1 p3 (10 ^ lo) tlo ∧ AgeNear p0 p1 p3 (10 ^ hi) thi ∧
      res.n = ((first :: rest).map (fun x => weightIn cs x.1 x.2)).sum ∧ res.nEvent = (((first :: rest).map (fun x => countIn cs x.1 x.2)).sum : ℕ) := by
  unfold Verif.Age.fitAge at h
  dsimp only at h
  obtain ⟨pd, p1', h⟩ := except_bind_eq_ok h
  obtain ⟨a0, q1, h⟩ := except_bind_eq_ok h
  obtain ⟨t0, q2, h⟩ := except_bind_eq_ok h
  obtain ⟨nd, _, h⟩ := except_bind_eq_ok h
  injection h with h
  obtain ⟨t, ht, hpd⟩ : ∃ t, applyBinning b 0 k.craters = .ok t ∧ plotData .cumulative b t k.area 0 (some pfc.C0) (some r) false false = .ok pd := by
    unfold Obj.getplotdata at p1'
    have hens : (object (.craters k)).ensure b = (applyBinning b 0 k.craters >>= fun t => .ok ⟨k.craters, k.area, false, some b, t⟩) := by
      simp [Obj.ensure, object, hpre]
    rw [show (FitType.cFit.args b r false pfc).binning = b from rfl, hens] at p1'
    cases hab : applyBinning b 0 k.craters with
    | error e => rw [hab] at p1'; cases p1'
    | ok t =>
      rw [hab] at p1'
      refine ⟨t, rfl, ?_⟩
      exact p1'
  rw [C04_order_irrelevant b 0 _ _ hperm] at ht
  obtain ⟨g1, g2, g3, _⟩ := plotData_ok hpd
  have hcont := fun x hx => C03_bin_contents b hb 0 cs t ht x hx
  have hbins := selected_bins hb hfrac ht r
  set S := Verif.Spec.selected t (some r) false with hS
  have hsel : ∀ x ∈ S, x ∈ t ∧ 0 < x.n := by
    intro x hx
    simp only [hS, Verif.Spec.selected, List.mem_filter, decide_eq_true_eq] at hx
    exact ⟨hx.1, hx.2.1⟩
  set y : ℝ → ℝ := fun e => weightFrom cs e / k.area with hy
  have hpts : pd.points = S.map (fun x => (⟨x.dMin, y x.dMin, y x.dMin / Real.sqrt (countFrom cs x.dMin)⟩ : Point)) := by
    refine forall₂_mapped g1 _ ?_
    rintro x hx ⟨pd, py, pe⟩ ⟨_, _, e1, e2, e3⟩
    obtain ⟨_, _, _, _, _, _, _, _, _, d7, d8⟩ := hcont x (hsel x hx).1
    dsimp only at e1 e2 e3
    rw [d7, add_zero] at e2
    rw [d8] at e3
    subst e1
    subst e2
    subst e3
    rfl
  have hypos : ∀ x ∈ S, 0 < y x.dMin := fun x hx => div_pos (bin_weight hb hfrac ht (hsel x hx).1 (hsel x hx).2) harea
  have hdpos : ∀ x ∈ S, 0 < x.dMin := fun x hx => (hcont x (hsel x hx).1).2.2.2.1
  have hκ0 : ∀ d, 0 < d → 0 < κ d := by
    intro d hd
    obtain ⟨K, hK⟩ := C20_cumulative_applies f
    obtain ⟨k1, k2⟩ := hK d 0 hd
    have k3 := hκ d hd 0
    rw [show FitKind.cumulative.curve f d 0 = f.C d 0 from rfl, k3] at k1
    injection k1 with k1
    rw [Real.rpow_zero, one_mul] at k1
    rw [k1]
    exact k2
  cases hSe : S with
  | nil =>
    rw [hpts, hSe] at q1
    cases q1
  | cons x0 S' =>
    have hx0 : x0 ∈ S := by rw [hSe]; exact List.mem_cons_self
    have hhead : pd.points.head? = some (⟨x0.dMin, y x0.dMin, y x0.dMin / Real.sqrt (countFrom cs x0.dMin)⟩ : Point) := by rw [hpts, hSe]; rfl
    have hmemp : ∀ p ∈ pd.points, ∃ x ∈ S, p.d = x.dMin ∧ p.y = y x.dMin := by
      intro p hp
      rw [hpts, List.mem_map] at hp
      obtain ⟨x, hx, rfl⟩ := hp
      exact ⟨x, hx, rfl, rfl⟩
    obtain ⟨K, hKdef⟩ : ∃ K : ℝ → ℝ → ℝ, ∀ d a, K d a = 10 ^ a * κ d := ⟨fun d a => 10 ^ a * κ d, fun _ _ => rfl⟩
    have hK : ∀ p ∈ pd.points, ∀ a, FitKind.cumulative.curve f p.d a = .ok (K p.d a) ∧ 0 < K p.d a := by
      intro p hp a
      obtain ⟨x, hx, e1, _⟩ := hmemp p hp
      rw [e1, hKdef]
      exact ⟨hκ _ (hdpos x hx) a, mul_pos (pow10_pos a) (hκ0 _ (hdpos x hx))⟩
    have hyp : ∀ p ∈ pd.points, 0 < p.y := by
      intro p hp
      obtain ⟨x, hx, _, e2⟩ := hmemp p hp
      rw [e2]
      exact hypos x hx
    obtain ⟨a0', w1, w2, w3, w4, _⟩ := fit_eq f hf cf hcf .cumulative K pd.points _ hhead hK hyp hyp
    obtain ⟨a0'', v1, v2⟩ := C20_fit_minimises f hf cf hcf .cumulative K pd.points (by rw [hpts, hSe]; simp) hK hyp hyp
    have hw : f.fit cf FitKind.cumulative.pr pd.points = .ok a0 := q1
    rw [hw] at w1 v1
    injection w1 with w1
    injection v1 with v1
    subst w1
    subst v1
    have hM : (1 : ℝ) ≤ countFrom cs x0.dMin := by
      have : 0 < countFrom cs x0.dMin := by
        rw [countFrom, List.length_pos_iff]
        intro hnil
        have := hypos x0 hx0
        rw [hy] at this
        dsimp only at this
        rw [weightFrom, hnil] at this
        simp at this
      exact_mod_cast this
    set M : ℝ := (countFrom cs x0.dMin : ℝ) with hMdef
    have hs1 : 1 ≤ Real.sqrt M := by rw [show (1 : ℝ) = Real.sqrt 1 by simp]; exact Real.sqrt_le_sqrt hM
    have hq : 0.98 / Real.sqrt M < 1 := by rw [div_lt_one (by linarith)]; norm_num; linarith
    have hq0 : 0 < 0.98 / Real.sqrt M := by positivity
    have hy0 := hypos x0 hx0
    have elo : a0.lower = .ok (a0.best + Real.logb 10 (1 - 0.98 / Real.sqrt M)) := by
      rw [w3]
      have e : y x0.dMin - 0.98 * (y x0.dMin / Real.sqrt M) = y x0.dMin * (1 - 0.98 / Real.sqrt M) := by ring
      dsimp only
      rw [e, log10E_pos (mul_pos hy0 (by linarith)), except_ok_bind, log10_mul hy0 (by linarith)]
      congr 1
      unfold log10
      ring
    have ehi : a0.upper = .ok (a0.best + Real.logb 10 (1 + 0.98 / Real.sqrt M)) := by
      rw [w4]
      have e : y x0.dMin + 0.98 * (y x0.dMin / Real.sqrt M) = y x0.dMin * (1 + 0.98 / Real.sqrt M) := by ring
      dsimp only
      rw [e, log10E_pos (mul_pos hy0 (by linarith)), except_ok_bind, log10_mul hy0 (by linarith)]
      congr 1
      unfold log10
      ring
    obtain ⟨p, c0, c1, c2, c3, c4, c5, c6⟩ := hc
    obtain ⟨age, _, b2, b3, _, _, b6, _, b8⟩ := C15_age_inversion p c c0 p0 p1 p3 c1 c2 c3 c4 c5 c6
    have hN : ∀ τ, c.N1 τ = .ok (p0 * (Real.exp (p1 * τ) - 1) + p3 * τ) := by
      intro τ
      obtain ⟨hp, _, _⟩ := init_tables c0 c1 c2 c3
      simp only [Chron.N1, hp, coeffs_ok c1 c2 c3, except_ok_bind, n1Coeff]
    have hage : ∀ n, AgeNear p0 p1 p3 n (age n) := by
      intro n
      refine ⟨(b3 n).1, (b3 n).2, ?_⟩
      rintro τ hτ rfl
      exact ⟨fun h5 => b6 τ hτ h5 _ (hN τ), fun h5 => b8 τ h5 _ (hN τ)⟩
    have et : t0 = age (10 ^ a0.best) := by
      rw [b2] at q2
      injection q2 with q2
      exact q2.symm
    have hl : S.map (fun x : Bin => (x.dMin, x.dMax)) = (x0.dMin, x0.dMax) :: S'.map (fun x : Bin => (x.dMin, x.dMax)) := by rw [hSe]; rfl
    rw [hl] at hbins
    rw [← h]
    dsimp only
    refine ⟨(x0.dMin, x0.dMax), S'.map (fun x : Bin => (x.dMin, x.dMax)), _, _, age _, age _, hbins, ?_, elo, ehi, rfl, rfl,
      by rw [elo]; exact b2 _ none, by rw [ehi]; exact b2 _ none, by rw [et]; exact hage _, hage _, hage _, ?_, ?_⟩
    · intro α hα
      have hdev : ∀ α, objective .cumulative K pd.points α = fitDeviation cs k.area κ ((x0.dMin, x0.dMax) :: S'.map (fun x => (x.dMin, x.dMax))) α := by
        intro α
        have e : (x0.dMin, x0.dMax) :: S'.map (fun x => (x.dMin, x.dMax)) = S.map (fun x => (x.dMin, x.dMax)) := by rw [hSe]; rfl
        rw [e, objective, fitDeviation, hpts, List.map_map, List.map_map]
        congr 1
        refine List.map_congr_left ?_
        intro x hx
        simp only [Function.comp, FitKind.weight]
        rw [hKdef, log10_mul (pow10_pos α) (hκ0 _ (hdpos x hx)), log10_pow10]
        rfl
      rw [← hdev, ← hdev]
      exact v2 α hα
    · have e : (x0.dMin, x0.dMax) :: S'.map (fun x => (x.dMin, x.dMax)) = S.map (fun x => (x.dMin, x.dMax)) := by rw [hSe]; rfl
      rw [e, g2, List.map_map]
      congr 1
      refine List.map_congr_left ?_
      intro x hx
      exact (hcont x (hsel x hx).1).2.2.2.2.2.2.2.1
    · have e : (x0.dMin, x0.dMax) :: S'.map (fun x => (x.dMin, x.dMax)) = S.map (fun x => (x.dMin, x.dMax)) := by rw [hSe]; rfl
      rw [e, g3, List.map_map, Nat.cast_list_sum, List.map_map]
      congr 1
      refine List.map_congr_left ?_
      intro x hx
      exact (hcont x (hsel x hx).1).2.2.2.2.2.2.2.2.1

/-- **C156, existence.** Every list of craters with an area can be fitted over its whole range of diameters, with a production function which has a value at 1 km. -/
theorem C156_exists (f : PFn) (hf : Constructed f) (hev1 : ∃ n, f.evaluate .cumulative 1 none = .ok n) (c : Chron) (cf : CurveFit) (hcf : CurveFitSpec cf) (pfc : PF)
    (k : Reading.Count) (hpre : k.prebinned = false) (harea : 0 < k.area) (hne : k.craters ≠ []) (hpos : ∀ c ∈ k.craters, 0 < c.1) (hfrac : ∀ c ∈ k.craters, 0 < c.2)
    (b : Binning) (hb : b ≠ .none) : ∃ res lo hi, Verif.Age.fitAge f c cf pfc (object (.craters k)) .cFit b (0, ⊤) false 1 = .ok res ∧
      res.binRange = (((lo : ℝ) : EReal), ((hi : ℝ) : EReal)) := by
  obtain ⟨t, ht, htne⟩ := C01_binning_succeeds b k.craters hne hpos 0
  have hl : 0 < t.length := List.length_pos_iff.2 htne
  obtain ⟨pts, hpts⟩ := mapM_succeeds (point .cumulative k.area 0 (some pfc.C0))
    ((nonEmpty t).filter (inRange (0, ⊤) false)) (by
      intro x hx
      have h1 := (List.mem_filter.1 hx).1
      unfold nonEmpty at h1
      rw [List.mem_filter] at h1
      exact point_succeeds .cumulative (by simp) b hb 0 _ hfrac t ht k.area 0 harea x h1.1 (by simpa using h1.2))
  have h1 := binRangeOf_open b hb _ t ht 0 (t.length - 1) (by omega) (by omega) 0 ⊤ false (by simp) (by simp)
  obtain ⟨pd, hpd⟩ : ∃ pd, plotData .cumulative b t k.area 0 (some pfc.C0) (some (0, ⊤)) false false = .ok pd := by
    simp only [plotData, hpts, h1, except_ok_bind]
    exact ⟨_, rfl⟩
  have hbr : pd.binRange = ((t[0].dMin : EReal), (t[t.length - 1].dMax : EReal)) :=
    C68_open_ends b hb _ t ht 0 (t.length - 1) (by omega) (by omega) 0 ⊤ false (by simp) (by simp) _ _ _ _ _ pd hpd
  have hget : ((object (.craters k)).getplotdata (FitType.cFit.args b (0, ⊤) false pfc)).2 = .ok pd := by
    unfold Obj.getplotdata
    have hens : (object (.craters k)).ensure b = .ok ⟨k.craters, k.area, false, some b, t⟩ := by
      simp [Obj.ensure, object, hpre, ht]
    rw [show (FitType.cFit.args b (0, ⊤) false pfc).binning = b from rfl, hens]
    exact hpd
  have hpne : pd.points ≠ [] := by
    obtain ⟨g1, _⟩ := plotData_ok hpd
    obtain ⟨cr, hcr⟩ := List.exists_mem_of_ne_nil _ hne
    obtain ⟨A, m, hm, hlen, _, hcr', hcol⟩ := table_cols hb ht
    have hmono := gridFn_strictMono hb (0 : ℝ)
    obtain ⟨x, hx, x1, x2⟩ : ∃ x ∈ t, x.dMin ≤ cr.1 ∧ cr.1 < x.dMax := by
      by_contra hno
      push Not at hno
      have key : ∀ j : ℕ, j ≤ m - 1 → gridFn b 0 (A + j) ≤ cr.1 := by
        intro j
        induction j with
        | zero => intro _; simpa using (hcr' cr hcr).2.1
        | succ j ih =>
          intro hj
          have hjt : j < t.length := by omega
          obtain ⟨e1, e2, _⟩ := hcol j hjt
          have := hno t[j] (List.getElem_mem hjt) (by rw [e1]; exact ih (by omega))
          rw [e2] at this
          rw [show A + ((j + 1 : ℕ) : ℤ) = A + j + 1 by push_cast; ring]
          exact this
      exact absurd (hcr' cr hcr).2.2 (not_lt.2 (key (m - 1) le_rfl))
    obtain ⟨d1, d2, d3, d4, _, _, d7, d8, _⟩ := C03_bin_contents b hb 0 _ t ht x hx
    have hw : 0 < x.n := by
      rw [d8, weightIn]
      have hmem : cr ∈ k.craters.filter (fun c => decide (x.dMin ≤ c.1 ∧ c.1 < x.dMax)) := List.mem_filter.2 ⟨hcr, by simp [x1, x2]⟩
      have hle := List.single_le_sum (l := (k.craters.filter (fun c => decide (x.dMin ≤ c.1 ∧ c.1 < x.dMax))).map Prod.snd) (by
        intro y hy
        obtain ⟨c', hc', rfl⟩ := List.mem_map.1 hy
        exact (hfrac c' (List.mem_filter.1 hc').1).le) cr.2 (List.mem_map_of_mem hmem)
      exact lt_of_lt_of_le (hfrac cr hcr) hle
    have hsel : x ∈ Verif.Spec.selected t (some (0, ⊤)) false := by
      have hmean : 0 < x.dMean := by rw [d7]; exact Real.sqrt_pos.2 (mul_pos (by linarith) d4)
      simp only [Verif.Spec.selected, List.mem_filter, decide_eq_true_eq, Bool.false_eq_true, if_false]
      exact ⟨hx, hw, by exact_mod_cast hmean, EReal.coe_lt_top _⟩
    intro e
    rw [e] at g1
    have := g1.length_eq
    have hp := List.length_pos_of_mem hsel
    simp at this
    rw [this] at hp
    simp at hp
  obtain ⟨a0, _, _, hfit, _⟩ := C21_cumulative_fit f hf cf hcf b hb 0 k.craters hfrac t ht k.area harea _ _ _ _ pd hpd hpne
  obtain ⟨nd, hev⟩ : ∃ nd, densityAt f 1 [a0.best] = .ok nd := by
    obtain ⟨K, hK⟩ := C20_cumulative_applies f
    simp only [densityAt]
    by_cases h0 : a0.best = 0
    · obtain ⟨n, hn⟩ := hev1
      refine ⟨n, ?_⟩
      rw [← hn, h0]
      simp only [PFn.evaluate, if_true]
    · rw [(C18_evaluate_partial f .cumulative 1).1 a0.best _ h0 rfl]
      exact ⟨_, (hK 1 a0.best one_pos).1⟩
  obtain ⟨res, hr, ha⟩ := fitAge_ok (c := c) (k := .cFit) (b := b) (range := (0, ⊤)) (resurf := false) (pfc := pfc) (o := object (.craters k)) hget hfit hev
  refine ⟨res, t[0].dMin, t[t.length - 1].dMax, hr, ?_⟩
  unfold Verif.Age.fitAge at hr
  dsimp only at hr
  rw [hget, except_ok_bind] at hr
  obtain ⟨_, _, hr⟩ := except_bind_eq_ok hr
  obtain ⟨_, _, hr⟩ := except_bind_eq_ok hr
  obtain ⟨_, _, hr⟩ := except_bind_eq_ok hr
  injection hr with hr
  rw [← hr]
  exact hbr

theorem binning_name {b b' : Binning} (h : Binning.name b = Binning.name b') : b = b' := by
  cases b <;> cases b' <;> first | rfl | (revert h; decide +kernel)

/-- Specification: the craters of a list of diameters and fractions -/
def craterPairs (diam frac : List ℚ) : List (ℝ × ℝ) := (diam.zip frac).map (fun x => ((x.1 : ℝ), (x.2 : ℝ)))

/-- Specification: the fields of the row of a fit to the cumulative distribution: the default text of the sum of the fractions and the number of the craters in the bins, the age and its limits (3 digits), the logarithms of the
density and its limits (4 digits) and the densities (3 digits) -/
structure FitRow (T : TableRow.Env) (p0 p1 p3 : ℝ) (cs : List (ℝ × ℝ)) (first : ℝ × ℝ) (rest : List (ℝ × ℝ)) (α : ℝ) (f : List (List Char)) : Prop where
  fractions : f[7]? = some (T.floatStr ((first :: rest).map (fun x => weightIn cs x.1 x.2)).sum)
  craters : Field f 8 (fun s => decVal s = some ((((first :: rest).map (fun x => countIn cs x.1 x.2)).sum : ℕ) : ℚ))
  limits : ∃ t lo hi : ℝ, ∃ αlo αhi, αlo = α + Real.logb 10 (1 - 0.98 / Real.sqrt (countFrom cs first.1)) ∧ αhi = α + Real.logb 10 (1 + 0.98 / Real.sqrt (countFrom cs first.1)) ∧
    AgeNear p0 p1 p3 (10 ^ α) t ∧ AgeNear p0 p1 p3 (10 ^ αlo) lo ∧ AgeNear p0 p1 p3 (10 ^ αhi) hi ∧
    Field f 10 (Denotes 3 (T.ρ t)) ∧ Field f 11 (Denotes 3 (T.ρ lo)) ∧ Field f 12 (Denotes 3 (T.ρ hi)) ∧
    Field f 13 (Denotes 4 (T.ρ α)) ∧ Field f 14 (Denotes 4 (T.ρ αlo)) ∧ Field f 15 (Denotes 4 (T.ρ αhi)) ∧
    Field f 16 (Denotes 3 (T.ρ ((10 : ℝ) ^ α))) ∧ Field f 17 (Denotes 3 (T.ρ ((10 : ℝ) ^ αlo))) ∧ Field f 18 (Denotes 3 (T.ρ ((10 : ℝ) ^ αhi)))

/-- **C156, a command.** If the file given for a cumulative fit lists craters with their area, its row in the table of ages shows the density for which the craters per area deviate least from the curve of the production function
of the chronology system asked for, according to the list of functions, over the bins of the binning asked for with craters in the range asked for, with its bounds and the ages of the chronology. -/
theorem C156_command_partial (C : Classes) (isNeg : List Char → Bool) (F : FileSys) (cwd : List Char) (words : List (List Char))
    (l flat : List Given) (cwd' : List Char) (n : ℕ) (hw : CommandOf isNeg words l) (h : Expands C isNeg F cwd l flat cwd' n)
    (depth : ℕ) (hd : n ≤ depth) (E : List Char → RunEnv Opened (EReal × EReal)) (hE : ∀ d, (E d).set.classes = C)
    (hdec : (E cwd').decode = decodeOf) (hload : ∀ c, (E cwd').load [] ≠ .ok c)
    (v : TVal) (ds : List (List Char × TVal)) (hv : SourceOf C (.dict v) ds) (systems : List System)
    (hsys : List.Forall₂ SystemEntry (occurrences ds "chronology_system".toList) systems) (h2 : 2 ≤ systems.length)
    (hcn : 2 ≤ (occurrences ds "chronology".toList).length) (hpn : 2 ≤ (occurrences ds "production".toList).length)
    (hset : (E cwd').set.systems = systems) (hnl : ∀ s ∈ systems, '\n' ∉ s.name)
    (T : TableRow.Env) (hT : ∀ x, OneField (T.floatStr x)) (hcf : CurveFitSpec T.curveFit) (plotPF : PFn → PF) :
    ∃ st, runCommand C isNeg F depth cwd words = .ok st ∧ ∀ P out, prepareRun E st = .ok P → runTable C v T plotPF P = .ok out →
      ∃ i s, systems[i]? = some s ∧ (∀ (j : ℕ) s', j < i → systems[j]? = some s' → s'.name ≠ s.name) ∧
        SystemAsked (E cwd').set.lower (systems.map System.name) flat s.name ∧
        ∀ (p0 p1 p2 p3 : ℚ) more, 0 ≤ p0 → 0 ≤ p1 → 0 < p3 →
          ((∃ q qs r, FunctionsDefined ds s (p0 :: p1 :: p2 :: p3 :: more) (q :: qs) r) ∨ ∃ qs idx, TableDefined ds s (p0 :: p1 :: p2 :: p3 :: more) qs idx) →
        ∃ p input items, PresentedAs (E cwd').set.lower flat p ∧ InputOf flat input ∧
        List.Forall₂ (ItemsOf C) ((flat.filter (fun g => g.dest = "plot".toList)).map (fun g => g.values)) items ∧
        ∀ env : PlotEnv Opened, env = ⟨C, (E cwd').set.lower, (E cwd').path, (E cwd').isabs, input, p == "sequence".toList, (E cwd').load⟩ →
          PlainInput env → ∀ asks, AskedPlots env items asks → (∀ y ∈ agesAsked asks, FitsTable y.2) →
          ∀ (j : ℕ) q shp file diam frac a b, (agesAsked asks)[j]? = some (.cumulative, q) → q.resurf = 0 → String.ofList q.binning = Binning.name b → b ≠ .none →
            ListsCraters C file diam frac a → 0 < a → (∀ x ∈ frac, 0 < x) → (E cwd').load q.source = openCount C shp ".diam".toList file →
            ∃ t row c r first rest κ α, out = some t ∧ (split '\n' t)[3 + j]? = some row ∧ openCount C shp ".diam".toList file = .ok c ∧ RangeAsked c q r ∧
              FitBins (gridOf b 0) (craterPairs diam frac) r (first :: rest) ∧
              (∀ x ∈ first :: rest, CurveDefined ds s (p0 :: p1 :: p2 :: p3 :: more) x.1 (κ x.1)) ∧
              (∀ α', α' ≠ α → fitDeviation (craterPairs diam frac) a κ (first :: rest) α < fitDeviation (craterPairs diam frac) a κ (first :: rest) α') ∧
              (split ',' row)[0]? = some q.name ∧ Field (split ',' row) 1 (Denotes 5 (T.ρ (a : ℝ))) ∧ (split ',' row)[2]? = some q.binning ∧ (split ',' row)[5]? = some "c-fit".toList ∧
              FitRow T p0 p1 p3 (craterPairs diam frac) first rest α (split ',' row) := by
  have hlist := C153_list C v ds hv systems hsys h2
  obtain ⟨st, h1, hchoice⟩ := C153_system C isNeg F cwd words l flat cwd' n hw h depth hd E hE v systems hlist hset hnl T plotPF
  refine ⟨st, h1, fun P out hP hout => ?_⟩
  obtain ⟨i, s, c, f, ref, mu, q2, q4, hask, _, _, hc, hf, htab⟩ := hchoice P out hP hout
  refine ⟨i, s, q2, q4, hask, ?_⟩
  intro p0 p1 p2 p3 more h0 h1' h3 hs
  obtain ⟨cids, hci, hcp⟩ : ChronologyDefined ds s (p0 :: p1 :: p2 :: p3 :: more) := by
    rcases hs with ⟨q, qs, r, hdef⟩ | ⟨qs, idx, hdef⟩
    · exact hdef.1
    · exact hdef.1
  have hgood := made_chron hv hcn hci hcp h0 h1' h3 hc
  set T' : TableRow.Env := { T with classes := C, chron := c, pf := f, plotPF := plotPF f, ref := ref, mu := mu } with hT'
  obtain ⟨st', h1'', htable⟩ := C152_table_partial C isNeg F cwd words l flat cwd' n hw h depth hd E hE hdec hload T' hT
  rw [h1] at h1''
  injection h1'' with h1''
  subst h1''
  obtain ⟨p, input, items, a1, a2, a3, hrows⟩ := htable P out hP htab
  refine ⟨p, input, items, a1, a2, a3, ?_⟩
  intro env henv hplain asks hasks hfits j q shp file diam frac a b hj hres hbin hb hlists ha hfr hopen
  have hne : agesAsked asks ≠ [] := by
    intro e
    rw [e] at hj
    simp at hj
  obtain ⟨t, fs, t1, _, _, hrow⟩ := (hrows env henv hplain asks hasks hfits).2 _ (List.getLast?_eq_some_getLast hne)
  obtain ⟨o, row, c0, r, range, r1, r2, r3, r4, r5, _, _, r8⟩ := hrow j _ q hj
  obtain ⟨k, k1, k2, k3, _, k5, k6, _⟩ := open_lists shp hlists
  rw [hopen, k1] at r3
  injection r3 with r3
  subst r3
  obtain ⟨b', res, b1, b2, b3, b4, b5, b6, b7, b8, b9, b10, _⟩ := r5
  have hbb : b' = b := binning_name (b1.trans hbin)
  subst hbb
  have hcurve : ∀ d : ℝ, ∃ y, 0 < d → CurveDefined ds s (p0 :: p1 :: p2 :: p3 :: more) d y := by
    intro d
    by_cases hd : 0 < d
    · obtain ⟨y, hy⟩ := (curve_made (p := p0 :: p1 :: p2 :: p3 :: more) hv hpn hf hd).1 hs
      exact ⟨y, fun _ => hy⟩
    · exact ⟨0, fun h => absurd h hd⟩
  choose κ hκ using hcurve
  have hz : (decide ((plotFor q (.craters k) r).resurf ≠ 0)) = false := by
    rw [decide_eq_false_iff_not, not_not]
    exact hres
  rw [hz] at b2
  have hfr' : ∀ x ∈ craterPairs diam frac, 0 < x.2 := by
    intro x hx
    rw [craterPairs, List.mem_map] at hx
    obtain ⟨y, hy, rfl⟩ := hx
    have := hfr y.2 (List.of_mem_zip hy).2
    show (0 : ℝ) < (y.2 : ℝ)
    exact_mod_cast this
  obtain ⟨first, rest, lo, hi, tlo, thi, f1, f2, f3, f4, f5, f6, f7, f8, f9, f10, f11, f12, f13⟩ :=
    C156_fit f (made_constructed hf) c p0 p1 p3 hgood T.curveFit hcf (plotPF f) κ (fun d hd a0 => (curve_made hv hpn hf hd).2 _ (hκ d hd) a0) k k5
      (by rw [k3]; exact_mod_cast ha) (craterPairs diam frac) k2 hfr' b' hb r ref res b2
  rw [k3] at f2
  rw [f7] at b4
  rw [f8] at b5
  rw [f3] at b7
  rw [f4] at b8
  injection b4 with b4
  injection b5 with b5
  injection b7 with b7
  injection b8 with b8
  obtain ⟨_, w0, w1, w2, w3, w4, w5, w6, w7, w9, w10, w11, w12, w13, w14, w15, w16, w17, w18, _⟩ := r8
  refine ⟨t, row, _, r, first, rest, κ, res.a0.best, t1, r2, k1, r4, f1, ?_, f2, w0, ?_, w2, w5, ?_⟩
  · intro x hx
    have hpos : 0 < x.1 := by
      obtain ⟨⟨g1, _⟩, _⟩ := (f1.bins x).1 hx
      obtain ⟨m, hm⟩ := (edge_iff hb 0 _).1 g1
      rw [hm]
      exact gridFn_pos _ 0 m
    exact hκ _ hpos
  · rw [← k3]
    exact w1
  · rw [b3, ← b4, ← b5] at *
    obtain ⟨s7, u1, s8, u2, u3, u4⟩ := w7
    refine ⟨?_, ⟨s8, u2, ?_⟩, ?_⟩
    · rcases u3 with ⟨_, e⟩ | ⟨e, _⟩
      · rw [u1, e, b9, f12]
      · exact absurd e (by decide)
    · rcases u4 with ⟨⟨_, _, e⟩, _⟩ | ⟨_, e⟩
      · cases e
      · rw [e, b10, f13, Nat.floor_natCast]
    · refine ⟨_, _, _, lo, hi, f5, f6, f9, f10, f11, w10, w11, w12, ?_⟩
      rw [b6, ← b7, ← b8] at *
      exact ⟨w13, w14, w15, w16, w17, w18⟩

/-! ### a command -/

/-- a command for the data of the file and a cumulative fit -/
def fitWords : List (List Char) := ["-p", "source=/m.diam,name=Mare", "-p", "type=c-fit"].map String.toList

def fitItems : List (List (List Char × List Char)) :=
  [[("source".toList, "/m.diam".toList), ("name".toList, "Mare".toList)], [("type".toList, "c-fit".toList)]]

def fitGiven : List Given := [⟨"plot", ["source=/m.diam,name=Mare"]⟩, ⟨"plot", ["type=c-fit"]⟩].map
  fun x : String × List String => ⟨x.1.toList, x.2.map String.toList⟩

def fitCheck : Bool :=
  match runCommand .ascii (fun _ => false) ageFiles 1 "/u/".toList fitWords with
  | .ok st => match prepareRun (undecoded ageEnv) st with
    | .ok P => P.plots.all (fun x => isWhole x.2)
    | .error _ => false
  | .error _ => false

theorem fit_check : fitCheck = true := by decide +kernel

/-- the command can be run -/
theorem fitted_runs : ∃ st P, runCommand .ascii (fun _ => false) ageFiles 1 "/u/".toList fitWords = .ok st ∧ prepareRun ageEnv st = .ok P := by
  have h := fit_check
  unfold fitCheck at h
  have hw : CommandOf (fun _ => false) fitWords fitGiven := (C133_grammar _ _ _).1 (by decide +kernel)
  have hx : Expands .ascii (fun _ => false) ageFiles "/u/".toList fitGiven fitGiven "/u/".toList 0 := by
    refine .option _ _ _ _ _ _ (by unfold Loads; decide +kernel) (admissible_ok (by decide +kernel)) ?_
    refine .option _ _ _ _ _ _ (by unfold Loads; decide +kernel) (admissible_ok (by decide +kernel)) ?_
    exact .nil _ _
  obtain ⟨st, h1, hpl⟩ := C141_plots .ascii (fun _ => false) ageFiles "/u/".toList fitWords fitGiven fitGiven "/u/".toList 0 hw hx 1 (by omega)
    (undecoded ageEnv) (fun _ => rfl)
  rw [h1] at h
  dsimp only at h
  cases hP : prepareRun (undecoded ageEnv) st with
  | error e => rw [hP] at h; cases h
  | ok P =>
    rw [hP] at h
    dsimp only at h
    obtain ⟨P', hP'⟩ : ∃ P', prepareRun ageEnv st = .ok P' := by
      apply run_decoded hP
      intro x hx
      have hwhole := List.all_eq_true.1 h x hx
      obtain ⟨p, input, items, dark, _, _, _, g4, _, g5⟩ := hpl P hP
      obtain ⟨i, hi, e⟩ := List.getElem_of_mem hx
      obtain ⟨_, _, s, c, b3, b4, _⟩ := g5 _ rfl i x.1 x.2 items[i] (by rw [List.getElem?_eq_getElem hi, e]) (List.getElem?_eq_getElem (by omega))
      have hc : c = sampleOpened := by
        have b3' : (if s = "/m.diam".toList then Except.ok sampleOpened else .error Exc.system) = Except.ok c := b3
        by_cases hs : s = "/m.diam".toList
        · rw [if_pos hs] at b3'
          injection b3' with b3'
          exact b3'.symm
        · rw [if_neg hs] at b3'
          cases b3'
      have hx2 : x.2.1 = c := by
        obtain ⟨c0, p0, specs, ds, c1, ratio, dark', r1, r2, r3, r4, r5, r6, r7, r8⟩ := run_ok hP
        obtain ⟨y, _, hy⟩ := forall₂_right (Verif.Cratercount.mapM_ok _ r8) hx
        obtain ⟨c', rv, bv, sv, d1, _, _, _, d5⟩ := made_range (o := x.1) (r := x.2) hy
        rw [b4] at d1
        injection d1 with d1
        injection d1 with d1
        injection d5 with d5
        rw [← d5, d1]
      obtain ⟨o, c', a, b, s'⟩ := x
      dsimp only at hx2 hwhole ⊢
      rw [hx2, hc]
      have hform : a = .strs ["0".toList, "inf".toList] ∧ b = .str "pseudo-log".toList ∧ s' = .num 1 := by
        unfold isWhole at hwhole
        split at hwhole
        · rename_i a b c e
          injection e with e1 e2
          injection e2 with e2 e3
          simp only [Bool.and_eq_true, beq_iff_eq] at hwhole
          obtain ⟨⟨w1, w2⟩, w3⟩ := hwhole
          exact ⟨by rw [e1, w1, w2], by rw [e2, w3], e3⟩
        · cases hwhole
      obtain ⟨rfl, rfl, rfl⟩ := hform
      exact ⟨_, sample_decodes⟩
    exact ⟨st, P', h1, hP'⟩

def askFit : Ask := ⟨"c-fit".toList, "m".toList, "/m.diam".toList, "pseudo-log".toList, "0".toList, "inf".toList, 1, 0⟩

theorem fitted_asked : AskedPlots agePlotEnv fitItems [askData, askFit] := by
  refine ⟨rfl, fun i q hi => ?_⟩
  match i, hi with
  | 0, hi =>
    injection hi with hi
    subst hi
    refine ⟨.inr ⟨not_given (by decide +kernel), by decide +kernel⟩, .inr ⟨not_given (by decide +kernel), by decide +kernel⟩,
      ⟨.num 1, .inr ⟨not_given (by decide +kernel), by decide +kernel⟩, .num 1⟩,
      ⟨"/m.diam".toList, last_given [] [("name".toList, "Mare".toList)] rfl (by decide +kernel) (by decide +kernel) (by decide +kernel), .inl ⟨.inl rfl, rfl⟩⟩, _, rfl,
      .inr ⟨not_given (by decide +kernel), by decide +kernel⟩, ⟨.num 0, .inr ⟨not_given (by decide +kernel), by decide +kernel⟩, .num 0⟩,
      "Mare".toList, .inl (last_given [("source".toList, "/m.diam".toList)] [] rfl (by decide +kernel) (by decide +kernel) (by decide +kernel)),
      .inl ⟨by decide, rfl⟩⟩
  | 1, hi =>
    injection hi with hi
    subst hi
    refine ⟨.inl (last_given [("source".toList, "/m.diam".toList), ("name".toList, "Mare".toList)] [] rfl (by decide +kernel) (by decide +kernel) (by decide +kernel)),
      .inr ⟨not_given (by decide +kernel), by decide +kernel⟩,
      ⟨.num 1, .inr ⟨not_given (by decide +kernel), by decide +kernel⟩, .num 1⟩,
      ⟨"/m.diam".toList, last_given [] [("name".toList, "Mare".toList), ("type".toList, "c-fit".toList)] rfl (by decide +kernel) (by decide +kernel) (by decide +kernel),
        .inl ⟨.inl rfl, rfl⟩⟩, _, rfl,
      .inr ⟨not_given (by decide +kernel), by decide +kernel⟩, ⟨.num 0, .inr ⟨not_given (by decide +kernel), by decide +kernel⟩, .num 0⟩,
      [], .inr ⟨not_given (by decide +kernel), by decide +kernel⟩,
      .inr ⟨rfl, "/".toList, ".diam".toList, ?_, by decide +kernel⟩⟩
    refine ⟨rfl, by decide +kernel, .inr ⟨'/', rfl, by decide +kernel⟩, by decide +kernel, .inr ?_, fun h => absurd h (by decide)⟩
    exact ⟨"diam".toList, rfl, by decide +kernel, by decide +kernel, by decide +kernel⟩
  | n + 2, hi => cases hi

/-- nothing else is given -/
theorem fitted_no (k : String) (hk : k.toList ≠ "plot".toList) : ∀ g ∈ fitGiven, g.dest ≠ k.toList := by
  intro g hg
  simp only [fitGiven, List.map_cons, List.map_nil, List.mem_cons, List.not_mem_nil, or_false] at hg
  rcases hg with rfl | rfl <;> exact fun h => hk h.symm

theorem fitted_presented {p : List Char} (h : PresentedAs (ageEnv "/u/".toList).set.lower fitGiven p) : p = "differential".toList := by
  rcases h with ⟨_, h⟩ | ⟨v, ⟨pre, post, e, _⟩, _⟩
  · exact h
  · exact absurd rfl (fitted_no "presentation" (by decide) ⟨"presentation".toList, [v]⟩ (by rw [e]; simp))

theorem fitted_input {f : Option (List Char)} (h : InputOf fitGiven f) : f = none := by
  rcases h with ⟨_, h⟩ | ⟨⟨v, ⟨pre, post, e, _⟩, _⟩, _⟩
  · exact h
  · exact absurd rfl (fitted_no "input" (by decide) ⟨"input".toList, v⟩ (by rw [e]; simp))

theorem fitted_e : (fitGiven.filter (fun g => g.dest = "plot".toList)).map (fun g => g.values) =
      [["source=/m.diam,name=Mare".toList], ["type=c-fit".toList]] := by decide +kernel

theorem fitted_items {items : List (List (List Char × List Char))}
    (h : List.Forall₂ (ItemsOf .ascii) ((fitGiven.filter (fun g => g.dest = "plot".toList)).map (fun g => g.values)) items) : items = fitItems :=
  two_items h fitted_e sample_p1 (by decide +kernel)

theorem fitted_ages : agesAsked [askData, askFit] = [(.cumulative, askFit)] := by
  have e1 : kindNamed "data".toList = none := by decide +kernel
  have e2 : kindNamed "c-fit".toList = some .cumulative := by decide +kernel
  have f1 : kindNamed askData.type = none := e1
  have f2 : kindNamed askFit.type = some .cumulative := e2
  simp only [agesAsked, List.filterMap_cons, List.filterMap_nil, f1, f2, Option.map_none, Option.map_some]

theorem fitted_fitting : ∀ y ∈ agesAsked [askData, askFit], FitsTable y.2 := by
  rw [fitted_ages]
  intro y hy
  rw [List.mem_singleton] at hy
  subst hy
  show "m".toList ≠ [] ∧ OneField "m".toList ∧ OneField "/m.diam".toList ∧ OneField "pseudo-log".toList
  decide +kernel

theorem fitted_range (r : EReal × EReal) (hr : RangeAsked sampleOpened askFit r) : r = (0, ⊤) := by
  obtain ⟨k, hk, hkb, _⟩ := sample_listed
  rw [hk] at hr
  exact C152_whole k hkb askFit rfl rfl r hr

theorem fitted_words : CommandOf (fun _ => false) fitWords fitGiven := (C133_grammar _ _ _).1 (by decide +kernel)

theorem fitted_expands : Expands .ascii (fun _ => false) ageFiles "/u/".toList fitGiven fitGiven "/u/".toList 0 := by
  refine .option _ _ _ _ _ _ (by unfold Loads; decide +kernel) (admissible_ok (by decide +kernel)) ?_
  refine .option _ _ _ _ _ _ (by unfold Loads; decide +kernel) (admissible_ok (by decide +kernel)) ?_
  exact .nil _ _

/-- the table of the sample can be made -/
theorem fitted_written (T : TableRow.Env) (hT : ∀ x, OneField (T.floatStr x)) (o : Outcome) (ho : FitFound T (plotFor askFit sampleOpened (0, ⊤)) .cFit o)
    (hbr : ∀ r, o.bins = some r → Writable r) (st : CmdState) (P : Prepared Opened (EReal × EReal))
    (hst : runCommand .ascii (fun _ => false) ageFiles 1 "/u/".toList fitWords = .ok st) (hP : prepareRun ageEnv st = .ok P) :
    ∃ out, TableRow.table T P.plots = .ok out := by
  obtain ⟨st', hst', hpl⟩ := C152_plots .ascii (fun _ => false) ageFiles "/u/".toList fitWords fitGiven fitGiven "/u/".toList 0 fitted_words fitted_expands 1 (by omega)
    ageEnv (fun _ => rfl) rfl sample_noload
  rw [hst] at hst'
  injection hst' with hst'
  subst hst'
  obtain ⟨p, input, items, g1, g2, g3, g4, g5⟩ := hpl P hP
  obtain rfl := fitted_presented g1
  obtain rfl := fitted_input g2
  obtain rfl := fitted_items g3
  have hall : List.Forall₂ (Answers (ageEnv "/u/".toList).load) [askData, askFit] P.plots := by
    rw [List.forall₂_iff_get]
    refine ⟨g4.symm, fun i hi hj => ?_⟩
    exact g5 agePlotEnv rfl sample_plain i _ _ (List.getElem?_eq_getElem hj) (fitted_asked.2 i _ (List.getElem?_eq_getElem hi))
  obtain ⟨ps, i1, i2⟩ := plots_of_asks hall
  rw [fitted_ages] at i2
  cases i2 with
  | @cons a z as zs hz i2 =>
    cases i2
    obtain ⟨z1, c', r, z2, z3, z4⟩ := hz
    have z2' : (ageEnv "/u/".toList).load "/m.diam".toList = .ok c' := z2
    rw [sample_load] at z2'
    injection z2' with z2'
    subst z2'
    obtain rfl := fitted_range r z3
    apply C147_written T hT P.plots [z] i1
    · intro p hp
      rw [List.mem_singleton] at hp
      subst hp
      rw [z4]
      exact fitted_fitting _ (by rw [fitted_ages]; exact List.mem_singleton_self _)
    · intro p hp
      rw [List.mem_singleton] at hp
      subst hp
      rw [z1, z4]
      exact ⟨.inl rfl, o, ho, hbr⟩
    · intro last hl hb p hp
      rw [List.mem_singleton] at hp
      subst hp
      rw [z1]
      rfl

theorem fitted_system {lower : Char → Char} {names : List (List Char)} {name : List Char} (h : SystemAsked lower names fitGiven name) :
    name = "Moon, Neukum (1983)".toList := by
  rcases h with ⟨_, h⟩ | ⟨t, k, ⟨pre, post, e, _⟩, _⟩
  · exact h
  · exact absurd rfl (fitted_no "chronology_system" (by decide) ⟨"chronology_system".toList, [t]⟩
      (by rw [e]; exact List.mem_append_right _ List.mem_cons_self))

/-- the settings of the sample -/
theorem fitted_settings {st : CmdState} {P : Prepared Opened (EReal × EReal)} (hst : runCommand .ascii (fun _ => false) ageFiles 1 "/u/".toList fitWords = .ok st)
    (hP : prepareRun ageEnv st = .ok P) : numberAttr P.set "ref_diameter" = .ok 1 ∧ numberAttr P.set "mu" = .ok 1 := by
  obtain ⟨st', h1, hdisp⟩ := C141_display_partial .ascii (fun _ => false) ageFiles "/u/".toList fitWords fitGiven fitGiven "/u/".toList 0 fitted_words
    fitted_expands 1 (by omega) ageEnv (fun _ => rfl)
  rw [hst] at h1
  injection h1 with h1
  subst h1
  obtain ⟨p, _, _, hd⟩ := hdisp P hP
  obtain ⟨w, w1, w2⟩ := (hd "ref_diameter" (by decide) (fun _ => by decide)).2 (fitted_no _ (by decide))
  obtain ⟨u, u1, u2⟩ := (hd "mu" (by decide) (fun _ => by decide)).2 (fitted_no _ (by decide))
  obtain rfl := standard_ref w1
  obtain rfl := standard_mu u1
  constructor
  · unfold numberAttr
    rw [w2]
    dsimp only
    norm_num
  · unfold numberAttr
    rw [u2]
    dsimp only
    norm_num

theorem fitted_named {st : CmdState} {P : Prepared Opened (EReal × EReal)} (hst : runCommand .ascii (fun _ => false) ageFiles 1 "/u/".toList fitWords = .ok st)
    (hP : prepareRun ageEnv st = .ok P) : getStr P.settings "chronology_system" = .ok "Moon, Neukum (1983)".toList := by
  obtain ⟨st', h1, hcwd, hs⟩ := C133_in_place_partial .ascii (fun _ => false) ageFiles "/u/".toList fitWords fitGiven fitGiven "/u/".toList 0 fitted_words
    fitted_expands 1 (by omega)
  rw [hst] at h1
  injection h1 with h1
  subst h1
  obtain ⟨c0, p0, specs, ds, c1, ratio, dark, r1, r2, r3, r4, r5, r6, r7, r8⟩ := run_ok hP
  rw [hcwd] at r1 r5
  have n0 := settings_nodup r1
  obtain ⟨n1, e1⟩ := defaultName_keys r5 n0
  obtain ⟨n2, e2⟩ := legend_keys r6 n1
  have hnl : ∀ s ∈ (ageEnv "/u/".toList).set.systems, '\n' ∉ s.name := by
    show ∀ s ∈ exEnv.systems, '\n' ∉ s.name
    decide +kernel
  obtain ⟨name, i, s, q1, q2, q3, q4, _, _, q5, q6⟩ := C60_system (ageEnv "/u/".toList).set hnl _ _ r1
  have hn := q5 ((args_last hs "chronology_system" (by decide)).2 (fitted_no _ (by decide)))
  rw [getStr, e2 _ (by decide), e1 _ (by decide), q1, hn]

/-- the command of the sample with the functions of the small list: the row of the fit to the four craters -/
example (T : TableRow.Env) (hT : ∀ x, OneField (T.floatStr x)) (hcf : CurveFitSpec T.curveFit) (plotPF : PFn → PF) : ∃ v st P t row first rest κ α,
    loadFunctions .ascii none smallDisk = .ok v ∧
    runCommand .ascii (fun _ => false) ageFiles 1 "/u/".toList fitWords = .ok st ∧ prepareRun ageEnv st = .ok P ∧
    runTable .ascii v T plotPF P = .ok (some t) ∧ (split '\n' t)[3]? = some row ∧ (split ',' row)[0]? = some "m".toList ∧
    FitBins (gridOf .pseudoLog 0) (craterPairs [1, 3, 3 / 2, 2] [1, 1, 1 / 2, 1]) (0, ⊤) (first :: rest) ∧
    (∀ α', α' ≠ α → fitDeviation (craterPairs [1, 3, 3 / 2, 2] [1, 1, 1 / 2, 1]) 10 κ (first :: rest) α < fitDeviation (craterPairs [1, 3, 3 / 2, 2] [1, 1, 1 / 2, 1]) 10 κ (first :: rest) α') ∧
    FitRow T 0 0 2 (craterPairs [1, 3, 3 / 2, 2] [1, 1, 1 / 2, 1]) first rest α (split ',' row) := by
  obtain ⟨v, hv, hsrc⟩ := small_source
  obtain ⟨st, P, hst, hP⟩ := fitted_runs
  have hlist := C153_list .ascii v _ hsrc _ small_systems (by decide)
  have hcn : 2 ≤ (occurrences smallDefinitions "chronology".toList).length := by decide +kernel
  have hpn : 2 ≤ (occurrences smallDefinitions "production".toList).length := by decide +kernel
  obtain ⟨c, hc, hinit⟩ := small_chronology hsrc
  have hgood : GoodChron c 0 0 2 := ⟨_, hinit, rfl, rfl, rfl, le_rfl, le_rfl, two_pos⟩
  obtain ⟨hl, ho, _⟩ := sample_count.choose_spec.choose_spec
  have ho' : openCount .ascii (.error .system) ".diam".toList sampleFile = .ok sampleOpened := ho
  obtain ⟨k, k1, k2, k3, _, k5, _, _⟩ := open_lists (.error .system) hl
  have hk : sampleOpened = .craters k := by
    have : openCount .ascii (.error .system) ".diam".toList sampleFile = .ok (.craters k) := k1
    rw [ho'] at this
    injection this
  obtain ⟨k', hk', _, hkne, hkd⟩ := sample_listed
  obtain rfl : k' = k := Opened.craters.inj (hk'.symm.trans hk)
  have hfr : ∀ x ∈ craterPairs [1, 3, 3 / 2, 2] [1, 1, 1 / 2, 1], 0 < x.2 := by
    intro x hx
    simp only [craterPairs, List.zip_cons_cons, List.zip_nil_right, List.map_cons, List.map_nil, List.mem_cons, List.not_mem_nil, or_false] at hx
    rcases hx with rfl | rfl | rfl | rfl <;> norm_num
  have hfr' : ∀ x ∈ k'.craters, 0 < x.2 := fun x hx => hfr x (k2.mem_iff.1 hx)
  obtain ⟨f, hf⟩ : ∃ f, f = initPoly [0, -1] (some (1, 2.5)) := ⟨_, rfl⟩
  have hcon : Constructed f := hf ▸ .inl ⟨_, _, rfl⟩
  obtain ⟨K, hK⟩ := C20_cumulative_applies f
  have hev1 : ∃ n, f.evaluate .cumulative 1 none = .ok n := by
    refine ⟨K 1 0, ?_⟩
    rw [(C18_evaluate_partial f .cumulative 1).2.1 _ _ _ (hf.trans rfl) 0 rfl rfl]
    exact (hK 1 0 one_pos).1
  have ha : 0 < k'.area := by rw [k3]; norm_num
  obtain ⟨res, lo', hi', hres, hbr⟩ := C156_exists f hcon hev1 c T.curveFit hcf (plotPF f) k' k5 ha hkne
    (fun x hx => lt_of_lt_of_le (by norm_num) (hkd x hx)) hfr' .pseudoLog (by simp)
  obtain ⟨_, _, lo, hi, tlo, thi, _, _, f3, f4, _, _, f7, f8, _⟩ := C156_fit f hcon c 0 0 2 hgood T.curveFit hcf (plotPF f) (fun d => K d 0)
    (fun d hd a => by
      have hs := C16_scaling f hcon d 0 a (K d 0)
      rw [zero_add] at hs
      exact hs.1 (hK d 0 hd).1) k' k5 ha _ (List.Perm.refl _) hfr' .pseudoLog (by simp) (0, ⊤) 1 res hres
  obtain ⟨t1, t2⟩ := fitted_settings hst hP
  have hfun : systemFunctions .ascii v "Moon, Neukum (1983)".toList = .ok (c, initPoly [0, -1] (some (1, 2.5))) := by
    have hfind : exEnv.systems.find? (fun s => s.name = "Moon, Neukum (1983)".toList) =
        some ⟨"Moon, Neukum (1983)".toList, "c".toList, "p".toList, "Moon".toList⟩ := by decide +kernel
    unfold systemFunctions
    rw [hlist, ok_bind, hfind]
    dsimp only
    rw [hc, ok_bind, small_production hsrc, ok_bind]
  obtain ⟨out, hout⟩ : ∃ out, runTable .ascii v T plotPF P = .ok out := by
    unfold runTable
    rw [fitted_named hst hP, ok_bind, hfun, ok_bind, t1, ok_bind, t2, ok_bind]
    have := fitted_written ⟨.ascii, T.ρ, T.floatStr, f, plotPF f, c, T.simpson, T.curveFit, 1, decide ((1 : ℝ) ≠ 0)⟩ hT
      ⟨(res.t, tlo, thi), (res.a0.best, lo, hi), res.n, res.nEvent, some res.binRange⟩
      ⟨.pseudoLog, res, by decide +kernel, by rw [show (plotFor askFit sampleOpened (0, ⊤)).count = .craters k' from hk]; exact hres, rfl, f7, f8, rfl, f3, f4, rfl, rfl, rfl⟩
      (by
        intro r hr
        injection hr with hr
        rw [← hr, hbr]
        exact .inr ⟨_, _, rfl⟩) st P hst hP
    rw [hf] at this
    exact this
  obtain ⟨st', hst', hfile⟩ := C156_command_partial .ascii (fun _ => false) ageFiles "/u/".toList fitWords fitGiven fitGiven "/u/".toList 0 fitted_words fitted_expands 1
    (by omega) ageEnv (fun _ => rfl) rfl sample_noload v smallDefinitions hsrc exEnv.systems small_systems (by decide) hcn hpn rfl (by decide +kernel) T hT hcf plotPF
  rw [hst] at hst'
  injection hst' with hst'
  subst hst'
  obtain ⟨i, s, s1, _, s2, s3⟩ := hfile P out hP hout
  have hs : s = ⟨"Moon, Neukum (1983)".toList, "c".toList, "p".toList, "Moon".toList⟩ := by
    have hn := fitted_system s2
    have : ∀ s ∈ exEnv.systems, s.name = "Moon, Neukum (1983)".toList → s = ⟨"Moon, Neukum (1983)".toList, "c".toList, "p".toList, "Moon".toList⟩ := by
      decide +kernel
    exact this s (List.mem_of_getElem? s1) hn
  subst hs
  obtain ⟨p, input, items, g1, g2, g3, g4⟩ := s3 0 0 0 2 [] le_rfl le_rfl (by norm_num) (.inl ⟨0, [-1], (1, 2.5), small_functions⟩)
  obtain rfl := fitted_presented g1
  obtain rfl := fitted_input g2
  obtain rfl := fitted_items g3
  obtain ⟨t, row, c', r, first, rest, κ, α, e1, e2, e3, e4, e5, _, e6, e7, _, _, _, e8⟩ := g4 agePlotEnv rfl sample_plain [askData, askFit] fitted_asked fitted_fitting 0 askFit
    (.error .system) sampleFile [1, 3, 3 / 2, 2] [1, 1, 1 / 2, 1] 10 .pseudoLog (by rw [fitted_ages]; rfl) rfl (by decide +kernel) (by simp) hl (by norm_num)
    (by intro x hx; simp only [List.mem_cons, List.not_mem_nil, or_false] at hx; rcases hx with rfl | rfl | rfl | rfl <;> norm_num) (sample_load.trans ho.symm)
  rw [ho'] at e3
  injection e3 with e3
  subst e3
  obtain rfl := fitted_range r e4
  norm_num at e6 e8
  exact ⟨v, st, P, t, row, first, rest, κ, α, hv, hst, hP, by rw [hout, e1], e2, e7, e5, e6, e8⟩

end

end Verif.Props
