import Verif.Props.DiffFitRun
import Verif.Props.Resurf

/-!
C158: the fits to the cumulative distribution with correction for resurfacing in the table of ages of a command.
-/

namespace Verif.Props

open Verif.Spec Verif.Py Verif.Text Verif.Rand Verif.Cli Verif.PlotObject Verif.Epochs Verif.EpochPlot
open Verif.CountFile Verif.Cratercount Verif.Chronology Verif.Production Verif.Craterpdf Verif.Age Verif.FileAge Verif.RunAges Verif.FunctionRun Verif.EpochRun

noncomputable section

/-- Specification: the deviation of the craters per area, each raised by `adj`, from the curve with logarithm `α` at 1 km: the squares of the differences of the logarithms at the lower edges of
the bins, weighted with the raised values -/
def raisedDeviation (cs : List (ℝ × ℝ)) (area : ℝ) (κ : ℝ → ℝ) (l : List (ℝ × ℝ)) (adj α : ℝ) : ℝ :=
  (l.map (fun x => (weightFrom cs x.1 / area + adj) * (Real.logb 10 (weightFrom cs x.1 / area + adj) - (α + Real.logb 10 (κ x.1))) ^ 2)).sum

/-- Specification: the next correction after `adj`: it puts the largest bin, of lower edge `e`, on the curve which fits best with `adj`.  (If the logarithm of the density of that curve is exactly 0, the curve of the
function's own number `c0` is taken, see C18.) -/
def RaiseStep (cs : List (ℝ × ℝ)) (area : ℝ) (κ : ℝ → ℝ) (c0 : ℝ) (l : List (ℝ × ℝ)) (e adj adj' : ℝ) : Prop :=
  ∃ α, (∀ α', α' ≠ α → raisedDeviation cs area κ l adj α < raisedDeviation cs area κ l adj α') ∧
    weightFrom cs e / area + adj' = 10 ^ (if α = 0 then c0 else α) * κ e

/-- Specification: repetition of a step, `k` times done before, until two values differ by less than 0.0001, or 21 times -/
inductive Rounds (step : ℝ → ℝ → Prop) : ℕ → ℝ → ℝ → Prop
  | stop (k : ℕ) (a a' : ℝ) (h : step a a') (hs : |a - a'| < 0.0001 ∨ k = 20) : Rounds step k a a'
  | more (k : ℕ) (a a' r : ℝ) (h : step a a') (hs : 0.0001 ≤ |a - a'|) (hk : k < 20) (hr : Rounds step (k + 1) a' r) : Rounds step k a r

/-- Specification: the correction for resurfacing over the bins `l`: nothing for a single bin, otherwise repeated fitting from 0 -/
def Resurfaced (cs : List (ℝ × ℝ)) (area : ℝ) (κ : ℝ → ℝ) (c0 : ℝ) (l : List (ℝ × ℝ)) (adj : ℝ) : Prop :=
  ∃ last, l.getLast? = some last ∧ (l.length < 2 → adj = 0) ∧ (2 ≤ l.length → Rounds (RaiseStep cs area κ c0 l last.1) 0 0 adj)

/-- the production function as `getplotdata` uses it is the one fitted: `pf.fit(p)[0]` and `pf.evaluate("cumulative", d, a0)` -/
structure PlotOf (f : PFn) (cf : CurveFit) (pfc : PF) : Prop where
  fit : ∀ pts a0, f.fit cf .cumulative pts = .ok a0 → pfc.fit pts = a0.best
  value : ∀ d a y, f.evaluate .cumulative d (some a) = .ok y → pfc.C d a = y

/-- there is such a view of every production function -/
theorem plotOf_exists (f : PFn) (cf : CurveFit) : ∃ pfc, PlotOf f cf pfc :=
  ⟨⟨fun p => match f.fit cf .cumulative p with | .ok a => a.best | .error _ => 0,
    fun d a => match f.evaluate .cumulative d (some a) with | .ok y => y | .error _ => 0, fun _ => 0⟩,
    fun pts a0 h => by simp only [h], fun d a y h => by simp only [h]⟩

theorem resurf_rounds (fit : List Point → ℝ) (C : ℝ → ℝ → ℝ) (p0 : List Point) (last : Point) (step : ℝ → ℝ → Prop) (Pos : ℝ → Prop)
    (hstep : ∀ a, Pos a → step a (C last.d (fit (p0.map fun q => { q with y := q.y + a })) - last.y) ∧ Pos (C last.d (fit (p0.map fun q => { q with y := q.y + a })) - last.y)) :
    ∀ fuel count a, fuel + count = 21 → 0 < fuel → Pos a → ∃ r n, resurfLoop fit C p0 last fuel count a = some (r, n) ∧ Rounds step count a r ∧ Pos r := by
  intro fuel
  induction fuel with
  | zero => intro _ _ _ h; omega
  | succ fuel ih =>
    intro count a hsum _ ha
    obtain ⟨s1, s2⟩ := hstep a ha
    rw [resurfLoop]
    set a' := C last.d (fit (p0.map fun q => { q with y := q.y + a })) - last.y with ha'
    by_cases hc : |a - a'| < 0.0001 ∨ count + 1 > 20
    · rw [if_pos hc]
      exact ⟨a', count + 1, rfl, .stop _ _ _ s1 (hc.imp id (fun h => by omega)), s2⟩
    · rw [if_neg hc]
      rw [not_or, not_lt, not_lt] at hc
      obtain ⟨r, n, h1, h2, h3⟩ := ih (count + 1) a' (by omega) (by omega) s2
      exact ⟨r, n, h1, .more _ _ _ _ s1 hc.1 (by omega) h2, h3⟩

theorem forall₂_map_mem {α β γ : Type} {R : α → β → Prop} {f : α → γ} {g : β → γ} {l : List α} {r : List β} (h : List.Forall₂ R l r)
    (hfg : ∀ a ∈ l, ∀ b, R a b → f a = g b) : l.map f = r.map g := by
  induction h with
  | nil => rfl
  | cons h1 _ ih =>
    rw [List.map_cons, List.map_cons, hfg _ List.mem_cons_self _ h1, ih (fun a ha => hfg a (List.mem_cons_of_mem _ ha))]

/-- the points of a list of craters raised by `adj` -/
def raisedPoint (cs : List Crater) (area adj : ℝ) (x : Bin) : Point :=
  ⟨x.dMin, weightFrom cs x.dMin / area + adj, (weightFrom cs x.dMin / area + adj) / Real.sqrt (countFrom cs x.dMin)⟩

theorem raised_points {b : Binning} (hb : b ≠ .none) {cs : List Crater} {t : List Bin} (ht : applyBinning b 0 cs = .ok t) {area adj : ℝ} {Cf : Option (ℝ → ℝ)}
    {r : EReal × EReal} {r1 : Bool} {pd : PlotData} (h : plotData .cumulative b t area adj Cf (some r) r1 false = .ok pd) :
    pd.points = (Verif.Spec.selected t (some r) false).map (raisedPoint cs area adj) := by
  obtain ⟨g1, _⟩ := plotData_ok h
  refine forall₂_mapped g1 _ ?_
  rintro x hx ⟨pd, py, pe⟩ ⟨_, _, e1, e2, e3⟩
  have hxt : x ∈ t := by
    simp only [Verif.Spec.selected, List.mem_filter, decide_eq_true_eq] at hx
    exact hx.1
  obtain ⟨_, _, _, _, _, _, _, _, _, d7, d8⟩ := C03_bin_contents b hb 0 cs t ht x hxt
  dsimp only at e1 e2 e3
  rw [d7] at e2
  rw [d8] at e3
  subst e1
  subst e2
  subst e3
  rfl

/-- the best density of raised points -/
theorem raised_fit (f : PFn) (hf : Constructed f) (cf : CurveFit) (hcf : CurveFitSpec cf) (κ : ℝ → ℝ) (hκ : ∀ d, 0 < d → ∀ a : ℝ, f.C d a = .ok (10 ^ a * κ d))
    (hκ0 : ∀ d, 0 < d → 0 < κ d) (cs : List Crater) (area adj : ℝ) (S : List Bin) (hne : S ≠ []) (hd : ∀ x ∈ S, 0 < x.dMin) (hy : ∀ x ∈ S, 0 < weightFrom cs x.dMin / area + adj)
    (pts : List Point) (hpts : List.Forall₂ (fun (x : Bin) (p : Point) => p.d = x.dMin ∧ p.y = weightFrom cs x.dMin / area + adj) S pts) :
    ∃ a0, f.fit cf .cumulative pts = .ok a0 ∧ ∀ α, α ≠ a0.best →
      raisedDeviation cs area κ (S.map (fun x => (x.dMin, x.dMax))) adj a0.best < raisedDeviation cs area κ (S.map (fun x => (x.dMin, x.dMax))) adj α := by
  obtain ⟨K, hKdef⟩ : ∃ K : ℝ → ℝ → ℝ, ∀ d a, K d a = 10 ^ a * κ d := ⟨fun d a => 10 ^ a * κ d, fun _ _ => rfl⟩
  have hmemp : ∀ p ∈ pts, ∃ x ∈ S, p.d = x.dMin ∧ p.y = weightFrom cs x.dMin / area + adj := fun p hp => forall₂_right hpts hp
  have hK : ∀ p ∈ pts, ∀ a, FitKind.cumulative.curve f p.d a = .ok (K p.d a) ∧ 0 < K p.d a := by
    intro p hp a
    obtain ⟨x, hx, e1, _⟩ := hmemp p hp
    rw [e1, hKdef]
    exact ⟨hκ _ (hd x hx) a, mul_pos (pow10_pos a) (hκ0 _ (hd x hx))⟩
  have hyp : ∀ p ∈ pts, 0 < p.y := by
    intro p hp
    obtain ⟨x, hx, _, e2⟩ := hmemp p hp
    rw [e2]
    exact hy x hx
  have hpne : pts ≠ [] := by
    rintro rfl
    cases hpts
    exact hne rfl
  obtain ⟨a0, v1, v2⟩ := C20_fit_minimises f hf cf hcf .cumulative K pts hpne hK hyp hyp
  refine ⟨a0, v1, fun α hα => ?_⟩
  have hdev : ∀ α, objective .cumulative K pts α = raisedDeviation cs area κ (S.map (fun x => (x.dMin, x.dMax))) adj α := by
    intro α
    rw [objective, raisedDeviation, List.map_map]
    congr 1
    symm
    refine forall₂_map_mem hpts ?_
    rintro x hx p ⟨e1, e2⟩
    simp only [Function.comp, FitKind.weight]
    rw [hKdef, e1, e2, log10_mul (pow10_pos α) (hκ0 _ (hd x hx)), log10_pow10]
    rfl
  rw [← hdev, ← hdev]
  exact v2 α hα

theorem weightFrom_le {cs : List Crater} (hfrac : ∀ c ∈ cs, 0 < c.2) {x y : ℝ} (h : x ≤ y) : weightFrom cs y ≤ weightFrom cs x := by
  have hsub := weightFrom_sub cs h
  have : 0 ≤ weightIn cs x y := by
    unfold weightIn
    apply List.sum_nonneg
    intro z hz
    obtain ⟨c, hc, rfl⟩ := List.mem_map.1 hz
    exact (hfrac c (List.mem_filter.1 hc).1).le
  linarith

theorem sorted_last {S : List Bin} (h : S.Pairwise (fun x y => x.dMin < y.dMin)) {last : Bin} (hl : S.getLast? = some last) : ∀ x ∈ S, x.dMin ≤ last.dMin := by
  obtain ⟨init, rfl⟩ := List.getLast?_eq_some_iff.1 hl
  intro x hx
  rw [List.pairwise_append] at h
  rcases List.mem_append.1 hx with hx | hx
  · exact (h.2.2 x hx last (List.mem_singleton.2 rfl)).le
  · rw [List.mem_singleton.1 hx]

/-- the correction, and that all raised values are positive -/
theorem raised_correction (f : PFn) (hf : Constructed f) (cf : CurveFit) (hcf : CurveFitSpec cf) (pfc : PF) (hpfc : PlotOf f cf pfc) (κ : ℝ → ℝ)
    (hκ : ∀ d, 0 < d → ∀ a : ℝ, f.C d a = .ok (10 ^ a * κ d)) (hκ0 : ∀ d, 0 < d → 0 < κ d) (c0 : ℝ) (hc0 : f.defaultA0 = .ok c0)
    (cs : List Crater) (hfrac : ∀ c ∈ cs, 0 < c.2) (area : ℝ) (harea : 0 < area) (S : List Bin) (hne : S ≠ []) (hsort : S.Pairwise (fun x y => x.dMin < y.dMin))
    (hd : ∀ x ∈ S, 0 < x.dMin) (hy : ∀ x ∈ S, 0 < weightFrom cs x.dMin / area) :
    ∃ adj n, resurfAdj pfc.fit pfc.C (S.map (raisedPoint cs area 0)) = some (adj, n) ∧ Resurfaced cs area κ c0 (S.map (fun x => (x.dMin, x.dMax))) adj ∧
      ∀ x ∈ S, 0 < weightFrom cs x.dMin / area + adj := by
  obtain ⟨last, hlast⟩ : ∃ last, S.getLast? = some last := ⟨_, List.getLast?_eq_some_getLast hne⟩
  have hlm : last ∈ S := List.mem_of_getLast? hlast
  have hle := sorted_last hsort hlast
  have hpos : ∀ a, 0 < weightFrom cs last.dMin / area + a → ∀ x ∈ S, 0 < weightFrom cs x.dMin / area + a := by
    intro a ha x hx
    have := div_le_div_of_nonneg_right (weightFrom_le hfrac (hle x hx)) harea.le
    linarith
  have hpl : (S.map (raisedPoint cs area 0)).getLast? = some (raisedPoint cs area 0 last) := by rw [List.getLast?_map, hlast]; rfl
  have hll : (S.map (fun x => (x.dMin, x.dMax))).getLast? = some (last.dMin, last.dMax) := by rw [List.getLast?_map, hlast]; rfl
  unfold resurfAdj
  rw [hpl]
  dsimp only
  by_cases hl : (S.map (raisedPoint cs area 0)).length > 1
  · rw [if_pos hl]
    rw [List.length_map] at hl
    obtain ⟨r, n, h1, h2, h3⟩ := resurf_rounds pfc.fit pfc.C (S.map (raisedPoint cs area 0)) (raisedPoint cs area 0 last)
      (RaiseStep cs area κ c0 (S.map (fun x => (x.dMin, x.dMax))) last.dMin) (fun a => 0 < weightFrom cs last.dMin / area + a) (by
        intro a ha
        obtain ⟨a0, v1, v2⟩ := raised_fit f hf cf hcf κ hκ hκ0 cs area a S hne hd (hpos a ha)
          ((S.map (raisedPoint cs area 0)).map fun q => { q with y := q.y + a }) (by
            rw [List.map_map, List.forall₂_map_right_iff, List.forall₂_same]
            intro x _
            exact ⟨rfl, by simp [raisedPoint]⟩)
        have hv : pfc.C last.dMin a0.best = 10 ^ (if a0.best = 0 then c0 else a0.best) * κ last.dMin := by
          apply hpfc.value
          unfold PFn.evaluate
          by_cases h0 : a0.best = 0
          · simp only [h0, if_true, hc0, except_ok_bind]
            exact hκ _ (hd last hlm) _
          · simp only [h0, if_false, except_ok_bind]
            exact hκ _ (hd last hlm) _
        rw [hpfc.fit _ _ v1]
        have e1 : (raisedPoint cs area 0 last).d = last.dMin := rfl
        have e2 : (raisedPoint cs area 0 last).y = weightFrom cs last.dMin / area := by simp [raisedPoint]
        rw [e1, e2, hv]
        refine ⟨⟨a0.best, v2, by ring⟩, ?_⟩
        have := mul_pos (pow10_pos (if a0.best = 0 then c0 else a0.best)) (hκ0 _ (hd last hlm))
        linarith) 21 0 0 rfl (by omega) (by rw [add_zero]; exact hy last hlm)
    refine ⟨r, n, h1, ⟨_, hll, fun h => ?_, fun _ => h2⟩, hpos r h3⟩
    rw [List.length_map] at h
    omega
  · rw [if_neg hl]
    rw [List.length_map] at hl
    refine ⟨0, 0, rfl, ⟨_, hll, fun _ => rfl, fun h => ?_⟩, fun x hx => by rw [add_zero]; exact hy x hx⟩
    rw [List.length_map] at h
    omega

/-- **C158, a list of craters.** A fit to the cumulative distribution of a list of craters, with correction for resurfacing: the craters per area are all raised by the same amount, which is found by repeated fitting, and stay positive; the density
found is the only one for which the raised values deviate least from the curve of the production function, over the bins with craters in the range; the bounds are those of the number of craters of at least the diameter of
the first bin, not raised; the ages are those of the chronology; the numbers are those of the craters in the bins. -/
theorem C158_fit (f : PFn) (hf : Constructed f) (c : Chron) (p0 p1 p3 : ℝ) (hc : GoodChron c p0 p1 p3) (cf : CurveFit) (hcf : CurveFitSpec cf) (pfc : PF) (hpfc : PlotOf f cf pfc)
    (κ : ℝ → ℝ) (hκ : ∀ d, 0 < d → ∀ a : ℝ, f.C d a = .ok (10 ^ a * κ d)) (c0 : ℝ) (hc0 : f.defaultA0 = .ok c0) (k : Reading.Count) (hpre : k.prebinned = false) (harea : 0 < k.area)
    (cs : List Crater) (hperm : k.craters.Perm cs) (hfrac : ∀ c ∈ cs, 0 < c.2) (b : Binning) (hb : b ≠ .none) (r : EReal × EReal) (ref : ℝ) (res : FitAge)
    (h : Verif.Age.fitAge f c cf pfc (object (.craters k)) .cFit b r true ref = .ok res) :
    ∃ first rest adj lo hi tlo thi, FitBins (gridOf b 0) cs r (first :: rest) ∧ Resurfaced cs k.area κ c0 (first :: rest) adj ∧
      (∀ x ∈ first :: rest, 0 < weightFrom cs x.1 / k.area + adj) ∧
      (∀ α, α ≠ res.a0.best → raisedDeviation cs k.area κ (first :: rest) adj res.a0.best < raisedDeviation cs k.area κ (first :: rest) adj α) ∧
      res.a0.lower = .ok lo ∧ res.a0.upper = .ok hi ∧
      lo = res.a0.best + Real.logb 10 (1 - 0.98 / Real.sqrt (countFrom cs first.1)) ∧ hi = res.a0.best + Real.logb 10 (1 + 0.98 / Real.sqrt (countFrom cs first.1)) ∧
      res.tLower = .ok tlo ∧ res.tUpper = .ok thi ∧
      AgeNear p0 p1 p3 (10 ^ res.a0.best) res.t ∧ AgeNear p0 p1 p3 (10 ^ lo) tlo ∧ AgeNear p0 p1 p3 (10 ^ hi) thi ∧
      res.n = ((first :: rest).map (fun x => weightIn cs x.1 x.2)).sum ∧ res.nEvent = (((first :: rest).map (fun x => countIn cs x.1 x.2)).sum : ℕ) := by
  unfold Verif.Age.fitAge at h
  dsimp only at h
  obtain ⟨pd, p1', h⟩ := except_bind_eq_ok h
  obtain ⟨a0, q1, h⟩ := except_bind_eq_ok h
  obtain ⟨t0, q2, h⟩ := except_bind_eq_ok h
  obtain ⟨nd, _, h⟩ := except_bind_eq_ok h
  injection h with h
  obtain ⟨t, ht, hfull⟩ : ∃ t, applyBinning b 0 k.craters = .ok t ∧ plotDataFull b t k.area (FitType.cFit.args b r true pfc) = .ok pd := by
    unfold Obj.getplotdata at p1'
    have hens : (object (.craters k)).ensure b = (applyBinning b 0 k.craters >>= fun t => .ok ⟨k.craters, k.area, false, some b, t⟩) := by
      simp [Obj.ensure, object, hpre]
    rw [show (FitType.cFit.args b r true pfc).binning = b from rfl, hens] at p1'
    cases hab : applyBinning b 0 k.craters with
    | error e => rw [hab] at p1'; cases p1'
    | ok t =>
      rw [hab] at p1'
      exact ⟨t, rfl, p1'⟩
  rw [C04_order_irrelevant b 0 _ _ hperm] at ht
  unfold plotDataFull at hfull
  obtain ⟨adj, hadj, hpd⟩ := except_bind_eq_ok hfull
  have hpd' : plotData .cumulative b t k.area adj (some pfc.C0) (some r) true false = .ok pd := hpd
  unfold adjOf at hadj
  rw [if_neg (by simp [FitType.args])] at hadj
  obtain ⟨pz, hpz, hadj⟩ := except_bind_eq_ok hadj
  have hpz' : plotData .cumulative b t k.area 0 none (some r) false false = .ok pz := hpz
  have hzp := raised_points hb ht hpz'
  have hpts := raised_points hb ht hpd'
  obtain ⟨_, g2, g3, _⟩ := plotData_ok hpd'
  have hcont := fun x hx => C03_bin_contents b hb 0 cs t ht x hx
  have hbins := selected_bins hb hfrac ht r
  set S := Verif.Spec.selected t (some r) false with hS
  have hsel : ∀ x ∈ S, x ∈ t ∧ 0 < x.n := by
    intro x hx
    simp only [hS, Verif.Spec.selected, List.mem_filter, decide_eq_true_eq] at hx
    exact ⟨hx.1, hx.2.1⟩
  have hdpos : ∀ x ∈ S, 0 < x.dMin := fun x hx => (hcont x (hsel x hx).1).2.2.2.1
  have hypos : ∀ x ∈ S, 0 < weightFrom cs x.dMin / k.area := fun x hx => div_pos (bin_weight hb hfrac ht (hsel x hx).1 (hsel x hx).2) harea
  have hκ0 : ∀ d, 0 < d → 0 < κ d := by
    intro d hd
    obtain ⟨K, hK⟩ := C20_cumulative_applies f
    obtain ⟨k1, k2⟩ := hK d 0 hd
    have k3 := hκ d hd 0
    rw [show FitKind.cumulative.curve f d 0 = f.C d 0 from rfl, k3] at k1
    injection k1 with k1
    rw [Real.rpow_zero, one_mul] at k1
    rw [k1]
    exact k2
  cases hSe : S with
  | nil =>
    rw [hpts, hSe] at q1
    cases q1
  | cons x0 S' =>
    have hne : S ≠ [] := by rw [hSe]; simp
    have hsort : S.Pairwise (fun x y => x.dMin < y.dMin) := by
      have := hbins.sorted
      rw [List.pairwise_map] at this
      exact this
    obtain ⟨adj', n, z1, z2, z3⟩ := raised_correction f hf cf hcf pfc hpfc κ hκ hκ0 c0 hc0 cs hfrac k.area harea S hne hsort hdpos hypos
    have hae : adj' = adj := by
      have e : (FitType.cFit.args b r true pfc).pf = some pfc := rfl
      rw [e] at hadj
      dsimp only at hadj
      rw [hzp, z1] at hadj
      injection hadj
    subst hae
    have hx0 : x0 ∈ S := by rw [hSe]; exact List.mem_cons_self
    have hhead : pd.points.head? = some (raisedPoint cs k.area adj' x0) := by rw [hpts, hSe]; rfl
    obtain ⟨a0'', v1, v2⟩ := raised_fit f hf cf hcf κ hκ hκ0 cs k.area adj' S hne hdpos z3 pd.points (by
      rw [hpts, List.forall₂_map_right_iff, List.forall₂_same]
      exact fun x _ => ⟨rfl, rfl⟩)
    have hw : f.fit cf FitKind.cumulative.pr pd.points = .ok a0 := q1
    have hw' : f.fit cf .cumulative pd.points = .ok a0 := q1
    rw [hw'] at v1
    injection v1 with v1
    subst v1
    have hmemp : ∀ p ∈ pd.points, ∃ x ∈ S, p = raisedPoint cs k.area adj' x := by
      intro p hp
      rw [hpts, List.mem_map] at hp
      obtain ⟨x, hx, rfl⟩ := hp
      exact ⟨x, hx, rfl⟩
    obtain ⟨K, hKdef⟩ : ∃ K : ℝ → ℝ → ℝ, ∀ d a, K d a = 10 ^ a * κ d := ⟨fun d a => 10 ^ a * κ d, fun _ _ => rfl⟩
    have hK : ∀ p ∈ pd.points, ∀ a, FitKind.cumulative.curve f p.d a = .ok (K p.d a) ∧ 0 < K p.d a := by
      intro p hp a
      obtain ⟨x, hx, rfl⟩ := hmemp p hp
      rw [hKdef]
      exact ⟨hκ _ (hdpos x hx) a, mul_pos (pow10_pos a) (hκ0 _ (hdpos x hx))⟩
    have hyp : ∀ p ∈ pd.points, 0 < p.y := by
      intro p hp
      obtain ⟨x, hx, rfl⟩ := hmemp p hp
      exact z3 x hx
    obtain ⟨a0', w1, w2, w3, w4, _⟩ := fit_eq f hf cf hcf .cumulative K pd.points _ hhead hK hyp hyp
    rw [hw] at w1
    injection w1 with w1
    subst w1
    have hM : (1 : ℝ) ≤ countFrom cs x0.dMin := by
      have : 0 < countFrom cs x0.dMin := by
        rw [countFrom, List.length_pos_iff]
        intro hnil
        have := hypos x0 hx0
        rw [weightFrom, hnil] at this
        simp at this
      exact_mod_cast this
    set M : ℝ := (countFrom cs x0.dMin : ℝ) with hMdef
    have hs1 : 1 ≤ Real.sqrt M := by rw [show (1 : ℝ) = Real.sqrt 1 by simp]; exact Real.sqrt_le_sqrt hM
    have hq : 0.98 / Real.sqrt M < 1 := by rw [div_lt_one (by linarith)]; norm_num; linarith
    have hq0 : 0 < 0.98 / Real.sqrt M := by positivity
    have hy0 := z3 x0 hx0
    have elo : a0.lower = .ok (a0.best + Real.logb 10 (1 - 0.98 / Real.sqrt M)) := by
      rw [w3]
      set Y := weightFrom cs x0.dMin / k.area + adj' with hY
      have e : (raisedPoint cs k.area adj' x0).y - 0.98 * (raisedPoint cs k.area adj' x0).err = Y * (1 - 0.98 / Real.sqrt M) := by
        show Y - 0.98 * (Y / Real.sqrt M) = _
        ring
      rw [e, log10E_pos (mul_pos hy0 (by linarith)), except_ok_bind, log10_mul hy0 (by linarith), show (raisedPoint cs k.area adj' x0).y = Y from rfl]
      congr 1
      unfold log10
      ring
    have ehi : a0.upper = .ok (a0.best + Real.logb 10 (1 + 0.98 / Real.sqrt M)) := by
      rw [w4]
      set Y := weightFrom cs x0.dMin / k.area + adj' with hY
      have e : (raisedPoint cs k.area adj' x0).y + 0.98 * (raisedPoint cs k.area adj' x0).err = Y * (1 + 0.98 / Real.sqrt M) := by
        show Y + 0.98 * (Y / Real.sqrt M) = _
        ring
      rw [e, log10E_pos (mul_pos hy0 (by linarith)), except_ok_bind, log10_mul hy0 (by linarith), show (raisedPoint cs k.area adj' x0).y = Y from rfl]
      congr 1
      unfold log10
      ring
    obtain ⟨p, c0', c1, c2, c3, c4, c5, c6⟩ := hc
    obtain ⟨age, _, b2, b3, _, _, b6, _, b8⟩ := C15_age_inversion p c c0' p0 p1 p3 c1 c2 c3 c4 c5 c6
    have hN : ∀ τ, c.N1 τ = .ok (p0 * (Real.exp (p1 * τ) - 1) + p3 * τ) := by
      intro τ
      obtain ⟨hp, _, _⟩ := init_tables c0' c1 c2 c3
      simp only [Chron.N1, hp, coeffs_ok c1 c2 c3, except_ok_bind, n1Coeff]
    have hage : ∀ n, AgeNear p0 p1 p3 n (age n) := by
      intro n
      refine ⟨(b3 n).1, (b3 n).2, ?_⟩
      rintro τ hτ rfl
      exact ⟨fun h5 => b6 τ hτ h5 _ (hN τ), fun h5 => b8 τ h5 _ (hN τ)⟩
    have et : t0 = age (10 ^ a0.best) := by
      rw [b2] at q2
      injection q2 with q2
      exact q2.symm
    have hl : S.map (fun x : Bin => (x.dMin, x.dMax)) = (x0.dMin, x0.dMax) :: S'.map (fun x : Bin => (x.dMin, x.dMax)) := by rw [hSe]; rfl
    rw [← h]
    dsimp only
    refine ⟨(x0.dMin, x0.dMax), S'.map (fun x : Bin => (x.dMin, x.dMax)), adj', _, _, age _, age _, by rw [← hl]; exact hbins, by rw [← hl]; exact z2, ?_, ?_, elo, ehi, rfl, rfl,
      by rw [elo]; exact b2 _ none, by rw [ehi]; exact b2 _ none, by rw [et]; exact hage _, hage _, hage _, ?_, ?_⟩
    · rw [← hl]
      intro x hx
      obtain ⟨y, hy, rfl⟩ := List.mem_map.1 hx
      exact z3 y hy
    · intro α hα
      rw [← hl]
      exact v2 α hα
    · rw [← hl, g2, List.map_map]
      congr 1
      refine List.map_congr_left ?_
      intro x hx
      exact (hcont x (hsel x hx).1).2.2.2.2.2.2.2.1
    · rw [← hl, g3, List.map_map, Nat.cast_list_sum, List.map_map]
      congr 1
      refine List.map_congr_left ?_
      intro x hx
      exact (hcont x (hsel x hx).1).2.2.2.2.2.2.2.2.1

/-- **C158, existence.** Every list of craters with an area can be fitted over its whole range of diameters with correction for resurfacing, with a production function which has a number of its own: no raised value becomes
negative on the way. -/
theorem C158_exists (f : PFn) (hf : Constructed f) (c0 : ℝ) (hc0 : f.defaultA0 = .ok c0) (c : Chron) (p0 p1 p3 : ℝ) (hc : GoodChron c p0 p1 p3) (cf : CurveFit) (hcf : CurveFitSpec cf) (pfc : PF) (hpfc : PlotOf f cf pfc)
    (k : Reading.Count) (hpre : k.prebinned = false) (harea : 0 < k.area) (hne : k.craters ≠ []) (hpos : ∀ c ∈ k.craters, 0 < c.1) (hfrac : ∀ c ∈ k.craters, 0 < c.2)
    (b : Binning) (hb : b ≠ .none) : ∃ res lo hi, Verif.Age.fitAge f c cf pfc (object (.craters k)) .cFit b (0, ⊤) true 1 = .ok res ∧
      res.binRange = (((lo : ℝ) : EReal), ((hi : ℝ) : EReal)) := by
  obtain ⟨K, hK⟩ := C20_cumulative_applies f
  have hC : ∀ a, f.C 1 a = .ok (K 1 a) := fun a => (hK 1 a one_pos).1
  have hev1 : ∃ n, f.evaluate .cumulative 1 none = .ok n := by
    refine ⟨K 1 c0, ?_⟩
    unfold PFn.evaluate
    simp only [hc0, except_ok_bind]
    exact hC c0
  have hκ : ∀ d, 0 < d → ∀ a : ℝ, f.C d a = .ok (10 ^ a * K d 0) := fun d hd a => by
    have hs := C16_scaling f hf d 0 a (K d 0)
    rw [zero_add] at hs
    exact hs.1 (hK d 0 hd).1
  obtain ⟨res0, _, _, hres0, _⟩ := C156_exists f hf hev1 c cf hcf pfc k hpre harea hne hpos hfrac b hb
  obtain ⟨first, rest, _, _, _, _, hfb, _⟩ := C156_fit f hf c p0 p1 p3 hc cf hcf pfc (fun d => K d 0) hκ k hpre harea _ (List.Perm.refl _) hfrac b hb (0, ⊤) 1 res0 hres0
  obtain ⟨t, ht, htne⟩ := C01_binning_succeeds b k.craters hne hpos 0
  have hl : 0 < t.length := List.length_pos_iff.2 htne
  have hbins := selected_bins hb hfrac ht (0, ⊤)
  have hcont := fun x hx => C03_bin_contents b hb 0 k.craters t ht x hx
  have hfst : first ∈ (Verif.Spec.selected t (some (0, ⊤)) false).map (fun x : Bin => (x.dMin, x.dMax)) := (hbins.bins _).2 ((hfb.bins _).1 List.mem_cons_self)
  have hdata : ∀ adj r1 Cf, ∃ pd, plotData .cumulative b t k.area adj Cf (some (0, ⊤)) r1 false = .ok pd ∧ pd.binRange = ((t[0].dMin : EReal), (t[t.length - 1].dMax : EReal)) := by
    intro adj r1 Cf
    have h1 := binRangeOf_open b hb _ t ht 0 (t.length - 1) (by omega) (by omega) 0 ⊤ r1 (by simp) (by simp)
    obtain ⟨pts, hpts⟩ := mapM_succeeds (point .cumulative k.area adj Cf)
      ((nonEmpty t).filter (inRange (0, ⊤) false)) (by
        intro x hx
        have h1 := (List.mem_filter.1 hx).1
        unfold nonEmpty at h1
        rw [List.mem_filter] at h1
        have := point_succeeds .cumulative (by simp) b hb 0 _ hfrac t ht k.area adj harea x h1.1 (by simpa using h1.2)
        exact this)
    obtain ⟨pd, hpd⟩ : ∃ pd, plotData .cumulative b t k.area adj Cf (some (0, ⊤)) r1 false = .ok pd := by
      simp only [plotData, hpts, h1, except_ok_bind]
      exact ⟨_, rfl⟩
    exact ⟨pd, hpd, C68_open_ends b hb _ t ht 0 (t.length - 1) (by omega) (by omega) 0 ⊤ r1 (by simp) (by simp) _ _ _ _ _ pd hpd⟩
  obtain ⟨pz, hpz, _⟩ := hdata 0 false none
  have hzp := raised_points hb ht hpz
  obtain ⟨S, hS⟩ : ∃ S, S = Verif.Spec.selected t (some (0, ⊤)) false := ⟨_, rfl⟩
  rw [← hS] at hbins hfst hzp
  have hSne : S ≠ [] := by
    rintro rfl
    cases hfst
  have hsel : ∀ x ∈ S, x ∈ t ∧ 0 < x.n := by
    intro x hx
    simp only [hS, Verif.Spec.selected, List.mem_filter, decide_eq_true_eq] at hx
    exact ⟨hx.1, hx.2.1⟩
  have hdpos : ∀ x ∈ S, 0 < x.dMin := fun x hx => (hcont x (hsel x hx).1).2.2.2.1
  have hypos : ∀ x ∈ S, 0 < weightFrom k.craters x.dMin / k.area := fun x hx => div_pos (bin_weight hb hfrac ht (hsel x hx).1 (hsel x hx).2) harea
  have hκ0 : ∀ d, 0 < d → 0 < K d 0 := fun d hd => (hK d 0 hd).2
  have hsort : S.Pairwise (fun x y => x.dMin < y.dMin) := by
    have := hbins.sorted
    rw [List.pairwise_map] at this
    exact this
  obtain ⟨adj, n, z1, _, z3⟩ := raised_correction f hf cf hcf pfc hpfc (fun d => K d 0) hκ hκ0 c0 hc0 k.craters hfrac k.area harea S hSne hsort hdpos hypos
  obtain ⟨pd, hpd, hbr⟩ := hdata adj true (some pfc.C0)
  have hpts := raised_points hb ht hpd
  rw [← hS] at hpts
  obtain ⟨a0, v1, _⟩ := raised_fit f hf cf hcf (fun d => K d 0) hκ hκ0 k.craters k.area adj S hSne hdpos z3 pd.points (by
      rw [hpts, List.forall₂_map_right_iff, List.forall₂_same]
      exact fun x _ => ⟨rfl, rfl⟩)
  have hget : ((object (.craters k)).getplotdata (FitType.cFit.args b (0, ⊤) true pfc)).2 = .ok pd := by
    unfold Obj.getplotdata
    have hens : (object (.craters k)).ensure b = .ok ⟨k.craters, k.area, false, some b, t⟩ := by
      simp [Obj.ensure, object, hpre, ht]
    rw [show (FitType.cFit.args b (0, ⊤) true pfc).binning = b from rfl, hens]
    show plotDataFull b t k.area (FitType.cFit.args b (0, ⊤) true pfc) = .ok pd
    have hadj : adjOf b t k.area (FitType.cFit.args b (0, ⊤) true pfc) = .ok adj := by
      unfold adjOf
      rw [if_neg (by simp [FitType.args])]
      have : plotData .cumulative b t k.area 0 none (FitType.cFit.args b (0, ⊤) true pfc).range false false = .ok pz := hpz
      rw [this, except_ok_bind, show (FitType.cFit.args b (0, ⊤) true pfc).pf = some pfc from rfl]
      dsimp only
      rw [hzp, z1]
    unfold plotDataFull
    rw [hadj, except_ok_bind]
    exact hpd
  obtain ⟨nd, hev⟩ : ∃ nd, densityAt f 1 [a0.best] = .ok nd := by
    simp only [densityAt]
    by_cases h0 : a0.best = 0
    · obtain ⟨n, hn⟩ := hev1
      refine ⟨n, ?_⟩
      rw [← hn, h0]
      simp only [PFn.evaluate, if_true]
    · rw [(C18_evaluate_partial f .cumulative 1).1 a0.best _ h0 rfl]
      exact ⟨_, hC _⟩
  obtain ⟨res, hr, ha⟩ := fitAge_ok (c := c) (k := .cFit) (b := b) (range := (0, ⊤)) (resurf := true) (pfc := pfc) (o := object (.craters k)) hget v1 hev
  refine ⟨res, t[0].dMin, t[t.length - 1].dMax, hr, ?_⟩
  unfold Verif.Age.fitAge at hr
  dsimp only at hr
  rw [hget, except_ok_bind] at hr
  obtain ⟨_, _, hr⟩ := except_bind_eq_ok hr
  obtain ⟨_, _, hr⟩ := except_bind_eq_ok hr
  obtain ⟨_, _, hr⟩ := except_bind_eq_ok hr
  injection hr with hr
  rw [← hr]
  exact hbr

/-- Specification: the number of its own of the production function of a chronology system: the first number of the polynomial, 0 for a table -/
def OwnNumber (ds : List (List Char × TVal)) (s : System) (p : List ℚ) (c0 : ℝ) : Prop :=
  (∃ (q : ℚ) (qs : List ℚ) (r : ℝ × ℝ), FunctionsDefined ds s p (q :: qs) r ∧ c0 = q) ∨ ∃ qs idx, TableDefined ds s p qs idx ∧ c0 = 0

theorem own_made {C : Classes} {v : TVal} {ds : List (List Char × TVal)} (hv : SourceOf C (.dict v) ds) (hpn : 2 ≤ (occurrences ds "production".toList).length)
    {s : System} {p : List ℚ} {c0 : ℝ} (hown : OwnNumber ds s p c0) {f : PFn} (hf : makeProduction C (.dict v) s.pf false = .ok (some f)) : f.defaultA0 = .ok c0 := by
  rcases hown with ⟨q, qs, r, hdef, rfl⟩ | ⟨qs, idx, hdef, rfl⟩
  · rw [polynomial_made hv hpn hdef hf]
    rfl
  · obtain ⟨_, ids, i1, i2, i3, i4, it, i5, i6, i7, ⟨r, i8⟩, i9⟩ := hdef
    have hty : typeField (.dict (dictOf ids)) = .ok (.str "tabular incremental root-2".toList) := by
      rw [typeField, if_pos (by rw [has_dictOf, i2]; rfl), tget_dictOf i2]
    obtain ⟨r', hr1⟩ : ∃ r', pairField (.dict (dictOf ids)) "range".toList = .ok r' := by
      rcases i8 with ⟨h1, rfl⟩ | ⟨a, b, h1, rfl⟩
      · exact ⟨none, pairField_none h1⟩
      · exact ⟨some (a, b), pairField_some h1⟩
    obtain ⟨y', hy1⟩ : ∃ y', pairField (.dict (dictOf ids)) "yrange".toList = .ok y' := by
      rcases i9 with h1 | ⟨a, b, h1⟩
      · exact ⟨_, pairField_none h1⟩
      · exact ⟨_, pairField_some h1⟩
    rw [makeProduction, definition_found (kind := productionKind false) hv (production_word false) hpn i1, ok_bind, hty, ok_bind, hr1, ok_bind, hy1, ok_bind, makeByType,
      if_neg (by rw [TVal.str.injEq]; decide), if_pos rfl, floats_entry i3, ok_bind, tget_dictOf i6, ok_bind, tint, i7] at hf
    dsimp only at hf
    rw [ok_bind] at hf
    cases hi : initTab (qs.map (fun q : ℚ => (q : ℝ))) (idx : ℤ) with
    | error e => rw [hi] at hf; cases e <;> cases hf
    | ok g =>
      rw [hi] at hf
      injection hf with hf
      injection hf with hf
      subst hf
      unfold initTab at hi
      obtain ⟨w, _, hi⟩ := except_bind_eq_ok hi
      dsimp only at hi
      cases hx : pyIndex w (idx : ℤ) with
      | none => rw [hx] at hi; cases hi
      | some x =>
        rw [hx] at hi
        dsimp only at hi
        rw [except_ok_bind] at hi
        split at hi
        · injection hi with hi
          rw [← hi]
          rfl
        · cases hi

/-- **C158, a command.** If the file given for a cumulative fit with correction for resurfacing lists craters with their area, its row in the table of ages shows the density for which the craters per area, all raised by the amount found by
repeated fitting, deviate least from the curve of the production function of the chronology system asked for, according to the list of functions, over the bins of the binning asked for with craters in the range asked for, with its
bounds and the ages of the chronology. -/
theorem C158_command_partial (C : Classes) (isNeg : List Char → Bool) (F : FileSys) (cwd : List Char) (words : List (List Char))
    (l flat : List Given) (cwd' : List Char) (n : ℕ) (hw : CommandOf isNeg words l) (h : Expands C isNeg F cwd l flat cwd' n)
    (depth : ℕ) (hd : n ≤ depth) (E : List Char → RunEnv Opened (EReal × EReal)) (hE : ∀ d, (E d).set.classes = C)
    (hdec : (E cwd').decode = decodeOf) (hload : ∀ c, (E cwd').load [] ≠ .ok c)
    (v : TVal) (ds : List (List Char × TVal)) (hv : SourceOf C (.dict v) ds) (systems : List System)
    (hsys : List.Forall₂ SystemEntry (occurrences ds "chronology_system".toList) systems) (h2 : 2 ≤ systems.length)
    (hcn : 2 ≤ (occurrences ds "chronology".toList).length) (hpn : 2 ≤ (occurrences ds "production".toList).length)
    (hset : (E cwd').set.systems = systems) (hnl : ∀ s ∈ systems, '\n' ∉ s.name)
    (T : TableRow.Env) (hT : ∀ x, OneField (T.floatStr x)) (hcf : CurveFitSpec T.curveFit) (plotPF : PFn → PF) (hplot : ∀ f, PlotOf f T.curveFit (plotPF f)) :
    ∃ st, runCommand C isNeg F depth cwd words = .ok st ∧ ∀ P out, prepareRun E st = .ok P → runTable C v T plotPF P = .ok out →
      ∃ i s, systems[i]? = some s ∧ (∀ (j : ℕ) s', j < i → systems[j]? = some s' → s'.name ≠ s.name) ∧
        SystemAsked (E cwd').set.lower (systems.map System.name) flat s.name ∧
        ∀ (p0 p1 p2 p3 : ℚ) more, 0 ≤ p0 → 0 ≤ p1 → 0 < p3 →
          ((∃ q qs r, FunctionsDefined ds s (p0 :: p1 :: p2 :: p3 :: more) (q :: qs) r) ∨ ∃ qs idx, TableDefined ds s (p0 :: p1 :: p2 :: p3 :: more) qs idx) →
        ∃ p input items, PresentedAs (E cwd').set.lower flat p ∧ InputOf flat input ∧
        List.Forall₂ (ItemsOf C) ((flat.filter (fun g => g.dest = "plot".toList)).map (fun g => g.values)) items ∧
        ∀ env : PlotEnv Opened, env = ⟨C, (E cwd').set.lower, (E cwd').path, (E cwd').isabs, input, p == "sequence".toList, (E cwd').load⟩ →
          PlainInput env → ∀ asks, AskedPlots env items asks → (∀ y ∈ agesAsked asks, FitsTable y.2) →
          ∀ (j : ℕ) q shp file diam frac a b, (agesAsked asks)[j]? = some (.cumulative, q) → q.resurf ≠ 0 → String.ofList q.binning = Binning.name b → b ≠ .none →
            ListsCraters C file diam frac a → 0 < a → (∀ x ∈ frac, 0 < x) → (E cwd').load q.source = openCount C shp ".diam".toList file →
            ∃ t row c r first rest κ c0 adj α, out = some t ∧ (split '\n' t)[3 + j]? = some row ∧ openCount C shp ".diam".toList file = .ok c ∧ RangeAsked c q r ∧
              FitBins (gridOf b 0) (craterPairs diam frac) r (first :: rest) ∧
              (∀ x ∈ first :: rest, CurveDefined ds s (p0 :: p1 :: p2 :: p3 :: more) x.1 (κ x.1)) ∧
              OwnNumber ds s (p0 :: p1 :: p2 :: p3 :: more) c0 ∧ Resurfaced (craterPairs diam frac) a κ c0 (first :: rest) adj ∧
              (∀ α', α' ≠ α → raisedDeviation (craterPairs diam frac) a κ (first :: rest) adj α < raisedDeviation (craterPairs diam frac) a κ (first :: rest) adj α') ∧
              (split ',' row)[0]? = some q.name ∧ Field (split ',' row) 1 (Denotes 5 (T.ρ (a : ℝ))) ∧ (split ',' row)[2]? = some q.binning ∧ (split ',' row)[5]? = some "c-fit".toList ∧ Field (split ',' row) 6 (fun x => intVal x = some q.resurf) ∧
              FitRow T p0 p1 p3 (craterPairs diam frac) first rest α (split ',' row) := by
  have hlist := C153_list C v ds hv systems hsys h2
  obtain ⟨st, h1, hchoice⟩ := C153_system C isNeg F cwd words l flat cwd' n hw h depth hd E hE v systems hlist hset hnl T plotPF
  refine ⟨st, h1, fun P out hP hout => ?_⟩
  obtain ⟨i, s, c, f, ref, mu, q2, q4, hask, _, _, hc, hf, htab⟩ := hchoice P out hP hout
  refine ⟨i, s, q2, q4, hask, ?_⟩
  intro p0 p1 p2 p3 more h0 h1' h3 hs
  obtain ⟨cids, hci, hcp⟩ : ChronologyDefined ds s (p0 :: p1 :: p2 :: p3 :: more) := by
    rcases hs with ⟨q, qs, r, hdef⟩ | ⟨qs, idx, hdef⟩
    · exact hdef.1
    · exact hdef.1
  have hgood := made_chron hv hcn hci hcp h0 h1' h3 hc
  set T' : TableRow.Env := { T with classes := C, chron := c, pf := f, plotPF := plotPF f, ref := ref, mu := mu } with hT'
  obtain ⟨st', h1'', htable⟩ := C152_table_partial C isNeg F cwd words l flat cwd' n hw h depth hd E hE hdec hload T' hT
  rw [h1] at h1''
  injection h1'' with h1''
  subst h1''
  obtain ⟨p, input, items, a1, a2, a3, hrows⟩ := htable P out hP htab
  refine ⟨p, input, items, a1, a2, a3, ?_⟩
  intro env henv hplain asks hasks hfits j q shp file diam frac a b hj hres hbin hb hlists ha hfr hopen
  have hne : agesAsked asks ≠ [] := by
    intro e
    rw [e] at hj
    simp at hj
  obtain ⟨t, fs, t1, _, _, hrow⟩ := (hrows env henv hplain asks hasks hfits).2 _ (List.getLast?_eq_some_getLast hne)
  obtain ⟨o, row, cc, r, range, r1, r2, r3, r4, r5, _, _, r8⟩ := hrow j _ q hj
  obtain ⟨k, k1, k2, k3, _, k5, k6, _⟩ := open_lists shp hlists
  rw [hopen, k1] at r3
  injection r3 with r3
  subst r3
  obtain ⟨b', res, b1, b2, b3, b4, b5, b6, b7, b8, b9, b10, _⟩ := r5
  have hbb : b' = b := binning_name (b1.trans hbin)
  subst hbb
  have hcurve : ∀ d : ℝ, ∃ y, 0 < d → CurveDefined ds s (p0 :: p1 :: p2 :: p3 :: more) d y := by
    intro d
    by_cases hd : 0 < d
    · obtain ⟨y, hy⟩ := (curve_made (p := p0 :: p1 :: p2 :: p3 :: more) hv hpn hf hd).1 hs
      exact ⟨y, fun _ => hy⟩
    · exact ⟨0, fun h => absurd h hd⟩
  choose κ hκ using hcurve
  have hz : (decide ((plotFor q (.craters k) r).resurf ≠ 0)) = true := by
    rw [decide_eq_true_iff]
    exact hres
  rw [hz] at b2
  have hfr' : ∀ x ∈ craterPairs diam frac, 0 < x.2 := by
    intro x hx
    rw [craterPairs, List.mem_map] at hx
    obtain ⟨y, hy, rfl⟩ := hx
    have := hfr y.2 (List.of_mem_zip hy).2
    show (0 : ℝ) < (y.2 : ℝ)
    exact_mod_cast this
  obtain ⟨c0, hown⟩ : ∃ c0, OwnNumber ds s (p0 :: p1 :: p2 :: p3 :: more) c0 := by
    rcases hs with ⟨q, qs, r, hdef⟩ | ⟨qs, idx, hdef⟩
    · exact ⟨_, .inl ⟨q, qs, r, hdef, rfl⟩⟩
    · exact ⟨_, .inr ⟨qs, idx, hdef, rfl⟩⟩
  obtain ⟨first, rest, adj, lo, hi, tlo, thi, f1, fr, _, f2, f3, f4, f5, f6, f7, f8, f9, f10, f11, f12, f13⟩ :=
    C158_fit f (made_constructed hf) c p0 p1 p3 hgood T.curveFit hcf (plotPF f) (hplot f) κ (fun d hd a0 => (curve_made hv hpn hf hd).2 _ (hκ d hd) a0) c0 (own_made hv hpn hown hf) k k5
      (by rw [k3]; exact_mod_cast ha) (craterPairs diam frac) k2 hfr' b' hb r ref res b2
  rw [k3] at f2 fr
  rw [f7] at b4
  rw [f8] at b5
  rw [f3] at b7
  rw [f4] at b8
  injection b4 with b4
  injection b5 with b5
  injection b7 with b7
  injection b8 with b8
  obtain ⟨_, w0, w1, w2, w3, w4, w5, w6, w7, w9, w10, w11, w12, w13, w14, w15, w16, w17, w18, _⟩ := r8
  refine ⟨t, row, _, r, first, rest, κ, c0, adj, res.a0.best, t1, r2, k1, r4, f1, ?_, hown, fr, f2, w0, ?_, w2, w5, w6, ?_⟩
  · intro x hx
    have hpos : 0 < x.1 := by
      obtain ⟨⟨g1, _⟩, _⟩ := (f1.bins x).1 hx
      obtain ⟨m, hm⟩ := (edge_iff hb 0 _).1 g1
      rw [hm]
      exact gridFn_pos _ 0 m
    exact hκ _ hpos
  · rw [← k3]
    exact w1
  · rw [b3, ← b4, ← b5] at *
    obtain ⟨s7, u1, s8, u2, u3, u4⟩ := w7
    refine ⟨?_, ⟨s8, u2, ?_⟩, ?_⟩
    · rcases u3 with ⟨_, e⟩ | ⟨e, _⟩
      · rw [u1, e, b9, f12]
      · exact absurd e (by decide)
    · rcases u4 with ⟨⟨_, _, e⟩, _⟩ | ⟨_, e⟩
      · cases e
      · rw [e, b10, f13, Nat.floor_natCast]
    · refine ⟨_, _, _, lo, hi, f5, f6, f9, f10, f11, w10, w11, w12, ?_⟩
      rw [b6, ← b7, ← b8] at *
      exact ⟨w13, w14, w15, w16, w17, w18⟩

/-! ### a command -/

/-- a command for the data of the file and a cumulative fit with correction for resurfacing -/
def resurfWords : List (List Char) := ["-p", "source=/m.diam,name=Mare", "-p", "type=c-fit,resurf=1"].map String.toList

def resurfItems : List (List (List Char × List Char)) :=
  [[("source".toList, "/m.diam".toList), ("name".toList, "Mare".toList)], [("type".toList, "c-fit".toList), ("resurf".toList, "1".toList)]]

def resurfGiven : List Given := [⟨"plot", ["source=/m.diam,name=Mare"]⟩, ⟨"plot", ["type=c-fit,resurf=1"]⟩].map
  fun x : String × List String => ⟨x.1.toList, x.2.map String.toList⟩

def resurfCheck : Bool :=
  match runCommand .ascii (fun _ => false) ageFiles 1 "/u/".toList resurfWords with
  | .ok st => match prepareRun (undecoded ageEnv) st with
    | .ok P => P.plots.all (fun x => isWhole x.2)
    | .error _ => false
  | .error _ => false

theorem resurf_check : resurfCheck = true := by decide +kernel

/-- the command can be run -/
theorem resurfed_runs : ∃ st P, runCommand .ascii (fun _ => false) ageFiles 1 "/u/".toList resurfWords = .ok st ∧ prepareRun ageEnv st = .ok P := by
  have h := resurf_check
  unfold resurfCheck at h
  have hw : CommandOf (fun _ => false) resurfWords resurfGiven := (C133_grammar _ _ _).1 (by decide +kernel)
  have hx : Expands .ascii (fun _ => false) ageFiles "/u/".toList resurfGiven resurfGiven "/u/".toList 0 := by
    refine .option _ _ _ _ _ _ (by unfold Loads; decide +kernel) (admissible_ok (by decide +kernel)) ?_
    refine .option _ _ _ _ _ _ (by unfold Loads; decide +kernel) (admissible_ok (by decide +kernel)) ?_
    exact .nil _ _
  obtain ⟨st, h1, hpl⟩ := C141_plots .ascii (fun _ => false) ageFiles "/u/".toList resurfWords resurfGiven resurfGiven "/u/".toList 0 hw hx 1 (by omega)
    (undecoded ageEnv) (fun _ => rfl)
  rw [h1] at h
  dsimp only at h
  cases hP : prepareRun (undecoded ageEnv) st with
  | error e => rw [hP] at h; cases h
  | ok P =>
    rw [hP] at h
    dsimp only at h
    obtain ⟨P', hP'⟩ : ∃ P', prepareRun ageEnv st = .ok P' := by
      apply run_decoded hP
      intro x hx
      have hwhole := List.all_eq_true.1 h x hx
      obtain ⟨p, input, items, dark, _, _, _, g4, _, g5⟩ := hpl P hP
      obtain ⟨i, hi, e⟩ := List.getElem_of_mem hx
      obtain ⟨_, _, s, c, b3, b4, _⟩ := g5 _ rfl i x.1 x.2 items[i] (by rw [List.getElem?_eq_getElem hi, e]) (List.getElem?_eq_getElem (by omega))
      have hc : c = sampleOpened := by
        have b3' : (if s = "/m.diam".toList then Except.ok sampleOpened else .error Exc.system) = Except.ok c := b3
        by_cases hs : s = "/m.diam".toList
        · rw [if_pos hs] at b3'
          injection b3' with b3'
          exact b3'.symm
        · rw [if_neg hs] at b3'
          cases b3'
      have hx2 : x.2.1 = c := by
        obtain ⟨c0, p0, specs, ds, c1, ratio, dark', r1, r2, r3, r4, r5, r6, r7, r8⟩ := run_ok hP
        obtain ⟨y, _, hy⟩ := forall₂_right (Verif.Cratercount.mapM_ok _ r8) hx
        obtain ⟨c', rv, bv, sv, d1, _, _, _, d5⟩ := made_range (o := x.1) (r := x.2) hy
        rw [b4] at d1
        injection d1 with d1
        injection d1 with d1
        injection d5 with d5
        rw [← d5, d1]
      obtain ⟨o, c', a, b, s'⟩ := x
      dsimp only at hx2 hwhole ⊢
      rw [hx2, hc]
      have hform : a = .strs ["0".toList, "inf".toList] ∧ b = .str "pseudo-log".toList ∧ s' = .num 1 := by
        unfold isWhole at hwhole
        split at hwhole
        · rename_i a b c e
          injection e with e1 e2
          injection e2 with e2 e3
          simp only [Bool.and_eq_true, beq_iff_eq] at hwhole
          obtain ⟨⟨w1, w2⟩, w3⟩ := hwhole
          exact ⟨by rw [e1, w1, w2], by rw [e2, w3], e3⟩
        · cases hwhole
      obtain ⟨rfl, rfl, rfl⟩ := hform
      exact ⟨_, sample_decodes⟩
    exact ⟨st, P', h1, hP'⟩

def askResurf : Ask := ⟨"c-fit".toList, "m".toList, "/m.diam".toList, "pseudo-log".toList, "0".toList, "inf".toList, 1, 1⟩

theorem resurfed_asked : AskedPlots agePlotEnv resurfItems [askData, askResurf] := by
  refine ⟨rfl, fun i q hi => ?_⟩
  match i, hi with
  | 0, hi =>
    injection hi with hi
    subst hi
    refine ⟨.inr ⟨not_given (by decide +kernel), by decide +kernel⟩, .inr ⟨not_given (by decide +kernel), by decide +kernel⟩,
      ⟨.num 1, .inr ⟨not_given (by decide +kernel), by decide +kernel⟩, .num 1⟩,
      ⟨"/m.diam".toList, last_given [] [("name".toList, "Mare".toList)] rfl (by decide +kernel) (by decide +kernel) (by decide +kernel), .inl ⟨.inl rfl, rfl⟩⟩, _, rfl,
      .inr ⟨not_given (by decide +kernel), by decide +kernel⟩, ⟨.num 0, .inr ⟨not_given (by decide +kernel), by decide +kernel⟩, .num 0⟩,
      "Mare".toList, .inl (last_given [("source".toList, "/m.diam".toList)] [] rfl (by decide +kernel) (by decide +kernel) (by decide +kernel)),
      .inl ⟨by decide, rfl⟩⟩
  | 1, hi =>
    injection hi with hi
    subst hi
    refine ⟨.inl (last_given [("source".toList, "/m.diam".toList), ("name".toList, "Mare".toList)] [("resurf".toList, "1".toList)] rfl (by decide +kernel) (by decide +kernel) (by decide +kernel)),
      .inr ⟨not_given (by decide +kernel), by decide +kernel⟩,
      ⟨.num 1, .inr ⟨not_given (by decide +kernel), by decide +kernel⟩, .num 1⟩,
      ⟨"/m.diam".toList, last_given [] [("name".toList, "Mare".toList), ("type".toList, "c-fit".toList), ("resurf".toList, "1".toList)] rfl (by decide +kernel) (by decide +kernel) (by decide +kernel),
        .inl ⟨.inl rfl, rfl⟩⟩, _, rfl,
      .inr ⟨not_given (by decide +kernel), by decide +kernel⟩, ⟨.str "1".toList, .inl (last_given [("type".toList, "c-fit".toList)] [] rfl (by decide +kernel) (by decide +kernel) (by decide +kernel)), .text _ 1 (by decide +kernel)⟩,
      [], .inr ⟨not_given (by decide +kernel), by decide +kernel⟩,
      .inr ⟨rfl, "/".toList, ".diam".toList, ?_, by decide +kernel⟩⟩
    refine ⟨rfl, by decide +kernel, .inr ⟨'/', rfl, by decide +kernel⟩, by decide +kernel, .inr ?_, fun h => absurd h (by decide)⟩
    exact ⟨"diam".toList, rfl, by decide +kernel, by decide +kernel, by decide +kernel⟩
  | n + 2, hi => cases hi

/-- nothing else is given -/
theorem resurfed_no (k : String) (hk : k.toList ≠ "plot".toList) : ∀ g ∈ resurfGiven, g.dest ≠ k.toList := by
  intro g hg
  simp only [resurfGiven, List.map_cons, List.map_nil, List.mem_cons, List.not_mem_nil, or_false] at hg
  rcases hg with rfl | rfl <;> exact fun h => hk h.symm

theorem resurfed_presented {p : List Char} (h : PresentedAs (ageEnv "/u/".toList).set.lower resurfGiven p) : p = "differential".toList := by
  rcases h with ⟨_, h⟩ | ⟨v, ⟨pre, post, e, _⟩, _⟩
  · exact h
  · exact absurd rfl (resurfed_no "presentation" (by decide) ⟨"presentation".toList, [v]⟩ (by rw [e]; simp))

theorem resurfed_input {f : Option (List Char)} (h : InputOf resurfGiven f) : f = none := by
  rcases h with ⟨_, h⟩ | ⟨⟨v, ⟨pre, post, e, _⟩, _⟩, _⟩
  · exact h
  · exact absurd rfl (resurfed_no "input" (by decide) ⟨"input".toList, v⟩ (by rw [e]; simp))

theorem resurfed_e : (resurfGiven.filter (fun g => g.dest = "plot".toList)).map (fun g => g.values) =
      [["source=/m.diam,name=Mare".toList], ["type=c-fit,resurf=1".toList]] := by decide +kernel

theorem resurfed_items {items : List (List (List Char × List Char))}
    (h : List.Forall₂ (ItemsOf .ascii) ((resurfGiven.filter (fun g => g.dest = "plot".toList)).map (fun g => g.values)) items) : items = resurfItems :=
  two_items h resurfed_e sample_p1 (by decide +kernel)

theorem resurfed_ages : agesAsked [askData, askResurf] = [(.cumulative, askResurf)] := by
  have e1 : kindNamed "data".toList = none := by decide +kernel
  have e2 : kindNamed "c-fit".toList = some .cumulative := by decide +kernel
  have f1 : kindNamed askData.type = none := e1
  have f2 : kindNamed askResurf.type = some .cumulative := e2
  simp only [agesAsked, List.filterMap_cons, List.filterMap_nil, f1, f2, Option.map_none, Option.map_some]

theorem resurfed_fitting : ∀ y ∈ agesAsked [askData, askResurf], FitsTable y.2 := by
  rw [resurfed_ages]
  intro y hy
  rw [List.mem_singleton] at hy
  subst hy
  show "m".toList ≠ [] ∧ OneField "m".toList ∧ OneField "/m.diam".toList ∧ OneField "pseudo-log".toList
  decide +kernel

theorem resurfed_range (r : EReal × EReal) (hr : RangeAsked sampleOpened askResurf r) : r = (0, ⊤) := by
  obtain ⟨k, hk, hkb, _⟩ := sample_listed
  rw [hk] at hr
  exact C152_whole k hkb askResurf rfl rfl r hr

theorem resurfed_words : CommandOf (fun _ => false) resurfWords resurfGiven := (C133_grammar _ _ _).1 (by decide +kernel)

theorem resurfed_expands : Expands .ascii (fun _ => false) ageFiles "/u/".toList resurfGiven resurfGiven "/u/".toList 0 := by
  refine .option _ _ _ _ _ _ (by unfold Loads; decide +kernel) (admissible_ok (by decide +kernel)) ?_
  refine .option _ _ _ _ _ _ (by unfold Loads; decide +kernel) (admissible_ok (by decide +kernel)) ?_
  exact .nil _ _

/-- the table of the sample can be made -/
theorem resurfed_written (T : TableRow.Env) (hT : ∀ x, OneField (T.floatStr x)) (o : Outcome) (ho : FitFound T (plotFor askResurf sampleOpened (0, ⊤)) .cFit o)
    (hbr : ∀ r, o.bins = some r → Writable r) (st : CmdState) (P : Prepared Opened (EReal × EReal))
    (hst : runCommand .ascii (fun _ => false) ageFiles 1 "/u/".toList resurfWords = .ok st) (hP : prepareRun ageEnv st = .ok P) :
    ∃ out, TableRow.table T P.plots = .ok out := by
  obtain ⟨st', hst', hpl⟩ := C152_plots .ascii (fun _ => false) ageFiles "/u/".toList resurfWords resurfGiven resurfGiven "/u/".toList 0 resurfed_words resurfed_expands 1 (by omega)
    ageEnv (fun _ => rfl) rfl sample_noload
  rw [hst] at hst'
  injection hst' with hst'
  subst hst'
  obtain ⟨p, input, items, g1, g2, g3, g4, g5⟩ := hpl P hP
  obtain rfl := resurfed_presented g1
  obtain rfl := resurfed_input g2
  obtain rfl := resurfed_items g3
  have hall : List.Forall₂ (Answers (ageEnv "/u/".toList).load) [askData, askResurf] P.plots := by
    rw [List.forall₂_iff_get]
    refine ⟨g4.symm, fun i hi hj => ?_⟩
    exact g5 agePlotEnv rfl sample_plain i _ _ (List.getElem?_eq_getElem hj) (resurfed_asked.2 i _ (List.getElem?_eq_getElem hi))
  obtain ⟨ps, i1, i2⟩ := plots_of_asks hall
  rw [resurfed_ages] at i2
  cases i2 with
  | @cons a z as zs hz i2 =>
    cases i2
    obtain ⟨z1, c', r, z2, z3, z4⟩ := hz
    have z2' : (ageEnv "/u/".toList).load "/m.diam".toList = .ok c' := z2
    rw [sample_load] at z2'
    injection z2' with z2'
    subst z2'
    obtain rfl := resurfed_range r z3
    apply C147_written T hT P.plots [z] i1
    · intro p hp
      rw [List.mem_singleton] at hp
      subst hp
      rw [z4]
      exact resurfed_fitting _ (by rw [resurfed_ages]; exact List.mem_singleton_self _)
    · intro p hp
      rw [List.mem_singleton] at hp
      subst hp
      rw [z1, z4]
      exact ⟨.inl rfl, o, ho, hbr⟩
    · intro last hl hb p hp
      rw [List.mem_singleton] at hp
      subst hp
      rw [z1]
      rfl

theorem resurfed_system {lower : Char → Char} {names : List (List Char)} {name : List Char} (h : SystemAsked lower names resurfGiven name) :
    name = "Moon, Neukum (1983)".toList := by
  rcases h with ⟨_, h⟩ | ⟨t, k, ⟨pre, post, e, _⟩, _⟩
  · exact h
  · exact absurd rfl (resurfed_no "chronology_system" (by decide) ⟨"chronology_system".toList, [t]⟩
      (by rw [e]; exact List.mem_append_right _ List.mem_cons_self))

/-- the settings of the sample -/
theorem resurfed_settings {st : CmdState} {P : Prepared Opened (EReal × EReal)} (hst : runCommand .ascii (fun _ => false) ageFiles 1 "/u/".toList resurfWords = .ok st)
    (hP : prepareRun ageEnv st = .ok P) : numberAttr P.set "ref_diameter" = .ok 1 ∧ numberAttr P.set "mu" = .ok 1 := by
  obtain ⟨st', h1, hdisp⟩ := C141_display_partial .ascii (fun _ => false) ageFiles "/u/".toList resurfWords resurfGiven resurfGiven "/u/".toList 0 resurfed_words
    resurfed_expands 1 (by omega) ageEnv (fun _ => rfl)
  rw [hst] at h1
  injection h1 with h1
  subst h1
  obtain ⟨p, _, _, hd⟩ := hdisp P hP
  obtain ⟨w, w1, w2⟩ := (hd "ref_diameter" (by decide) (fun _ => by decide)).2 (resurfed_no _ (by decide))
  obtain ⟨u, u1, u2⟩ := (hd "mu" (by decide) (fun _ => by decide)).2 (resurfed_no _ (by decide))
  obtain rfl := standard_ref w1
  obtain rfl := standard_mu u1
  constructor
  · unfold numberAttr
    rw [w2]
    dsimp only
    norm_num
  · unfold numberAttr
    rw [u2]
    dsimp only
    norm_num

theorem resurfed_named {st : CmdState} {P : Prepared Opened (EReal × EReal)} (hst : runCommand .ascii (fun _ => false) ageFiles 1 "/u/".toList resurfWords = .ok st)
    (hP : prepareRun ageEnv st = .ok P) : getStr P.settings "chronology_system" = .ok "Moon, Neukum (1983)".toList := by
  obtain ⟨st', h1, hcwd, hs⟩ := C133_in_place_partial .ascii (fun _ => false) ageFiles "/u/".toList resurfWords resurfGiven resurfGiven "/u/".toList 0 resurfed_words
    resurfed_expands 1 (by omega)
  rw [hst] at h1
  injection h1 with h1
  subst h1
  obtain ⟨c0, p0, specs, ds, c1, ratio, dark, r1, r2, r3, r4, r5, r6, r7, r8⟩ := run_ok hP
  rw [hcwd] at r1 r5
  have n0 := settings_nodup r1
  obtain ⟨n1, e1⟩ := defaultName_keys r5 n0
  obtain ⟨n2, e2⟩ := legend_keys r6 n1
  have hnl : ∀ s ∈ (ageEnv "/u/".toList).set.systems, '\n' ∉ s.name := by
    show ∀ s ∈ exEnv.systems, '\n' ∉ s.name
    decide +kernel
  obtain ⟨name, i, s, q1, q2, q3, q4, _, _, q5, q6⟩ := C60_system (ageEnv "/u/".toList).set hnl _ _ r1
  have hn := q5 ((args_last hs "chronology_system" (by decide)).2 (resurfed_no _ (by decide)))
  rw [getStr, e2 _ (by decide), e1 _ (by decide), q1, hn]

/-- the command of the sample with the functions of the small list: the row of the fit to the four craters -/
example (T : TableRow.Env) (hT : ∀ x, OneField (T.floatStr x)) (hcf : CurveFitSpec T.curveFit) (plotPF : PFn → PF)
    (hplot : ∀ f, PlotOf f T.curveFit (plotPF f)) : ∃ v st P t row first rest κ adj α,
    loadFunctions .ascii none smallDisk = .ok v ∧
    runCommand .ascii (fun _ => false) ageFiles 1 "/u/".toList resurfWords = .ok st ∧ prepareRun ageEnv st = .ok P ∧
    runTable .ascii v T plotPF P = .ok (some t) ∧ (split '\n' t)[3]? = some row ∧ (split ',' row)[0]? = some "m".toList ∧
    FitBins (gridOf .pseudoLog 0) (craterPairs [1, 3, 3 / 2, 2] [1, 1, 1 / 2, 1]) (0, ⊤) (first :: rest) ∧
    Resurfaced (craterPairs [1, 3, 3 / 2, 2] [1, 1, 1 / 2, 1]) 10 κ 0 (first :: rest) adj ∧
    (∀ α', α' ≠ α → raisedDeviation (craterPairs [1, 3, 3 / 2, 2] [1, 1, 1 / 2, 1]) 10 κ (first :: rest) adj α < raisedDeviation (craterPairs [1, 3, 3 / 2, 2] [1, 1, 1 / 2, 1]) 10 κ (first :: rest) adj α') ∧
    FitRow T 0 0 2 (craterPairs [1, 3, 3 / 2, 2] [1, 1, 1 / 2, 1]) first rest α (split ',' row) := by
  obtain ⟨v, hv, hsrc⟩ := small_source
  obtain ⟨st, P, hst, hP⟩ := resurfed_runs
  have hlist := C153_list .ascii v _ hsrc _ small_systems (by decide)
  have hcn : 2 ≤ (occurrences smallDefinitions "chronology".toList).length := by decide +kernel
  have hpn : 2 ≤ (occurrences smallDefinitions "production".toList).length := by decide +kernel
  obtain ⟨c, hc, hinit⟩ := small_chronology hsrc
  have hgood : GoodChron c 0 0 2 := ⟨_, hinit, rfl, rfl, rfl, le_rfl, le_rfl, two_pos⟩
  obtain ⟨hl, ho, _⟩ := sample_count.choose_spec.choose_spec
  have ho' : openCount .ascii (.error .system) ".diam".toList sampleFile = .ok sampleOpened := ho
  obtain ⟨k, k1, k2, k3, _, k5, _, _⟩ := open_lists (.error .system) hl
  have hk : sampleOpened = .craters k := by
    have : openCount .ascii (.error .system) ".diam".toList sampleFile = .ok (.craters k) := k1
    rw [ho'] at this
    injection this
  obtain ⟨k', hk', _, hkne, hkd⟩ := sample_listed
  obtain rfl : k' = k := Opened.craters.inj (hk'.symm.trans hk)
  have hfr : ∀ x ∈ craterPairs [1, 3, 3 / 2, 2] [1, 1, 1 / 2, 1], 0 < x.2 := by
    intro x hx
    simp only [craterPairs, List.zip_cons_cons, List.zip_nil_right, List.map_cons, List.map_nil, List.mem_cons, List.not_mem_nil, or_false] at hx
    rcases hx with rfl | rfl | rfl | rfl <;> norm_num
  have hfr' : ∀ x ∈ k'.craters, 0 < x.2 := fun x hx => hfr x (k2.mem_iff.1 hx)
  obtain ⟨f, hf⟩ : ∃ f, f = initPoly [0, -1] (some (1, 2.5)) := ⟨_, rfl⟩
  have hcon : Constructed f := hf ▸ .inl ⟨_, _, rfl⟩
  obtain ⟨K, hK⟩ := C20_cumulative_applies f
  have hdef0 : f.defaultA0 = .ok 0 := by rw [hf]; rfl
  have ha : 0 < k'.area := by rw [k3]; norm_num
  obtain ⟨res, lo', hi', hres, hbr⟩ := C158_exists f hcon 0 hdef0 c 0 0 2 hgood T.curveFit hcf (plotPF f) (hplot f) k' k5 ha hkne
    (fun x hx => lt_of_lt_of_le (by norm_num) (hkd x hx)) hfr' .pseudoLog (by simp)
  obtain ⟨_, _, _, lo, hi, tlo, thi, _, _, _, _, f3, f4, _, _, f7, f8, _⟩ := C158_fit f hcon c 0 0 2 hgood T.curveFit hcf (plotPF f) (hplot f) (fun d => K d 0)
    (fun d hd a => by
      have hs := C16_scaling f hcon d 0 a (K d 0)
      rw [zero_add] at hs
      exact hs.1 (hK d 0 hd).1) 0 hdef0 k' k5 ha _ (List.Perm.refl _) hfr' .pseudoLog (by simp) (0, ⊤) 1 res hres
  obtain ⟨t1, t2⟩ := resurfed_settings hst hP
  have hfun : systemFunctions .ascii v "Moon, Neukum (1983)".toList = .ok (c, initPoly [0, -1] (some (1, 2.5))) := by
    have hfind : exEnv.systems.find? (fun s => s.name = "Moon, Neukum (1983)".toList) =
        some ⟨"Moon, Neukum (1983)".toList, "c".toList, "p".toList, "Moon".toList⟩ := by decide +kernel
    unfold systemFunctions
    rw [hlist, ok_bind, hfind]
    dsimp only
    rw [hc, ok_bind, small_production hsrc, ok_bind]
  obtain ⟨out, hout⟩ : ∃ out, runTable .ascii v T plotPF P = .ok out := by
    unfold runTable
    rw [resurfed_named hst hP, ok_bind, hfun, ok_bind, t1, ok_bind, t2, ok_bind]
    have := resurfed_written ⟨.ascii, T.ρ, T.floatStr, f, plotPF f, c, T.simpson, T.curveFit, 1, decide ((1 : ℝ) ≠ 0)⟩ hT
      ⟨(res.t, tlo, thi), (res.a0.best, lo, hi), res.n, res.nEvent, some res.binRange⟩
      ⟨.pseudoLog, res, by decide +kernel, by rw [show (plotFor askResurf sampleOpened (0, ⊤)).count = .craters k' from hk]; exact hres, rfl, f7, f8, rfl, f3, f4, rfl, rfl, rfl⟩
      (by
        intro r hr
        injection hr with hr
        rw [← hr, hbr]
        exact .inr ⟨_, _, rfl⟩) st P hst hP
    rw [hf] at this
    exact this
  obtain ⟨st', hst', hfile⟩ := C158_command_partial .ascii (fun _ => false) ageFiles "/u/".toList resurfWords resurfGiven resurfGiven "/u/".toList 0 resurfed_words resurfed_expands 1
    (by omega) ageEnv (fun _ => rfl) rfl sample_noload v smallDefinitions hsrc exEnv.systems small_systems (by decide) hcn hpn rfl (by decide +kernel) T hT hcf plotPF hplot
  rw [hst] at hst'
  injection hst' with hst'
  subst hst'
  obtain ⟨i, s, s1, _, s2, s3⟩ := hfile P out hP hout
  have hs : s = ⟨"Moon, Neukum (1983)".toList, "c".toList, "p".toList, "Moon".toList⟩ := by
    have hn := resurfed_system s2
    have : ∀ s ∈ exEnv.systems, s.name = "Moon, Neukum (1983)".toList → s = ⟨"Moon, Neukum (1983)".toList, "c".toList, "p".toList, "Moon".toList⟩ := by
      decide +kernel
    exact this s (List.mem_of_getElem? s1) hn
  subst hs
  obtain ⟨p, input, items, g1, g2, g3, g4⟩ := s3 0 0 0 2 [] le_rfl le_rfl (by norm_num) (.inl ⟨0, [-1], (1, 2.5), small_functions⟩)
  obtain rfl := resurfed_presented g1
  obtain rfl := resurfed_input g2
  obtain rfl := resurfed_items g3
  obtain ⟨t, row, c', r, first, rest, κ, c0, adj, α, e1, e2, e3, e4, e5, _, eo, er, e6, e7, _, _, _, _, e8⟩ := g4 agePlotEnv rfl sample_plain [askData, askResurf] resurfed_asked resurfed_fitting 0 askResurf
    (.error .system) sampleFile [1, 3, 3 / 2, 2] [1, 1, 1 / 2, 1] 10 .pseudoLog (by rw [resurfed_ages]; rfl) (by decide) (by decide +kernel) (by simp) hl (by norm_num)
    (by intro x hx; simp only [List.mem_cons, List.not_mem_nil, or_false] at hx; rcases hx with rfl | rfl | rfl | rfl <;> norm_num) (sample_load.trans ho.symm)
  rw [ho'] at e3
  injection e3 with e3
  subst e3
  obtain rfl := resurfed_range r e4
  obtain rfl : c0 = 0 := by
    have h1 := own_made hsrc hpn eo (small_production hsrc)
    rw [← hf, hdef0] at h1
    exact (Except.ok.inj h1).symm
  norm_num at er e6 e8
  exact ⟨v, st, P, t, row, first, rest, κ, adj, α, hv, hst, hP, by rw [hout, e1], e2, e7, e5, er, e6, e8⟩

end

end Verif.Props
