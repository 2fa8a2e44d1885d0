import Verif.Props.Age
import Verif.Props.Stat

/-! C102: ages from cumulative fits with resurfacing correction. -/

namespace Verif.Props
open Verif.Cratercount Verif.Py Verif.Spec Verif.Chronology Verif.Production Verif.Craterpdf Verif.Age

noncomputable section

/-- Specification: `adj` is a correction reached by repeated fitting of the points `p0`: the corrected value at the largest diameter lies on
the curve fitted to the points with the previous correction -/
def Corrected (fit : List Point → ℝ) (C : ℝ → ℝ → ℝ) (p0 : List Point) (adj : ℝ) : Prop :=
  (p0.length < 2 → adj = 0) ∧
  (2 ≤ p0.length → ∃ last prev, p0.getLast? = some last ∧ last.y + adj = C last.d (fit (p0.map fun q => { q with y := q.y + prev })))

/-- the data of a fit: correction and points -/
theorem fit_data {bn : Binning} {t : List Bin} {area : ℝ} {b : Binning} {range : EReal × EReal} {pfc : PF} {resurf : Bool}
    {pd p0 : PlotData}
    (h : plotDataFull bn t area (FitType.cFit.args b range resurf pfc) = .ok pd)
    (h0 : plotDataFull bn t area (FitType.cFit.args b range false pfc) = .ok p0) :
    ∃ adj, pd.points.map Point.d = p0.points.map Point.d ∧ pd.points.map Point.y = p0.points.map (fun p => p.y + adj) ∧
      pd.n = p0.n ∧ pd.nEvent = p0.nEvent ∧ (resurf = false → adj = 0) ∧ (resurf = true → Corrected pfc.fit pfc.C p0.points adj) := by
  unfold plotDataFull at h h0
  obtain ⟨adj, ha, h⟩ := except_bind_eq_ok h
  obtain ⟨adj0, ha0, h0⟩ := except_bind_eq_ok h0
  have hz : adj0 = 0 := by
    unfold adjOf at ha0
    simp only [FitType.args, Bool.false_eq_true, if_false, if_true] at ha0
    injection ha0 with e
    exact e.symm
  subst hz
  simp only [FitType.args] at h h0
  obtain ⟨a1, a2, a3, _⟩ := plotData_ok h
  obtain ⟨b1, b2, b3, _⟩ := plotData_ok h0
  refine ⟨adj, ?_, ?_, a2.trans b2.symm, a3.trans b3.symm, ?_, ?_⟩
  · rw [← forall₂_map_eq a1 (f := plotDiameter .cumulative) (fun a b hab => (pointOK_d hab).symm),
      ← forall₂_map_eq b1 (f := plotDiameter .cumulative) (fun a b hab => (pointOK_d hab).symm)]
  · rw [← forall₂_map_eq a1 (f := fun x => x.ncum / area + adj) (fun a b hab => hab.2.2.2.1.symm),
      ← forall₂_map_eq b1 (f := fun x => x.ncum / area + adj) (fun a b hab => by rw [hab.2.2.2.1]; ring)]
  · rintro rfl
    unfold adjOf at ha
    simp only [FitType.args, Bool.false_eq_true, if_false, if_true] at ha
    injection ha with e
    exact e.symm
  · rintro rfl
    unfold adjOf at ha
    simp only [FitType.args, if_true] at ha
    rw [if_neg (by simp)] at ha
    obtain ⟨q, hq, ha⟩ := except_bind_eq_ok ha
    -- the points fitted inside the correction are the uncorrected ones
    have hpts : q.points = p0.points := by
      have hh : ∀ C : Option (ℝ → ℝ), plotData .cumulative bn t area 0 C (some range) false false =
          plotData .cumulative bn t area 0 none (some range) false false := by
        intro C
        simp only [plotData]
        have : point .cumulative area 0 C = point .cumulative area 0 none := by
          funext x; simp [point]
        rw [this]
      have e1 := hh (Option.map PF.C0 (some pfc))
      have h0' : plotData .cumulative bn t area 0 (Option.map PF.C0 (some pfc)) (some range) false false = .ok p0 := by
        simpa using h0
      rw [e1, hq] at h0'
      injection h0' with e
      rw [e]
    obtain ⟨x, n, e1, _, e3, e4⟩ := C13_resurfacing_finishes pfc.fit pfc.C q.points
    rw [e1] at ha
    injection ha with ha
    subst ha
    rw [hpts] at e3 e4
    refine ⟨fun hl => (e3 hl).1, fun hl => ?_⟩
    obtain ⟨last, prev, f1, f2, _⟩ := e4 hl
    exact ⟨last, prev, f1, f2⟩

/-- **C102 (partial).** The age from a cumulative fit with resurfacing correction comes from a fit to the points used without the correction,
each raised by the same amount, reached by repeated fitting; the reported crater numbers are those without the correction.  Without the
option the points are fitted as they are.  Missing: that the amount is the converged one (counterexample below). -/
theorem C102_fit_partial (pf : PFn) (c : Chron) (cf : CurveFit) (pfc : PF) (o : Obj) (b : Binning) (range : EReal × EReal) (resurf : Bool)
    (ref : ℝ) (r : FitAge) (h : fitAge pf c cf pfc o .cFit b range resurf ref = .ok r) (p0 : PlotData)
    (h0 : (o.getplotdata { pr := .cumulative, binning := b, range := some range, resurfacing := some 0, showall := false, pf := some pfc }).2
      = .ok p0) :
    ∃ adj pts, pts.map Point.d = p0.points.map Point.d ∧ pts.map Point.y = p0.points.map (fun p => p.y + adj) ∧
      pf.fit cf .cumulative pts = .ok r.a0 ∧ r.n = p0.n ∧ r.nEvent = p0.nEvent ∧
      (resurf = false → adj = 0) ∧ (resurf = true → Corrected pfc.fit pfc.C p0.points adj) := by
  unfold fitAge at h
  dsimp only at h
  obtain ⟨pd, h1, h⟩ := except_bind_eq_ok h
  obtain ⟨a0, h2, h⟩ := except_bind_eq_ok h
  obtain ⟨t, h3, h⟩ := except_bind_eq_ok h
  obtain ⟨nd, h4, h⟩ := except_bind_eq_ok h
  injection h with h
  subst h
  unfold Obj.getplotdata at h1 h0
  have eb : (FitType.cFit.args b range resurf pfc).binning = b := rfl
  rw [eb] at h1
  dsimp only at h0
  cases ho : o.ensure b with
  | error e => rw [ho] at h1; cases h1
  | ok o' =>
    rw [ho] at h1 h0
    dsimp only at h1 h0
    cases hb : o'.binning with
    | none => rw [hb] at h1; cases h1
    | some bn =>
      rw [hb] at h1 h0
      dsimp only at h1 h0
      obtain ⟨adj, e1, e2, e3, e4, e5, e6⟩ := fit_data (resurf := resurf) h1 (by simpa [FitType.args] using h0)
      exact ⟨adj, pd.points, e1, e2, h2, e3, e4, e5, e6⟩

/-- a count with two bins -/
def twoBins : Obj := ⟨[], 10, true, some .none, [⟨1, 2, 1, 1.5, 14, 14, 15, 15⟩, ⟨2, 4, 2, 2.8, 1, 1, 1, 1⟩]⟩

/-- a fit which always gives 10⁰ and a curve which is 1 -/
def flat : PF := ⟨fun _ => 1, fun _ _ => 1, fun _ => 1⟩

theorem twoBins_data (adj : ℝ) (C : Option (ℝ → ℝ)) (r1 : Bool) :
    plotData .cumulative .none twoBins.binned 10 adj C (some (0, ⊤)) r1 false =
      .ok ⟨[⟨1, 15 / 10 + adj, (15 / 10 + adj) / Real.sqrt 15⟩, ⟨2, 1 / 10 + adj, (1 / 10 + adj) / Real.sqrt 1⟩], 15, 15,
        (((1 : ℝ) : EReal), ((4 : ℝ) : EReal))⟩ := by
  have hk : (nonEmpty twoBins.binned).filter (inRange (0, ⊤) false) = twoBins.binned := by
    have h3 : ((0 : EReal) < ((1.5 : ℝ) : EReal)) := by exact_mod_cast (by norm_num : (0 : ℝ) < 1.5)
    have h4 : ((0 : EReal) < ((2.8 : ℝ) : EReal)) := by exact_mod_cast (by norm_num : (0 : ℝ) < 2.8)
    simp [nonEmpty, inRange, twoBins, h3, h4, EReal.coe_lt_top]
  have hbr : binRangeOf .none twoBins.binned (0, ⊤) r1 = .ok (((1 : ℝ) : EReal), ((4 : ℝ) : EReal)) := by
    cases r1 <;> simp [binRangeOf, twoBins]
  have p1 : point .cumulative 10 adj C ⟨1, 2, 1, 1.5, 14, 14, 15, 15⟩ = .ok ⟨1, 15 / 10 + adj, (15 / 10 + adj) / Real.sqrt 15⟩ := by
    have h1 : fdiv 15 10 = .ok (15 / 10) := by simp [fdiv]
    have h2 : errBar (15 / 10 + adj) 15 = .ok ((15 / 10 + adj) / Real.sqrt 15) := by
      unfold errBar; rw [if_neg (by norm_num)]
    simp only [point, h1, except_ok_bind, h2]
  have p2 : point .cumulative 10 adj C ⟨2, 4, 2, 2.8, 1, 1, 1, 1⟩ = .ok ⟨2, 1 / 10 + adj, (1 / 10 + adj) / Real.sqrt 1⟩ := by
    have h1 : fdiv 1 10 = .ok (1 / 10) := by simp [fdiv]
    have h2 : errBar (1 / 10 + adj) 1 = .ok ((1 / 10 + adj) / Real.sqrt 1) := by
      unfold errBar; rw [if_neg (by norm_num)]
    simp only [point, h1, except_ok_bind, h2]
  simp only [plotData, hk, hbr]
  simp only [twoBins, List.mapM_cons, List.mapM_nil, p1, p2, except_ok_bind, pure, Except.pure]
  norm_num

theorem twoBins_adj : resurfAdj flat.fit flat.C [⟨1, 15 / 10 + 0, (15 / 10 + 0) / Real.sqrt 15⟩, ⟨2, 1 / 10 + 0, (1 / 10 + 0) / Real.sqrt 1⟩] = some (0.9, 2) := by
  simp only [resurfAdj, List.getLast?_cons_cons, List.getLast?_singleton, List.length_cons, List.length_nil]
  rw [if_pos (by norm_num)]
  have e : ∀ l : List Point, flat.C 2 (flat.fit l) - (1 / 10 + 0) = 0.9 := by intro l; simp [flat]; norm_num
  rw [resurfLoop]
  dsimp only
  rw [e, if_neg]
  · rw [resurfLoop]
    dsimp only
    rw [e, if_pos]
    left; norm_num
  · push Not
    constructor
    · rw [le_abs]; right; norm_num
    · norm_num

/-- an age from a cumulative fit with the correction, to a count with two bins: the points are raised by 0.9 -/
example : ∃ c r p0, GoodChron c 0 0 2 ∧
    fitAge (initPoly [0, -1] none) c (fun _ _ _ _ => .ok 1) flat twoBins .cFit .none (0, ⊤) true 1 = .ok r ∧
    (twoBins.getplotdata { pr := .cumulative, binning := .none, range := some (0, ⊤), resurfacing := some 0, showall := false, pf := some flat }).2
      = .ok p0 ∧ p0.points.length = 2 := by
  obtain ⟨c, hg, hN, _⟩ := age_example (fun _ _ => 0) none
  have hadj : adjOf .none twoBins.binned 10 (FitType.cFit.args .none (0, ⊤) true flat) = .ok 0.9 := by
    unfold adjOf
    simp only [FitType.args]
    rw [if_neg (by simp), twoBins_data]
    simp only [except_ok_bind]
    rw [twoBins_adj]
  have hpd : (twoBins.getplotdata (FitType.cFit.args .none (0, ⊤) true flat)).2 = .ok
      ⟨[⟨1, 15 / 10 + 0.9, (15 / 10 + 0.9) / Real.sqrt 15⟩, ⟨2, 1 / 10 + 0.9, (1 / 10 + 0.9) / Real.sqrt 1⟩], 15, 15,
        (((1 : ℝ) : EReal), ((4 : ℝ) : EReal))⟩ := by
    show plotDataFull .none twoBins.binned 10 (FitType.cFit.args .none (0, ⊤) true flat) = _
    unfold plotDataFull
    rw [hadj, except_ok_bind]
    exact twoBins_data 0.9 _ _
  have hfit : ∃ fr, (initPoly [0, -1] none).fit (fun _ _ _ _ => .ok 1) .cumulative
      [⟨1, 15 / 10 + 0.9, (15 / 10 + 0.9) / Real.sqrt 15⟩, ⟨2, 1 / 10 + 0.9, (1 / 10 + 0.9) / Real.sqrt 1⟩] = .ok fr ∧ fr.best = 1 - 0 := by
    have h4 : (0 : ℝ) < 15 / 10 + 0.9 := by norm_num
    have h5 : (0 : ℝ) < 1 / 10 + 0.9 := by norm_num
    simp only [PFn.fit, fitData, List.mapM_cons, List.mapM_nil, except_ok_bind, sigmaOf, if_pos h4, if_pos h5, log10E_pos h4, log10E_pos h5,
      log10E_pos one_pos, log10E_pos two_pos, pure, Except.pure]
    exact ⟨_, rfl, rfl⟩
  obtain ⟨fr, hfit, hbest⟩ := hfit
  have hev : densityAt (initPoly [0, -1] none) 1 [fr.best] = .ok ((10 : ℝ) ^ (1 - 0 : ℝ)) := by
    simp only [densityAt, hbest]
    rw [(C18_evaluate_partial _ .cumulative 1).1 (1 - 0) _ (by norm_num) rfl, C16_at_1km _ (Or.inl ⟨_, _, rfl⟩)]
  obtain ⟨r, hr, ha⟩ := fitAge_ok (c := c) (k := .cFit) (b := .none) (range := (0, ⊤)) (resurf := true) (pfc := flat) (o := twoBins) hpd hfit hev
  exact ⟨c, r, _, hg, hr, twoBins_data 0 _ _, rfl⟩

/-! ### the stopping rule -/

/-- Specification: cumulative production function `10^a d⁻³` -/
def cubic (d a : ℝ) : ℝ := (10 : ℝ) ^ a * d ^ (-3 : ℤ)

/-- Specification: weighted least squares fit of `cubic` in logarithms with the weights `y` of the code (sigma = 1/√y) -/
def cubicFit (p : List Point) : ℝ :=
  (p.map (fun q => q.y * (log10 q.y + 3 * log10 q.d))).sum / (p.map Point.y).sum

/-- it is the least squares fit -/
theorem cubicFit_least (p : List Point) (hp : 0 < (p.map Point.y).sum) (a : ℝ) :
    (p.map (fun q => q.y * (log10 q.y + 3 * log10 q.d - cubicFit p) ^ 2)).sum ≤
      (p.map (fun q => q.y * (log10 q.y + 3 * log10 q.d - a) ^ 2)).sum := by
  have key : ∀ (l : List Point) (x : ℝ), (l.map (fun q => q.y * (log10 q.y + 3 * log10 q.d - x) ^ 2)).sum =
      (l.map (fun q => q.y * (log10 q.y + 3 * log10 q.d) ^ 2)).sum - 2 * x * (l.map (fun q => q.y * (log10 q.y + 3 * log10 q.d))).sum +
        x ^ 2 * (l.map Point.y).sum := by
    intro l x
    induction l with
    | nil => simp
    | cons q l ih =>
      simp only [List.map_cons, List.sum_cons, ih]
      ring
  rw [key, key]
  unfold cubicFit
  set S := (p.map Point.y).sum
  set T := (p.map (fun q => q.y * (log10 q.y + 3 * log10 q.d))).sum
  have : 0 ≤ S * (a - T / S) ^ 2 := by positivity
  have e : T / S * S = T := div_mul_cancel₀ _ hp.ne'
  have e1 : T / S * T = (T / S) ^ 2 * S := by rw [pow_two, mul_assoc, e]
  have e2 : a * T = a * (T / S) * S := by rw [mul_assoc, e]
  have e3 : S * (a - T / S) ^ 2 = a ^ 2 * S - 2 * (a * (T / S) * S) + (T / S) ^ 2 * S := by ring
  linarith

/-- **C102 is false: the correction need not be converged.** The rule to stop is an absolute density of 0.0001 km⁻².  Two points which lie
exactly on a production function when raised by `u`: for every `u` below 0.0001 the correction stops after a single fit, at most 0.82 of
the amount needed; only for larger densities does it go on. -/
theorem C102_density_counterexample (u : ℝ) (h0 : 0 < u) (e1 e2 : ℝ) :
    (∀ a, a = log10 (16 * u) → 15 * u + u = cubic 1 a ∧ u + u = cubic 2 a) ∧
    (u < 0.0001 → ∃ adj, resurfAdj cubicFit cubic [⟨1, 15 * u, e1⟩, ⟨2, u, e2⟩] = some (adj, 1) ∧ 0 < adj ∧ adj < 0.82 * u) ∧
    (0.001 ≤ u → ∃ adj n, resurfAdj cubicFit cubic [⟨1, 15 * u, e1⟩, ⟨2, u, e2⟩] = some (adj, n) ∧ 1 < n) := by
  have hl2 : log10 2 = Real.logb 10 2 := rfl
  have hfit : cubicFit [⟨1, 15 * u + 0, e1⟩, ⟨2, u + 0, e2⟩] = (15 * log10 (15 * u) + log10 (8 * u)) / 16 := by
    have hl1 : log10 1 = 0 := by simp [log10]
    have h8 : log10 (8 * u) = 3 * log10 2 + log10 u := by
      unfold log10
      rw [Real.logb_mul (by norm_num) h0.ne']
      congr 1
      rw [show (8 : ℝ) = 2 ^ (3 : ℕ) by norm_num, Real.logb_pow]
      norm_num
    simp only [cubicFit, List.map_cons, List.map_nil, List.sum_cons, List.sum_nil, hl1, h8, add_zero]
    field_simp
    ring
  -- the fitted density at 1 km, in units of `u`
  have hpow : ((10 : ℝ) ^ (cubicFit [⟨1, 15 * u + 0, e1⟩, ⟨2, u + 0, e2⟩])) ^ (16 : ℕ) = (15 * u) ^ (15 : ℕ) * (8 * u) := by
    rw [hfit, ← Real.rpow_natCast, ← Real.rpow_mul (by norm_num)]
    have : (15 * log10 (15 * u) + log10 (8 * u)) / 16 * ((16 : ℕ) : ℝ) = log10 (15 * u) * ((15 : ℕ) : ℝ) + log10 (8 * u) := by push_cast; ring
    rw [this, Real.rpow_add (by norm_num), Real.rpow_mul (by norm_num), Real.rpow_natCast, pow10_log10 (by positivity), pow10_log10 (by positivity)]
  set s := (10 : ℝ) ^ (cubicFit [⟨1, 15 * u + 0, e1⟩, ⟨2, u + 0, e2⟩]) with hs
  have hspos : 0 < s := Real.rpow_pos_of_pos (by norm_num) _
  have hup : s < 14.5 * u := by
    by_contra hn
    push Not at hn
    have : (14.5 * u) ^ 16 ≤ s ^ 16 := pow_le_pow_left₀ (by positivity) hn 16
    rw [hpow] at this
    have e : (15 * u) ^ 15 * (8 * u) = 15 ^ 15 * 8 * u ^ 16 := by ring
    have e' : (14.5 * u) ^ 16 = 14.5 ^ 16 * u ^ 16 := by ring
    rw [e, e'] at this
    have hu : 0 < u ^ 16 := by positivity
    have := le_of_mul_le_mul_right this hu
    norm_num at this
  have hlow : 14 * u < s := by
    by_contra hn
    push Not at hn
    have : s ^ 16 ≤ (14 * u) ^ 16 := pow_le_pow_left₀ hspos.le hn 16
    rw [hpow] at this
    have e : (15 * u) ^ 15 * (8 * u) = 15 ^ 15 * 8 * u ^ 16 := by ring
    have e' : (14 * u) ^ 16 = 14 ^ 16 * u ^ 16 := by ring
    rw [e, e'] at this
    have hu : 0 < u ^ 16 := by positivity
    have := le_of_mul_le_mul_right this hu
    norm_num at this
  have hadj : cubic 2 (cubicFit [⟨1, 15 * u + 0, e1⟩, ⟨2, u + 0, e2⟩]) - u = s / 8 - u := by
    unfold cubic
    rw [← hs]
    norm_num
    ring
  refine ⟨?_, ?_, ?_⟩
  · rintro a rfl
    unfold cubic
    rw [pow10_log10 (by positivity)]
    constructor
    · norm_num; ring
    · norm_num; ring
  · intro hu
    refine ⟨s / 8 - u, ?_, by linarith, by linarith⟩
    simp only [resurfAdj, List.getLast?_cons_cons, List.getLast?_singleton, List.length_cons, List.length_nil]
    rw [if_pos (by norm_num)]
    simp only [resurfLoop, List.map_cons, List.map_nil]
    rw [if_pos, hadj]
    left
    rw [hadj, abs_lt]
    constructor <;> norm_num at hu ⊢ <;> linarith
  · intro hu
    simp only [resurfAdj, List.getLast?_cons_cons, List.getLast?_singleton, List.length_cons, List.length_nil]
    rw [if_pos (by norm_num)]
    obtain ⟨prev, res, n, g1, g2, _⟩ := resurfLoop_spec cubicFit cubic [⟨1, 15 * u, e1⟩, ⟨2, u, e2⟩] ⟨2, u, e2⟩ 20 1 (s / 8 - u) (by norm_num) (by norm_num)
    refine ⟨res, n, ?_, g2⟩
    rw [← g1, show (21 : ℕ) = 20 + 1 from rfl, resurfLoop]
    dsimp only
    rw [if_neg]
    · simp only [List.map_cons, List.map_nil]
      rw [hadj]
    · simp only [List.map_cons, List.map_nil]
      rw [hadj]
      push Not
      constructor
      · rw [zero_sub, abs_neg, abs_of_pos (by linarith)]
        norm_num at hu ⊢
        linarith
      · norm_num

/-! ### the documented way to ask for no correction -/

/-- **C102, counterexample.** `resurfacing=None` is documented as no correction; it gives the corrected points of `resurfacing=1`. -/
theorem C102_none_counterexample (o : Obj) (pr : Presentation) (b : Binning) (range : Option (EReal × EReal)) (showall : Bool) (pf : Option PF)
    (p p1 : PlotData) (h : (o.getplotdata ⟨pr, b, range, none, showall, pf⟩).2 = .ok p)
    (h1 : (o.getplotdata ⟨pr, b, range, some 1, showall, pf⟩).2 = .ok p1) : p.points = p1.points ∧ p.n = p1.n ∧ p.nEvent = p1.nEvent := by
  have hadj : ∀ bn t area, adjOf bn t area ⟨pr, b, range, none, showall, pf⟩ = adjOf bn t area ⟨pr, b, range, some 1, showall, pf⟩ := by
    intro bn t area
    simp [adjOf]
  unfold Obj.getplotdata at h h1
  dsimp only at h h1
  cases ho : o.ensure b with
  | error e => rw [ho] at h; cases h
  | ok o' =>
    rw [ho] at h h1
    dsimp only at h h1
    cases hb : o'.binning with
    | none => rw [hb] at h; cases h
    | some bn =>
      rw [hb] at h h1
      dsimp only at h h1
      unfold plotDataFull at h h1
      rw [hadj] at h
      cases ha : adjOf bn o'.binned o'.area ⟨pr, b, range, some 1, showall, pf⟩ with
      | error e => rw [ha] at h; cases h
      | ok adj =>
        rw [ha, except_ok_bind] at h h1
        unfold plotData at h h1
        cases range with
        | some r =>
          dsimp only at h h1
          obtain ⟨pts, e1, h⟩ := except_bind_eq_ok h
          obtain ⟨br, _, h⟩ := except_bind_eq_ok h
          obtain ⟨pts', e1', h1⟩ := except_bind_eq_ok h1
          obtain ⟨br', _, h1⟩ := except_bind_eq_ok h1
          rw [e1] at e1'
          cases e1'
          cases h
          cases h1
          exact ⟨rfl, rfl, rfl⟩
        | none =>
          dsimp only at h h1
          rw [h] at h1
          cases h1
          exact ⟨rfl, rfl, rfl⟩

/-- the points of a count with two bins for `resurfacing=None`: not those without correction -/
example : ∃ p p0, (twoBins.getplotdata ⟨.cumulative, .none, some (0, ⊤), none, false, some flat⟩).2 = .ok p ∧
    (twoBins.getplotdata ⟨.cumulative, .none, some (0, ⊤), some 0, false, some flat⟩).2 = .ok p0 ∧
    p.points.map Point.y = p0.points.map (fun q => q.y + 0.9) := by
  have hadj : adjOf .none twoBins.binned 10 ⟨.cumulative, .none, some (0, ⊤), none, false, some flat⟩ = .ok 0.9 := by
    unfold adjOf
    dsimp only
    rw [if_neg (by simp), twoBins_data]
    simp only [except_ok_bind]
    rw [twoBins_adj]
  refine ⟨⟨[⟨1, 15 / 10 + 0.9, (15 / 10 + 0.9) / Real.sqrt 15⟩, ⟨2, 1 / 10 + 0.9, (1 / 10 + 0.9) / Real.sqrt 1⟩], 15, 15,
        (((1 : ℝ) : EReal), ((4 : ℝ) : EReal))⟩, _, ?_, twoBins_data 0 _ _, ?_⟩
  · show plotDataFull .none twoBins.binned 10 ⟨.cumulative, .none, some (0, ⊤), none, false, some flat⟩ = _
    unfold plotDataFull
    rw [hadj, except_ok_bind]
    exact twoBins_data 0.9 _ _
  · simp

end

end Verif.Props
