import Verif.Props.Tabular
import Verif.Lemmas.Range
import Verif.Props.PlotData

/-! C20, C21: isochron fits. -/

namespace Verif.Props
open Verif.Cratercount Verif.Py Verif.Production Verif.Spec

noncomputable section

/-- sum of squared weighted residuals, the function minimised by `curve_fit` -/
def chi2 (F : ℝ → ℝ → ℝ) (a : ℝ) : List ℝ → List ℝ → List ℝ → ℝ
  | x :: xs, y :: ys, s :: ss => ((F x a - y) / s) ^ 2 + chi2 F a xs ys ss
  | _, _, _ => 0

/-- what is assumed of `scipy.optimize.curve_fit`: for a function defined on all data points, if the sum of squared
weighted residuals has a unique minimiser, this is the result -/
def CurveFitSpec (cf : CurveFit) : Prop :=
  ∀ (func : ℝ → ℝ → Except Err ℝ) (F : ℝ → ℝ → ℝ) (xs ys ss : List ℝ) (m : ℝ),
    xs.length = ys.length → xs.length = ss.length → (∀ x ∈ xs, ∀ a, func x a = .ok (F x a)) →
    (∀ a, a ≠ m → chi2 F m xs ys ss < chi2 F a xs ys ss) → cf func xs ys ss = .ok m

/-- the assumption can be met -/
theorem curveFitSpec_satisfiable : ∃ cf, CurveFitSpec cf := by
  classical
  refine ⟨fun func xs ys ss =>
    if h : ∃ m : ℝ, ∃ F : ℝ → ℝ → ℝ, (∀ x ∈ xs, ∀ a, func x a = .ok (F x a)) ∧
      ∀ a, a ≠ m → chi2 F m xs ys ss < chi2 F a xs ys ss then .ok h.choose else .error .domain, ?_⟩
  intro func F xs ys ss m hl1 hl2 hF hm
  have h : ∃ m : ℝ, ∃ F : ℝ → ℝ → ℝ, (∀ x ∈ xs, ∀ a, func x a = .ok (F x a)) ∧
      ∀ a, a ≠ m → chi2 F m xs ys ss < chi2 F a xs ys ss := ⟨m, F, hF, hm⟩
  simp only [dif_pos h]
  obtain ⟨F', hF', hm'⟩ := h.choose_spec
  congr 1
  have hcong : ∀ (xs ys ss : List ℝ) (a : ℝ), (∀ x ∈ xs, F' x a = F x a) → chi2 F' a xs ys ss = chi2 F a xs ys ss := by
    intro xs
    induction xs with
    | nil => intro ys ss a _; cases ys <;> cases ss <;> rfl
    | cons x xs ih =>
      intro ys ss a hx
      cases ys with
      | nil => rfl
      | cons y ys =>
        cases ss with
        | nil => rfl
        | cons s ss =>
          simp only [chi2]
          rw [hx x (by simp), ih ys ss a (fun z hz => hx z (by simp [hz]))]
  have heq : ∀ a, chi2 F' a xs ys ss = chi2 F a xs ys ss := by
    intro a
    apply hcong
    intro x hx
    have := (hF' x hx a).symm.trans (hF x hx a)
    injection this
  by_contra hne
  have h1 := hm _ hne
  have h2 := hm' m (Ne.symm hne)
  rw [heq, heq] at h2
  exact absurd h1 (not_lt.2 h2.le)

/-! ### weighted quadratic -/

/-- Σ w (r − a)² -/
def wss (l : List (ℝ × ℝ)) (a : ℝ) : ℝ := (l.map (fun p => p.2 * (p.1 - a) ^ 2)).sum

theorem wss_expand (l : List (ℝ × ℝ)) (a : ℝ) : wss l a =
    (l.map (fun p => p.2 * p.1 ^ 2)).sum - 2 * a * (l.map (fun p => p.2 * p.1)).sum + a ^ 2 * (l.map (fun p => p.2)).sum := by
  induction l with
  | nil => simp [wss]
  | cons p l ih =>
    simp only [wss, List.map_cons, List.sum_cons] at ih ⊢
    rw [ih]; ring

/-- weighted mean -/
def wmean (l : List (ℝ × ℝ)) : ℝ := (l.map (fun p => p.2 * p.1)).sum / (l.map (fun p => p.2)).sum

theorem wss_min (l : List (ℝ × ℝ)) (hw : 0 < (l.map (fun p => p.2)).sum) (a : ℝ) (ha : a ≠ wmean l) :
    wss l (wmean l) < wss l a := by
  rw [wss_expand, wss_expand]
  set W := (l.map (fun p => p.2)).sum
  set B := (l.map (fun p => p.2 * p.1)).sum
  have hm : wmean l * W = B := by
    unfold wmean
    exact div_mul_cancel₀ _ hw.ne'
  have h0 : a - wmean l ≠ 0 := sub_ne_zero.2 ha
  have : 0 < W * (a - wmean l) ^ 2 := mul_pos hw (by positivity)
  rw [← hm]
  nlinarith

/-! ### the functions handed to `curve_fit` -/

theorem C10_of_C {f : PFn} {d a y : ℝ} (h : f.C d a = .ok y) :
    0 < d ∧ 0 < y ∧ f.C10 (log10 d) a = .ok (log10 y) := by
  cases f with
  | poly c r =>
    simp only [PFn.C, polyC] at h
    obtain ⟨x, hx, h⟩ := except_bind_eq_ok h
    obtain ⟨hd, rfl⟩ := log10E_ok.1 hx
    injection h with h
    rw [← h]
    exact ⟨hd, pow10_pos _, by simp only [PFn.C10, log10_pow10]⟩
  | tab x y z r =>
    simp only [PFn.C] at h
    obtain ⟨x, hx, h⟩ := except_bind_eq_ok h
    obtain ⟨hd, rfl⟩ := log10E_ok.1 hx
    injection h with h
    rw [← h]
    exact ⟨hd, pow10_pos _, by simp only [PFn.C10, log10_pow10]⟩

theorem F10_of_F {f : PFn} {d a y : ℝ} (h : f.F d a = .ok y) (hy : 0 < y) :
    0 < d ∧ f.F10 (log10 d) a = .ok (log10 y) := by
  cases f with
  | poly c r =>
    have hd : 0 < d := by
      simp only [PFn.F, polyF] at h
      obtain ⟨x, hx, _⟩ := except_bind_eq_ok h
      exact (log10E_ok.1 hx).1
    refine ⟨hd, ?_⟩
    simp only [PFn.F10, polyF10, pow10_log10 hd]
    simp only [PFn.F] at h
    rw [h, except_ok_bind, log10E_pos hy]
  | tab x y z r =>
    simp only [PFn.F] at h
    obtain ⟨x, hx, h⟩ := except_bind_eq_ok h
    obtain ⟨hd, rfl⟩ := log10E_ok.1 hx
    obtain ⟨v, hv, h⟩ := except_bind_eq_ok h
    injection h with h
    rw [← h]
    exact ⟨hd, by simp only [PFn.F10, log10_pow10, hv]⟩

/-! ### C20 -/

/-- the two kinds of fit -/
inductive FitKind | cumulative | differential

def FitKind.pr : FitKind → Presentation
  | .cumulative => .cumulative
  | .differential => .differential

/-- the curve fitted -/
def FitKind.curve (k : FitKind) (f : PFn) (d a : ℝ) : Except Err ℝ :=
  match k with
  | .cumulative => f.C d a
  | .differential => f.F d a

/-- weight of a data point: its value in a cumulative fit, its error bar in a differential fit -/
def FitKind.weight (k : FitKind) (p : Point) : ℝ :=
  match k with
  | .cumulative => p.y
  | .differential => p.err

/-- weighted squared residuals of the logarithms for the curve `K` with parameter `a` -/
def objective (k : FitKind) (K : ℝ → ℝ → ℝ) (pts : List Point) (a : ℝ) : ℝ :=
  (pts.map (fun p => k.weight p * (log10 p.y - log10 (K p.d a)) ^ 2)).sum

theorem mapM_ok_of {α β : Type} {l : List α} {g : α → Except Err β} {g' : α → β} (h : ∀ x ∈ l, g x = .ok (g' x)) :
    l.mapM g = .ok (l.map g') := by
  induction l with
  | nil => rfl
  | cons x l ih =>
    rw [List.mapM_cons, h x (by simp), except_ok_bind, ih (fun y hy => h y (by simp [hy])), except_ok_bind]
    rfl

/-- heart of the proof: the fit is the weighted mean of log10 y − log10 K(d,0) -/
theorem fit_eq (f : PFn) (hf : Constructed f) (cf : CurveFit) (hcf : CurveFitSpec cf) (k : FitKind)
    (K : ℝ → ℝ → ℝ) (pts : List Point) (p0 : Point) (hp0 : pts.head? = some p0)
    (hK : ∀ p ∈ pts, ∀ a, k.curve f p.d a = .ok (K p.d a) ∧ 0 < K p.d a)
    (hy : ∀ p ∈ pts, 0 < p.y) (hw : ∀ p ∈ pts, 0 < k.weight p) :
    ∃ res, f.fit cf k.pr pts = .ok res ∧
      res.best = wmean (pts.map (fun p => (log10 p.y - log10 (K p.d 0), k.weight p))) ∧
      res.lower = (do let l ← log10E (p0.y - 0.98 * p0.err); .ok (res.best - (log10 p0.y - l))) ∧
      res.upper = (do let l ← log10E (p0.y + 0.98 * p0.err); .ok (res.best - (log10 p0.y - l))) ∧
      (∀ p ∈ pts, ∀ a, log10 (K p.d a) = log10 (K p.d 0) + a) := by
  -- shift law
  have hshift : ∀ p ∈ pts, ∀ a, log10 (K p.d a) = log10 (K p.d 0) + a := by
    intro p hp a
    have h0 := hK p hp 0
    have ha := hK p hp a
    have hs := C16_scaling f hf p.d 0 a (K p.d 0)
    rw [zero_add] at hs
    have e : k.curve f p.d a = .ok ((10 : ℝ) ^ a * K p.d 0) := by
      cases k with
      | cumulative => exact hs.1 h0.1
      | differential => exact hs.2.1 h0.1
    have := ha.1.symm.trans e
    injection this with this
    rw [this, log10_mul (pow10_pos a) h0.2, log10_pow10]
    ring
  -- the data after the treatment of single points
  obtain ⟨ps, hps, hmem, hhead, hmean, hne⟩ : ∃ ps, fitData pts = .ok ps ∧ (∀ p ∈ ps, p ∈ pts) ∧
      (∃ t, ps = p0 :: t) ∧
      (wmean (ps.map (fun p => (log10 p.y - log10 (K p.d 0), k.weight p))) =
        wmean (pts.map (fun p => (log10 p.y - log10 (K p.d 0), k.weight p)))) ∧ ps ≠ [] := by
    match pts, hp0 with
    | [p], hp0 =>
      have : p = p0 := by simpa using hp0
      subst this
      refine ⟨[p, p], rfl, by simp, ⟨[p], rfl⟩, ?_, by simp⟩
      have hwp := hw p (by simp)
      simp only [wmean, List.map_cons, List.map_nil, List.sum_cons, List.sum_nil, add_zero]
      field_simp
    | p :: q :: l, hp0 =>
      have : p = p0 := by simpa using hp0
      subst this
      exact ⟨p :: q :: l, rfl, fun _ h => h, ⟨_, rfl⟩, rfl, by simp⟩
  obtain ⟨t, ht⟩ := hhead
  have hd : ∀ p ∈ ps, 0 < p.d := by
    intro p hp
    have h0 := hK p (hmem p hp) 0
    cases k with
    | cumulative => exact (C10_of_C h0.1).1
    | differential => exact (F10_of_F h0.1 h0.2).1
  have hlx : ps.mapM (fun p => log10E p.d) = .ok (ps.map (fun p => log10 p.d)) :=
    mapM_ok_of (fun p hp => log10E_pos (hd p hp))
  have hly : ps.mapM (fun p => log10E p.y) = .ok (ps.map (fun p => log10 p.y)) :=
    mapM_ok_of (fun p hp => log10E_pos (hy p (hmem p hp)))
  have hss : ps.mapM (fun p => sigmaOf (k.weight p)) = .ok (ps.map (fun p => 1 / Real.sqrt (k.weight p))) :=
    mapM_ok_of (fun p hp => by unfold sigmaOf; rw [if_pos (hw p (hmem p hp))])
  -- the function handed over
  set func : ℝ → ℝ → Except Err ℝ := match k with | .cumulative => f.C10 | .differential => f.F10 with hfunc
  have hF : ∀ x ∈ ps.map (fun p => log10 p.d), ∀ a, func x a = .ok (log10 (K ((10 : ℝ) ^ x) a)) := by
    intro x hx a
    obtain ⟨p, hp, rfl⟩ := List.mem_map.1 hx
    rw [pow10_log10 (hd p hp)]
    have h0 := hK p (hmem p hp) a
    cases k with
    | cumulative => exact (C10_of_C h0.1).2.2
    | differential => exact (F10_of_F h0.1 h0.2).2
  -- chi2 is the weighted quadratic
  have hchi : ∀ (qs : List Point) a, (∀ p ∈ qs, p ∈ ps) → chi2 (fun x a => log10 (K ((10 : ℝ) ^ x) a)) a (qs.map (fun p => log10 p.d))
      (qs.map (fun p => log10 p.y)) (qs.map (fun p => 1 / Real.sqrt (k.weight p))) =
      wss (qs.map (fun p => (log10 p.y - log10 (K p.d 0), k.weight p))) a := by
    intro qs a hq
    induction qs with
    | nil => simp [chi2, wss]
    | cons p qs ih =>
      have hp := hq p (by simp)
      have ih' := ih (fun q h => hq q (by simp [h]))
      simp only [List.map_cons, chi2, wss, List.sum_cons] at ih' ⊢
      rw [ih', pow10_log10 (hd p hp), hshift p (hmem p hp) a]
      congr 1
      rw [div_pow, one_div, inv_pow, Real.sq_sqrt (hw p (hmem p hp)).le, div_inv_eq_mul]
      ring
  have hW : 0 < ((ps.map (fun p => (log10 p.y - log10 (K p.d 0), k.weight p))).map (fun p => p.2)).sum := by
    apply List.sum_pos
    · intro x hx
      simp only [List.map_map, List.mem_map, Function.comp] at hx
      obtain ⟨p, hp, rfl⟩ := hx
      exact hw p (hmem p hp)
    · simpa using hne
  have hcfit : cf func (ps.map (fun p => log10 p.d)) (ps.map (fun p => log10 p.y))
      (ps.map (fun p => 1 / Real.sqrt (k.weight p))) =
      .ok (wmean (pts.map (fun p => (log10 p.y - log10 (K p.d 0), k.weight p)))) := by
    apply hcf func (fun x a => log10 (K ((10 : ℝ) ^ x) a))
    · simp
    · simp
    · exact hF
    · intro a ha
      rw [hchi ps _ (fun _ h => h), hchi ps _ (fun _ h => h), ← hmean]
      rw [← hmean] at ha
      exact wss_min _ hW a ha
  have hl0 : log10E p0.y = .ok (log10 p0.y) := log10E_pos (hy p0 (hmem p0 (by rw [ht]; simp)))
  cases k with
  | cumulative =>
    simp only [FitKind.weight] at hss
    have hcfit' : cf f.C10 (ps.map (fun p => log10 p.d)) (ps.map (fun p => log10 p.y)) (ps.map (fun p => 1 / Real.sqrt p.y)) = _ := hcfit
    simp only [PFn.fit, FitKind.pr, hps, except_ok_bind, hss, hlx, hly, hcfit']
    subst ht
    simp only [hl0, except_ok_bind]
    exact ⟨_, rfl, sub_zero _, by simp only [sub_zero], by simp only [sub_zero], hshift⟩
  | differential =>
    simp only [FitKind.weight] at hss
    have hcfit' : cf f.F10 (ps.map (fun p => log10 p.d)) (ps.map (fun p => log10 p.y)) (ps.map (fun p => 1 / Real.sqrt p.err)) = _ := hcfit
    simp only [PFn.fit, FitKind.pr, hps, except_ok_bind, hss, hlx, hly, hcfit']
    subst ht
    simp only [hl0, except_ok_bind]
    exact ⟨_, rfl, sub_zero _, by simp only [sub_zero], by simp only [sub_zero], hshift⟩

/-- **C20.** For any constructed production function, either kind of fit and any non-empty list of points with positive
values and weights at diameters where the curve is defined and positive, the fit succeeds and its result is the unique
minimiser of the weighted squared residuals of the logarithms. -/
theorem C20_fit_minimises (f : PFn) (hf : Constructed f) (cf : CurveFit) (hcf : CurveFitSpec cf) (k : FitKind)
    (K : ℝ → ℝ → ℝ) (pts : List Point) (hne : pts ≠ [])
    (hK : ∀ p ∈ pts, ∀ a, k.curve f p.d a = .ok (K p.d a) ∧ 0 < K p.d a)
    (hy : ∀ p ∈ pts, 0 < p.y) (hw : ∀ p ∈ pts, 0 < k.weight p) :
    ∃ res, f.fit cf k.pr pts = .ok res ∧
      ∀ a, a ≠ res.best → objective k K pts res.best < objective k K pts a := by
  obtain ⟨res, h1, h2, _, _, hshift⟩ := fit_eq f hf cf hcf k K pts _ (List.head?_eq_some_head hne) hK hy hw
  refine ⟨res, h1, ?_⟩
  intro a ha
  have hobj : ∀ a, objective k K pts a = wss (pts.map (fun p => (log10 p.y - log10 (K p.d 0), k.weight p))) a := by
    intro a
    simp only [objective, wss, List.map_map]
    congr 1
    apply List.map_congr_left
    intro p hp
    simp only [Function.comp]
    rw [hshift p hp a]
    ring
  rw [hobj, hobj, h2]
  rw [h2] at ha
  refine wss_min _ ?_ a ha
  apply List.sum_pos
  · intro x hx
    simp only [List.map_map, List.mem_map, Function.comp] at hx
    obtain ⟨p, hp, rfl⟩ := hx
    exact hw p hp
  · simpa using hne

/-- value of a successful evaluation -/
def okVal : Except Err ℝ → ℝ
  | .ok v => v
  | .error _ => 0

/-- **C20, recovery.** Points lying exactly on the curve for some a0 give back this a0. -/
theorem C20_fit_recovers (f : PFn) (hf : Constructed f) (cf : CurveFit) (hcf : CurveFitSpec cf) (k : FitKind)
    (a0 : ℝ) (pts : List Point) (hne : pts ≠ [])
    (hon : ∀ p ∈ pts, k.curve f p.d a0 = .ok p.y ∧ 0 < p.y) (hw : ∀ p ∈ pts, 0 < k.weight p) :
    ∃ res, f.fit cf k.pr pts = .ok res ∧ res.best = a0 := by
  -- the curve at any parameter
  have hK : ∀ p ∈ pts, ∀ a, k.curve f p.d a = .ok ((fun d a => okVal (k.curve f d a)) p.d a) ∧
      0 < (fun d a => okVal (k.curve f d a)) p.d a := by
    intro p hp a
    have hs := C16_scaling f hf p.d a0 (a - a0) p.y
    have e : k.curve f p.d a = .ok ((10 : ℝ) ^ (a - a0) * p.y) := by
      have h := (hon p hp).1
      rw [add_sub_cancel] at hs
      cases k with
      | cumulative => exact hs.1 h
      | differential => exact hs.2.1 h
    simp only [e, okVal]
    exact ⟨trivial, mul_pos (pow10_pos _) (hon p hp).2⟩
  obtain ⟨res, h1, h2, _, _, hshift⟩ := fit_eq f hf cf hcf k (fun d a => okVal (k.curve f d a)) pts _
    (List.head?_eq_some_head hne) hK (fun p hp => (hon p hp).2) hw
  refine ⟨res, h1, ?_⟩
  rw [h2]
  have hconst : ∀ p ∈ pts, log10 p.y - log10 (okVal (k.curve f p.d 0)) = a0 := by
    intro p hp
    have := hshift p hp a0
    have hv : okVal (k.curve f p.d a0) = p.y := by
      simp only [(hon p hp).1, okVal]
    rw [hv] at this
    rw [this]; ring
  have hW : 0 < (pts.map (fun p => k.weight p)).sum := by
    apply List.sum_pos
    · intro x hx
      obtain ⟨p, hp, rfl⟩ := List.mem_map.1 hx
      exact hw p hp
    · simpa using hne
  have e1 : (pts.map (fun p => (log10 p.y - log10 (okVal (k.curve f p.d 0)), k.weight p))) =
      pts.map (fun p => (a0, k.weight p)) := List.map_congr_left (fun p hp => by rw [hconst p hp])
  rw [e1]
  simp only [wmean, List.map_map, Function.comp_def]
  rw [List.sum_map_mul_right, mul_comm, mul_div_assoc, div_self hW.ne', mul_one]

/-- **C20, scaling.** Multiplying all values and error bars by c > 0 shifts the fit by log10 c. -/
theorem C20_fit_scales (f : PFn) (hf : Constructed f) (cf : CurveFit) (hcf : CurveFitSpec cf) (k : FitKind)
    (K : ℝ → ℝ → ℝ) (pts : List Point) (hne : pts ≠ [])
    (hK : ∀ p ∈ pts, ∀ a, k.curve f p.d a = .ok (K p.d a) ∧ 0 < K p.d a)
    (hy : ∀ p ∈ pts, 0 < p.y) (hw : ∀ p ∈ pts, 0 < k.weight p) (c : ℝ) (hc : 0 < c) :
    ∃ res res', f.fit cf k.pr pts = .ok res ∧
      f.fit cf k.pr (pts.map (fun p => ⟨p.d, c * p.y, c * p.err⟩)) = .ok res' ∧ res'.best = res.best + log10 c := by
  obtain ⟨res, h1, h2, _⟩ := fit_eq f hf cf hcf k K pts _ (List.head?_eq_some_head hne) hK hy hw
  have hne' : pts.map (fun p => (⟨p.d, c * p.y, c * p.err⟩ : Point)) ≠ [] := by simpa using hne
  have hwc : ∀ p : Point, k.weight ⟨p.d, c * p.y, c * p.err⟩ = c * k.weight p := by intro p; cases k <;> rfl
  obtain ⟨res', g1, g2, _⟩ := fit_eq f hf cf hcf k K (pts.map (fun p => ⟨p.d, c * p.y, c * p.err⟩)) _
    (List.head?_eq_some_head hne')
    (by intro q hq a; obtain ⟨p, hp, rfl⟩ := List.mem_map.1 hq; exact hK p hp a)
    (by intro q hq; obtain ⟨p, hp, rfl⟩ := List.mem_map.1 hq; exact mul_pos hc (hy p hp))
    (by intro q hq; obtain ⟨p, hp, rfl⟩ := List.mem_map.1 hq; rw [hwc]; exact mul_pos hc (hw p hp))
  refine ⟨res, res', h1, g1, ?_⟩
  rw [g2, h2]
  have hW : 0 < (pts.map (fun p => k.weight p)).sum := by
    apply List.sum_pos
    · intro x hx
      obtain ⟨p, hp, rfl⟩ := List.mem_map.1 hx
      exact hw p hp
    · simpa using hne
  simp only [wmean, List.map_map, Function.comp_def, hwc]
  have e1 : pts.map (fun p => c * k.weight p * (log10 (c * p.y) - log10 (K p.d 0))) =
      pts.map (fun p => c * (k.weight p * (log10 p.y - log10 (K p.d 0)) + k.weight p * log10 c)) := by
    apply List.map_congr_left
    intro p hp
    rw [log10_mul hc (hy p hp)]; ring
  rw [e1, List.sum_map_mul_left, List.sum_map_mul_left, List.sum_map_add, List.sum_map_mul_right]
  field_simp

/-- an empty selection is refused, for every function and either kind of fit -/
theorem C20_empty (f : PFn) (cf : CurveFit) (pr : Presentation) : f.fit cf pr [] = .error .emptyInput := rfl

/-- the hypotheses on the curve hold for every cumulative fit at positive diameters -/
theorem C20_cumulative_applies (f : PFn) : ∃ K : ℝ → ℝ → ℝ, ∀ d a, 0 < d →
    FitKind.cumulative.curve f d a = .ok (K d a) ∧ 0 < K d a := by
  cases f with
  | poly c r => exact ⟨fun d a => (10 : ℝ) ^ poly (a :: c.tail) (log10 d), fun d a hd => ⟨polyC_eq hd, pow10_pos _⟩⟩
  | tab x y z r =>
    refine ⟨fun d a => (10 : ℝ) ^ tabC10 x y (log10 d) a, fun d a hd => ⟨?_, pow10_pos _⟩⟩
    simp only [FitKind.curve, PFn.C, log10E_pos hd, except_ok_bind]

/-- two points on no common isochron of D^-2, meeting all hypotheses of the fit theorems, both kinds -/
example : ∃ K : ℝ → ℝ → ℝ, ∀ p ∈ ([⟨1, 3, 1⟩, ⟨2, 1, 1⟩] : List Point), ∀ a,
    (FitKind.differential.curve (initPoly [0, -2] none) p.d a = .ok (K p.d a) ∧ 0 < K p.d a) ∧
    0 < p.y ∧ 0 < FitKind.differential.weight p ∧ 0 < FitKind.cumulative.weight p := by
  refine ⟨fun d a => 2 * (10 : ℝ) ^ poly [a, -2] (log10 d) / d, ?_⟩
  intro p hp a
  have hpos : 0 < p.d ∧ 0 < p.y ∧ 0 < p.err := by
    simp only [List.mem_cons, List.not_mem_nil, or_false] at hp
    rcases hp with rfl | rfl <;> norm_num
  refine ⟨⟨?_, ?_⟩, hpos.2.1, hpos.2.2, hpos.2.1⟩
  · simp only [FitKind.curve, initPoly, PFn.F, polyF_eq hpos.1, List.tail_cons]
    congr 1
    have hl : Real.log 10 ≠ 0 := (Real.log_pos (by norm_num)).ne'
    have hd : p.d ≠ 0 := hpos.1.ne'
    simp only [dCoef, poly, List.zipIdx, List.map, List.reverse, List.reverseAux, List.foldl]
    field_simp
    norm_num
  · have := pow10_pos (poly [a, -2] (log10 p.d))
    have := hpos.1
    positivity

/-! ### C21 -/

/-- **C21 (the part that holds).** If the error bar of the first point is positive and less than its value divided by
0.98, both bounds of the fit are finite and enclose the fitted value. -/
theorem C21_brackets_partial (f : PFn) (hf : Constructed f) (cf : CurveFit) (hcf : CurveFitSpec cf) (k : FitKind)
    (K : ℝ → ℝ → ℝ) (p0 : Point) (rest : List Point)
    (hK : ∀ p ∈ p0 :: rest, ∀ a, k.curve f p.d a = .ok (K p.d a) ∧ 0 < K p.d a)
    (hy : ∀ p ∈ p0 :: rest, 0 < p.y) (hw : ∀ p ∈ p0 :: rest, 0 < k.weight p)
    (he : 0 < p0.err) (hle : 0.98 * p0.err < p0.y) :
    ∃ res lo hi, f.fit cf k.pr (p0 :: rest) = .ok res ∧ res.lower = .ok lo ∧ res.upper = .ok hi ∧
      lo < res.best ∧ res.best < hi := by
  obtain ⟨res, h1, _, h3, h4, _⟩ := fit_eq f hf cf hcf k K (p0 :: rest) p0 rfl hK hy hw
  have hp : 0 < p0.y - 0.98 * p0.err := by linarith
  have hy0 := hy p0 (by simp)
  refine ⟨res, _, _, h1, by rw [h3, log10E_pos hp]; rfl, by rw [h4, log10E_pos (by linarith)]; rfl, ?_, ?_⟩
  · have := (log10_lt hp hy0).2 (by linarith)
    linarith
  · have := (log10_lt hy0 (show (0:ℝ) < p0.y + 0.98 * p0.err by linarith)).2 (by linarith)
    linarith

/-- in particular the error bars y/√N with N ≥ 1 craters, the ones of cumulative plots (C07), are of this kind -/
theorem C21_cumulative_applies (y N : ℝ) (hy : 0 < y) (hN : 1 ≤ N) :
    0 < y / Real.sqrt N ∧ 0.98 * (y / Real.sqrt N) < y := by
  have hs : 1 ≤ Real.sqrt N := by rw [show (1 : ℝ) = Real.sqrt 1 by simp]; exact Real.sqrt_le_sqrt hN
  refine ⟨by positivity, ?_⟩
  have : y / Real.sqrt N ≤ y := div_le_self hy.le hs
  nlinarith

/-- **C21, cumulative fits.** Every cumulative fit to a non-empty selection of a binned crater list (positive area and
fractions) has finite bounds enclosing the fitted value. -/
theorem C21_cumulative_fit (f : PFn) (hf : Constructed f) (cf : CurveFit) (hcf : CurveFitSpec cf)
    (b : Binning) (hb : b ≠ .none) (off : ℝ) (cs : List Crater) (hfrac : ∀ c ∈ cs, 0 < c.2) (t : List Bin)
    (ht : applyBinning b off cs = .ok t) (area : ℝ) (harea : 0 < area) (C : Option (ℝ → ℝ))
    (range : Option (EReal × EReal)) (resurf1 showall : Bool) (pd : PlotData)
    (h : plotData .cumulative b t area 0 C range resurf1 showall = .ok pd) (hne : pd.points ≠ []) :
    ∃ res lo hi, f.fit cf .cumulative pd.points = .ok res ∧ res.lower = .ok lo ∧ res.upper = .ok hi ∧
      lo < res.best ∧ res.best < hi := by
  obtain ⟨h1, _⟩ := plotData_ok h
  have hall : ∀ p ∈ pd.points, 0 < p.d ∧ 0 < p.y ∧ 0 < p.err ∧ 0.98 * p.err < p.y := by
    intro p hp
    obtain ⟨i, hi, rfl⟩ := List.getElem_of_mem hp
    have hi' : i < (selected t range showall).length := by rw [h1.length_eq]; exact hi
    have hok := (List.forall₂_iff_get.1 h1).2 i hi' hi
    simp only [List.get_eq_getElem] at hok
    have hmem := List.getElem_mem hi'
    set x := (selected t range showall)[i] with hx
    have hxt : x ∈ t ∧ 0 < x.n := by
      cases range with
      | none => simp only [selected, List.mem_filter, decide_eq_true_eq] at hmem; exact hmem
      | some r => simp only [selected, List.mem_filter, decide_eq_true_eq] at hmem; exact ⟨hmem.1, hmem.2.1⟩
    obtain ⟨_, _, hlt, hmin, _, _, _, d5, d6, d7, d8⟩ := C03_bin_contents b hb off cs t ht x hxt.1
    obtain ⟨g1, g2, g3, g4, g5⟩ := hok
    have hn := hxt.2
    have hsub := weightFrom_sub cs hlt.le
    have h0 : 0 ≤ weightFrom cs x.dMax := by
      unfold weightFrom
      apply List.sum_nonneg
      intro y hy
      obtain ⟨c, hc, rfl⟩ := List.mem_map.1 hy
      exact (hfrac c (List.mem_filter.1 hc).1).le
    have hcum : 0 < x.ncum := by rw [d7]; rw [d5] at hn; linarith
    have hev : 1 ≤ x.ncumEvent := by
      rw [d8] at g2 ⊢
      exact_mod_cast g2
    have hy : 0 < pd.points[i].y := by rw [g4, add_zero]; exact div_pos hcum harea
    have := C21_cumulative_applies _ _ hy hev
    rw [← g5] at this
    exact ⟨by rw [g3]; exact hmin, hy, this.1, this.2⟩
  obtain ⟨p0, rest, e⟩ := List.exists_cons_of_ne_nil hne
  obtain ⟨K, hK⟩ := C20_cumulative_applies f
  rw [e] at hall ⊢
  exact C21_brackets_partial f hf cf hcf .cumulative K p0 rest (fun p hp a => hK p.d a (hall p hp).1)
    (fun p hp => (hall p hp).2.1) (fun p hp => (hall p hp).2.1) (hall p0 (by simp)).2.2.1 (hall p0 (by simp)).2.2.2

/-- the slope of a power law is its exponent -/
theorem slopeK_power (c beta d : ℝ) (m : ℕ) (hc : 0 < c) (hb : 1 < beta) (hd : 0 < d) :
    slopeK (some (fun x => c * (x ^ m)⁻¹)) beta d = -m := by
  have hs : 0 < Real.sqrt beta := Real.sqrt_pos.2 (by linarith)
  have hlb : 0 < log10 beta := Real.logb_pos (by norm_num) hb
  have e : c * ((d * Real.sqrt beta) ^ m)⁻¹ / (c * ((d / Real.sqrt beta) ^ m)⁻¹) = beta ^ (-(m : ℝ)) := by
    have h2 : Real.sqrt beta ^ 2 = beta := Real.sq_sqrt (by linarith)
    rw [Real.rpow_neg (by linarith), Real.rpow_natCast]
    have hc' := hc.ne'
    have hd' := hd.ne'
    have hs' := hs.ne'
    rw [mul_div_mul_left _ _ hc', inv_div_inv, ← div_pow, ← inv_pow]
    congr 1
    rw [div_div, ← mul_assoc, mul_comm (Real.sqrt beta) d, mul_assoc, ← sq, h2]
    field_simp
  simp only [slopeK, e]
  rw [log10, Real.logb_rpow_eq_mul_logb_of_pos (by linarith)]
  exact mul_div_cancel_right₀ _ hlb.ne'

/-- **C21 fails for differential fits.** A differential fit to data beginning with a bin which holds a single crater
has no finite lower bound, for the power law D^-3 and any bin whose width ratio β satisfies (β+1+1/β)/3 > 1/0.98
(for example root-2 bins): the plotted value is corrected for binning bias, its error bar is not. -/
theorem C21_differential_counterexample (cf : CurveFit) (hcf : CurveFitSpec cf) (a0 area : ℝ) (harea : 0 < area)
    (x : Bin) (h0 : 0 < x.dMin) (h1 : x.dMin < x.dMean) (hw : 0 < x.width) (hn : x.n = 1) (hne : x.nEvent = 1)
    (hbeta : 1 / 0.98 < ((x.dMean / x.dMin) ^ 2 + 1 + 1 / (x.dMean / x.dMin) ^ 2) / 3) :
    ∃ C0 : ℝ → ℝ, (∀ d, 0 < d → (initPoly [a0, -3] none).evaluate .cumulative d none = .ok (C0 d)) ∧
    ∃ p, point .differential area 0 (some C0) x = .ok p ∧
    ∃ res, (initPoly [a0, -3] none).fit cf .differential [p] = .ok res ∧ res.lower = .error .nonFinite := by
  have hC : ∀ d a : ℝ, 0 < d → polyC [a0, -3] d a = .ok ((10 : ℝ) ^ a * (d ^ 3)⁻¹) := by
    intro d a hd
    rw [polyC_eq hd]
    congr 1
    simp only [List.tail_cons, poly_cons, poly_nil]
    have e : a + log10 d * (-3 + log10 d * 0) = a + log10 d * (-3) := by ring
    rw [e, pow10_add, Real.rpow_mul (by norm_num), pow10_log10 hd, Real.rpow_neg hd.le]
    norm_cast
  refine ⟨fun d => (10 : ℝ) ^ a0 * (d ^ 3)⁻¹, ?_, ?_⟩
  · intro d hd
    simp only [PFn.evaluate, initPoly, PFn.defaultA0, List.getElem?_cons_zero, except_ok_bind, PFn.C]
    exact hC d a0 hd
  have hb1 : 1 < (x.dMean / x.dMin) ^ 2 := by
    have : 1 < x.dMean / x.dMin := by rw [one_lt_div h0]; exact h1
    nlinarith
  have hdm : 0 < x.dMean := by linarith
  set bf := binBiasCorrection ((x.dMean / x.dMin) ^ 2) (-3) with hbf
  have hbv := binBias_neg3 hb1
  have hbf1 : 1 / 0.98 < bf := by rw [hbf, hbv]; exact hbeta
  have hbf0 : 0 < bf := by linarith [show (0:ℝ) < 1/0.98 by norm_num]
  have hsl := slopeK_power ((10 : ℝ) ^ a0) ((x.dMean / x.dMin) ^ 2) x.dMean 3 (pow10_pos a0) hb1 hdm
  set Y := 1 / x.width / area with hY
  have hYpos : 0 < Y := by positivity
  have hpt : point .differential area 0 (some fun d => (10 : ℝ) ^ a0 * (d ^ 3)⁻¹) x =
      .ok ⟨x.dMean, Y / bf, Y⟩ := by
    have hsl' : slopeK (some fun d => (10 : ℝ) ^ a0 * (d ^ 3)⁻¹) ((x.dMean / x.dMin) ^ 2) x.dMean = -3 := by
      rw [hsl]; norm_num
    simp only [point, fdiv, hw.ne', harea.ne', h0.ne', if_false, except_ok_bind, errBar, hn, hne, hsl']
    rw [if_neg (by norm_num), except_ok_bind, ← hbf, if_neg hbf0.ne', except_ok_bind]
    simp [hY]
  refine ⟨_, hpt, ?_⟩
  have hKF : ∀ d a : ℝ, 0 < d → (initPoly [a0, -3] none).F d a = .ok (3 * ((10 : ℝ) ^ poly [a, -3] (log10 d) / d)) := by
    intro d a hd
    simp only [initPoly, PFn.F, polyF_eq hd, List.tail_cons]
    congr 1
    have hl : Real.log 10 ≠ 0 := (Real.log_pos (by norm_num)).ne'
    have hd' : d ≠ 0 := hd.ne'
    simp only [dCoef, poly, List.zipIdx, List.map, List.reverse, List.reverseAux, List.foldl]
    field_simp
    norm_num
  obtain ⟨res, g1, _, g3, _⟩ := fit_eq (initPoly [a0, -3] none) (Or.inl ⟨_, _, rfl⟩) cf hcf .differential
    (fun d a => 3 * ((10 : ℝ) ^ poly [a, -3] (log10 d) / d)) [⟨x.dMean, Y / bf, Y⟩] _ rfl
    (by
      intro p hp a
      simp only [List.mem_singleton] at hp
      subst hp
      refine ⟨hKF _ a hdm, ?_⟩
      have := pow10_pos (poly [a, -3] (log10 x.dMean))
      positivity)
    (by intro p hp; simp only [List.mem_singleton] at hp; subst hp; positivity)
    (by intro p hp; simp only [List.mem_singleton] at hp; subst hp; exact hYpos)
  refine ⟨res, g1, ?_⟩
  have hneg : Y / bf - 0.98 * Y ≤ 0 := by
    have : Y / bf ≤ 0.98 * Y := by
      rw [div_le_iff₀ hbf0]
      have : 1 < bf * 0.98 := by
        rw [div_lt_iff₀ (by norm_num)] at hbf1
        exact hbf1
      nlinarith
    linarith
  rw [g3, log10E_nonpos hneg]
  rfl

/-- a root-2 bin with one crater meets the hypotheses -/
example : ∃ x : Bin, 0 < x.dMin ∧ x.dMin < x.dMean ∧ 0 < x.width ∧ x.n = 1 ∧ x.nEvent = 1 ∧
    1 / 0.98 < ((x.dMean / x.dMin) ^ 2 + 1 + 1 / (x.dMean / x.dMin) ^ 2) / 3 := by
  refine ⟨⟨1, Real.sqrt 2, Real.sqrt 2 - 1, Real.sqrt (Real.sqrt 2), 1, 1, 1, 1⟩, by norm_num, ?_, ?_, rfl, rfl, ?_⟩
  · show (1 : ℝ) < Real.sqrt (Real.sqrt 2)
    rw [show (1 : ℝ) = Real.sqrt 1 by simp]
    exact Real.sqrt_lt_sqrt (by norm_num) sqrt_two_gt
  · show (0 : ℝ) < Real.sqrt 2 - 1
    linarith [sqrt_two_gt]
  · have e : (Real.sqrt (Real.sqrt 2)) ^ 2 = Real.sqrt 2 := Real.sq_sqrt (Real.sqrt_nonneg 2)
    have e2 : Real.sqrt 2 ^ 2 = 2 := Real.sq_sqrt (by norm_num)
    have h1 : (1.414 : ℝ) < Real.sqrt 2 := by
      rw [Real.lt_sqrt (by norm_num)]; norm_num
    have h2 : 1 / Real.sqrt 2 = Real.sqrt 2 / 2 := by
      rw [div_eq_div_iff (by positivity) (by norm_num), ← sq, e2]; norm_num
    simp only [div_one, e, h2]
    norm_num
    linarith

end

end Verif.Props
