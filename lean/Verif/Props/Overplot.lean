import Verif.Model.Overplot
import Verif.Props.Age
import Verif.Props.Isochron

/-! C121: what is drawn for a count on a count plot; C122: place of the age text. -/

namespace Verif.Props
open Verif.Py Verif.Cratercount Verif.Chronology Verif.Production Verif.Craterpdf Verif.Age Verif.PlotSpace Verif.Overplot Verif.Spec

noncomputable section

attribute [local irreducible] linspace

/-! ### C121 -/

/-- **C121: nothing of hidden plots.**  A hidden plot, or one without a count, draws nothing, whatever its other settings. -/
theorem C121_hidden (cv : CurveFit) (simpson : Simpson) (s : Overplot.Set) (count : Option (Obj × Source)) (p : Options)
    (h : count = none ∨ p.hide = true) : overplot cv simpson s count p = .ok none := by
  unfold overplot
  cases count with
  | none => rfl
  | some c =>
    rcases h with h | h
    · cases h
    · dsimp only; rw [if_pos h]

theorem overplot_ok {cv : CurveFit} {simpson : Simpson} {s : Overplot.Set} {o : Obj} {src : Source} {p : Options} {m : CountMarks}
    (h : overplot cv simpson s (some (o, src)) p = .ok (some m)) :
    ∃ d v, (o.getplotdata (plotArgs s p)).2 = .ok d ∧ ageValues cv simpson s (o.getplotdata (plotArgs s p)).1 src p = .ok v ∧
      m.points = d.points.map (fun q => (log10 q.d, q.y)) ∧
      m.bars = (if p.errorBars then d.points.map (fun q => ((log10 q.d, q.y), q.err)) else []) ∧
      (v = none → m.isochron = [] ∧ m.fit = [] ∧ m.age = none) ∧
      ∀ v', v = some v' → fitMarks s p v' = .ok (m.isochron, m.fit, m.age) := by
  unfold overplot at h
  dsimp only at h
  by_cases hh : p.hide = true
  · rw [if_pos hh] at h
    cases h
  · rw [if_neg hh] at h
    obtain ⟨d, hd, h⟩ := except_bind_eq_ok h
    obtain ⟨v, hv, h⟩ := except_bind_eq_ok h
    obtain ⟨f, hf, h⟩ := except_bind_eq_ok h
    simp only [Except.ok.injEq, Option.some.injEq] at h
    subst h
    refine ⟨d, v, hd, hv, rfl, rfl, ?_, ?_⟩
    · rintro rfl
      simp only [allFitMarks, Except.ok.injEq] at hf
      subst hf
      exact ⟨rfl, rfl, rfl⟩
    · rintro v' rfl
      simpa [allFitMarks] using hf

/-- **C121: points and error bars.**  The points drawn are those of the plot data of the count for the presentation, binning and range of
the plot, each at the decimal logarithm of its diameter; the error bars, if asked for, are at the points and as long as the errors; a plot of
type data has no curve and no age. -/
theorem C121_points (cv : CurveFit) (simpson : Simpson) (s : Overplot.Set) (o : Obj) (src : Source) (p : Options) (m : CountMarks)
    (h : overplot cv simpson s (some (o, src)) p = .ok (some m)) :
    ∃ d resurf, (o.getplotdata ⟨s.pr, p.binning, some p.range, some resurf, p.showall, some s.pfc⟩).2 = .ok d ∧
      (resurf = 1 ↔ p.resurf = true ∧ p.kind = .fit .cFit) ∧
      m.points.length = d.points.length ∧
      (∀ (i : ℕ) q, d.points[i]? = some q → 0 < q.d → ∃ x, m.points[i]? = some (x, q.y) ∧ (10 : ℝ) ^ x = q.d) ∧
      (p.errorBars = true → ∀ (i : ℕ) q, d.points[i]? = some q → ∃ z, m.points[i]? = some z ∧ m.bars[i]? = some (z, q.err)) ∧
      (p.errorBars = false → m.bars = []) ∧
      (p.kind = .data → m.isochron = [] ∧ m.fit = [] ∧ m.age = none) := by
  obtain ⟨d, v, hd, hv, h1, h2, h3, _⟩ := overplot_ok h
  refine ⟨d, match p.kind with | .fit .cFit => if p.resurf then 1 else 0 | _ => 0, hd, ?_, by rw [h1]; simp, ?_, ?_, ?_, ?_⟩
  · rcases p.kind with _ | k | b
    · simp
    · cases k
      · simp
      · simp
    · simp
  · intro i q hq hpos
    exact ⟨log10 q.d, by rw [h1, List.getElem?_map, hq]; rfl, pow10_log10 hpos⟩
  · intro he i q hq
    exact ⟨(log10 q.d, q.y), by rw [h1, List.getElem?_map, hq]; rfl, by rw [h2, if_pos he, List.getElem?_map, hq]; rfl⟩
  · intro he
    rw [h2, he]
    simp
  · intro hk
    apply h3
    unfold ageValues at hv
    rw [hk] at hv
    simpa using hv.symm

theorem fitMarks_ok {s : Overplot.Set} {p : Options} {v : AgeValues} {iso fit : List (ℝ × ℝ)}
    {age : Option ((ℝ × ℝ) × (ℝ × Except Err ℝ × Except Err ℝ) × Bool)} (h : fitMarks s p v = .ok (iso, fit, age)) :
    ∃ d y, s.pf.getplotdata s.pr (some v.a0) (some (p.range.1 * ((0.99 : ℝ) : EReal), p.range.2 * ((1.01 : ℝ) : EReal))) = .ok (d, y) ∧
      fit = (d.zip y).map (fun q => (log10 q.1, q.2)) ∧ ageText s p v fit = .ok age ∧
      ((p.isochron = false ∧ iso = []) ∨
        (p.isochron = true ∧ ∃ l, s.pf.getisochron s.pr v.a0 s.ef = .ok l ∧ iso = l.map (fun q => (log10 q.1, q.2)))) := by
  unfold fitMarks at h
  obtain ⟨i, hi, h⟩ := except_bind_eq_ok h
  obtain ⟨⟨d, y⟩, hd, h⟩ := except_bind_eq_ok h
  dsimp only at h
  obtain ⟨t, ht, h⟩ := except_bind_eq_ok h
  simp only [Except.ok.injEq, Prod.mk.injEq] at h
  obtain ⟨rfl, rfl, rfl⟩ := h
  refine ⟨d, y, hd, rfl, ht, ?_⟩
  by_cases hb : p.isochron = true
  · rw [isoCurve, if_pos hb] at hi
    exact Or.inr ⟨hb, i, hi, rfl⟩
  · rw [isoCurve, if_neg hb] at hi
    injection hi with hi
    subst hi
    exact Or.inl ⟨by simpa using hb, rfl⟩

/-- what the curve of an age is: the production function for `a0`, over the fitted range and 1 % more, inside the range of the function -/
structure CurveOf (s : Overplot.Set) (r : EReal × EReal) (a0 : ℝ) (fit : List (ℝ × ℝ)) : Prop where
  length : fit.length = 400
  value : ∀ q ∈ fit, s.pf.evaluate s.pr ((10 : ℝ) ^ q.1) (some a0) = .ok q.2
  valid : ∀ q ∈ fit, s.pf.range.1 ≤ (10 : ℝ) ^ q.1 ∧ (10 : ℝ) ^ q.1 ≤ s.pf.range.2
  order : r.1 ≤ r.2 → 0 ≤ r.1 → (fit.map Prod.fst).Pairwise (· ≤ ·)
  covers : ∀ r1 r2 : ℝ, r = ((r1 : EReal), (r2 : EReal)) → 0 < r1 → s.pf.range.1 ≤ r1 → r1 ≤ r2 → r2 ≤ s.pf.range.2 →
    ∃ q q' : ℝ × ℝ, fit[0]? = some q ∧ fit[399]? = some q' ∧ (10 : ℝ) ^ q.1 ≤ r1 ∧ r2 ≤ (10 : ℝ) ^ q'.1 ∧
      ∀ z ∈ fit, 0.99 * r1 ≤ (10 : ℝ) ^ z.1 ∧ (10 : ℝ) ^ z.1 ≤ 1.01 * r2

theorem clipE_coe (x lo hi : ℝ) : clipE (x : EReal) lo hi = min hi (max x lo) := by
  unfold clipE
  rcases le_total x lo with h | h
  · rw [max_eq_right (EReal.coe_le_coe_iff.2 h), max_eq_right h]
    rcases le_total hi lo with g | g
    · rw [min_eq_left (EReal.coe_le_coe_iff.2 g), min_eq_left g, EReal.toReal_coe]
    · rw [min_eq_right (EReal.coe_le_coe_iff.2 g), min_eq_right g, EReal.toReal_coe]
  · rw [max_eq_left (EReal.coe_le_coe_iff.2 h), max_eq_left h]
    rcases le_total hi x with g | g
    · rw [min_eq_left (EReal.coe_le_coe_iff.2 g), min_eq_left g, EReal.toReal_coe]
    · rw [min_eq_right (EReal.coe_le_coe_iff.2 g), min_eq_right g, EReal.toReal_coe]

theorem curve_of {s : Overplot.Set} (hr : s.pf.range.1 ≤ s.pf.range.2) {p : Options} {v : AgeValues} {iso fit : List (ℝ × ℝ)}
    {age : Option ((ℝ × ℝ) × (ℝ × Except Err ℝ × Except Err ℝ) × Bool)} (h : fitMarks s p v = .ok (iso, fit, age)) :
    CurveOf s p.range v.a0 fit := by
  obtain ⟨d, y, hd, rfl, _⟩ := fitMarks_ok h
  obtain ⟨c1, c2, c3, c4, _, _, c7⟩ := C22_curve s.pf hr s.pr v.a0 _ d y hd
  obtain ⟨g1, g2, gd, _⟩ := getplotdata_ok hd
  simp only [Option.getD_some] at g1 g2 gd
  have hpos : ∀ x ∈ d, 0 < x := by
    intro x hx
    rw [gd] at hx
    obtain ⟨z, _, rfl⟩ := List.mem_map.1 hx
    positivity
  have hmem : ∀ q ∈ (d.zip y).map (fun q => (log10 q.1, q.2)), ∃ (x : ℝ) (i : ℕ), d[i]? = some x ∧ y[i]? = some q.2 ∧ (10 : ℝ) ^ q.1 = x ∧ x ∈ d := by
    intro q hq
    obtain ⟨z, hz, rfl⟩ := List.mem_map.1 hq
    obtain ⟨i, hi⟩ := List.mem_iff_getElem?.1 hz
    rw [List.getElem?_zip_eq_some] at hi
    have hm : z.1 ∈ d := List.mem_of_getElem? hi.1
    exact ⟨z.1, i, hi.1, hi.2, pow10_log10 (hpos _ hm), hm⟩
  refine ⟨by simp [c1, c2], ?_, ?_, ?_, ?_⟩
  · intro q hq
    obtain ⟨x, i, h1, h2, h3, _⟩ := hmem q hq
    rw [h3]
    exact c7 i x q.2 h1 h2
  · intro q hq
    obtain ⟨x, i, h1, h2, h3, hm⟩ := hmem q hq
    rw [h3]
    exact c3 x hm
  · intro hle h0
    have hd' : d.Pairwise (· ≤ ·) := by
      refine c4 _ rfl ?_
      dsimp only
      refine (mul_le_mul_of_nonneg_left (b := ((0.99 : ℝ) : EReal)) (c := ((1.01 : ℝ) : EReal)) (EReal.coe_le_coe_iff.2 (by norm_num)) h0).trans ?_
      exact mul_le_mul_of_nonneg_right hle (EReal.coe_nonneg.2 (by norm_num))
    have e : ((d.zip y).map (fun q => (log10 q.1, q.2))).map Prod.fst = d.map log10 := by
      rw [List.map_map]
      have : (Prod.fst ∘ fun q : ℝ × ℝ => (log10 q.1, q.2)) = log10 ∘ Prod.fst := rfl
      rw [this, ← List.map_map, List.map_fst_zip (by omega)]
    rw [e, List.pairwise_map]
    exact hd'.imp_of_mem (fun {a b} ha hb hab => (log10_le (hpos a ha) (hpos b hb)).2 hab)
  · intro r1 r2 hr12 h0 h1 h2 h3
    rw [hr12] at gd g1 g2
    dsimp only at gd g1 g2
    simp only [← EReal.coe_mul, clipE_coe] at gd g1 g2
    have hL : min s.pf.range.2 (max (r1 * 0.99) s.pf.range.1) ≤ r1 ∧ 0.99 * r1 ≤ min s.pf.range.2 (max (r1 * 0.99) s.pf.range.1) :=
      ⟨(min_le_right _ _).trans (max_le (by linarith) h1), le_min (by linarith) (le_max_of_le_left (by linarith))⟩
    have hU : r2 ≤ min s.pf.range.2 (max (r2 * 1.01) s.pf.range.1) ∧ min s.pf.range.2 (max (r2 * 1.01) s.pf.range.1) ≤ 1.01 * r2 :=
      ⟨le_min h3 (le_max_of_le_left (by linarith)), (min_le_right _ _).trans (max_le (by linarith) (by linarith))⟩
    generalize min s.pf.range.2 (max (r1 * 0.99) s.pf.range.1) = L at *
    generalize min s.pf.range.2 (max (r2 * 1.01) s.pf.range.1) = U at *
    have hall : ∀ x ∈ d, L ≤ x ∧ x ≤ U := by
      intro x hx
      rw [gd] at hx
      obtain ⟨z, hz, rfl⟩ := List.mem_map.1 hx
      have := linspace_mem 400 (by norm_num) hz
      have hLU : log10 L ≤ log10 U := (log10_le g1 g2).2 (by linarith)
      rw [min_eq_left hLU, max_eq_right hLU] at this
      constructor
      · rw [← pow10_log10 g1]; exact pow10_le.2 this.1
      · rw [← pow10_log10 g2]; exact pow10_le.2 this.2
    have k0 : d[0]? = some L := by
      rw [gd, List.getElem?_map, List.getElem?_eq_getElem (by simp), linspace_zero, Option.map_some, pow10_log10 g1]
    have k1 : d[399]? = some U := by
      rw [gd, List.getElem?_map, List.getElem?_eq_getElem (by simp)]
      have := linspace_last (log10 L) (log10 U) 400 (by norm_num) (by simp)
      simp only [show (400 - 1 : ℕ) = 399 from rfl] at this
      rw [this, Option.map_some, pow10_log10 g2]
    obtain ⟨y0, hy0⟩ : ∃ z, y[0]? = some z := ⟨_, List.getElem?_eq_getElem (by omega)⟩
    obtain ⟨y1, hy1⟩ : ∃ z, y[399]? = some z := ⟨_, List.getElem?_eq_getElem (by omega)⟩
    refine ⟨(log10 L, y0), (log10 U, y1), ?_, ?_, ?_, ?_, ?_⟩
    · rw [List.getElem?_map, (List.getElem?_zip_eq_some (z := (L, y0))).2 ⟨k0, hy0⟩]; rfl
    · rw [List.getElem?_map, (List.getElem?_zip_eq_some (z := (U, y1))).2 ⟨k1, hy1⟩]; rfl
    · rw [pow10_log10 g1]; exact hL.1
    · rw [pow10_log10 g2]; exact hU.1
    · intro z hz
      obtain ⟨x, i, e1, e2, e3, hm⟩ := hmem z hz
      rw [e3]
      have := hall x hm
      exact ⟨hL.2.trans this.1, this.2.trans hU.2⟩

/-- **C121: the curve of a Poisson age.**  The curve drawn for a Poisson age is that of the production function for the density which the
chronology gives for the reported age, over the range of the fit; the age written beside it is the reported one with its distances to the
upper and lower bound. -/
theorem C121_poisson_curve (cv : CurveFit) (simpson : Simpson) (s : Overplot.Set) (hr : s.pf.range.1 ≤ s.pf.range.2) (p0 p1 p3 : ℝ)
    (hc : GoodChron s.cf p0 p1 p3) (o : Obj) (src : Source) (p : Options) (b : Bool) (hk : p.kind = .poisson b) (m : CountMarks)
    (h : overplot cv simpson s (some (o, src)) p = .ok (some m)) :
    ∃ r t lo up N, poissonAge s.pf s.cf simpson src p.range b s.ref = .ok r ∧ r.t = [t, lo, up] ∧ s.cf.N1 t = .ok N ∧ 0 < N ∧
      CurveOf s p.range (log10 N) m.fit ∧
      (p.showAge = true → ∃ place, m.age = some (place, (t, .ok (up - t), .ok (t - lo)), p.ageLeft)) ∧ (p.showAge = false → m.age = none) ∧
      (p.isochron = false → m.isochron = []) ∧
      (p.isochron = true → ∃ l, s.pf.getisochron s.pr (log10 N) s.ef = .ok l ∧ m.isochron = l.map (fun q => (log10 q.1, q.2))) := by
  obtain ⟨d, v, _, hv, _, _, _, hm⟩ := overplot_ok h
  unfold ageValues at hv
  rw [hk] at hv
  dsimp only at hv
  obtain ⟨r, hr', hv⟩ := except_bind_eq_ok hv
  obtain ⟨med, low, up, Nm, Nl, Nu, e, _, _, _, _, _, _, _, n1, _, _, q1, q2, _, ea, _⟩ :=
    C82_reported s.pf s.cf simpson src p.range b s.ref p0 p1 p3 hc r hr'
  rw [e, ea] at hv
  injection hv with hv
  have hf := hm _ hv.symm
  have hcurve := curve_of hr hf
  obtain ⟨d', y', hd', hfit, ht, hiso⟩ := fitMarks_ok hf
  dsimp only at hcurve hiso hd'
  refine ⟨r, med, low, up, Nm, hr', e, n1, by linarith, hcurve, ?_, ?_, ?_, ?_⟩
  · intro hs
    unfold ageText at ht
    rw [if_pos hs] at ht
    have hl := hcurve.length
    revert ht
    cases hq : m.fit with
    | nil => rw [hq] at hl; cases hl
    | cons q l =>
      intro ht
      injection ht with ht
      exact ⟨_, ht.symm⟩
  · intro hs
    unfold ageText at ht
    rw [hs] at ht
    simpa using ht.symm
  · intro hi
    rcases hiso with ⟨_, hiso⟩ | ⟨hi', _⟩
    · exact hiso
    · rw [hi] at hi'; cases hi'
  · intro hi
    rcases hiso with ⟨hi', _⟩ | ⟨_, hiso⟩
    · rw [hi] at hi'; cases hi'
    · exact hiso

theorem getplotdata_state (o : Obj) (a : PlotArgs) : (o.getplotdata a).1.craters = o.craters ∧ (o.getplotdata a).1.area = o.area ∧
    (o.getplotdata a).1.prebinned = o.prebinned ∧ (o.prebinned = true → (o.getplotdata a).1 = o) := by
  unfold Obj.getplotdata Obj.ensure
  by_cases h1 : o.prebinned = true
  · simp [h1]
  · by_cases h2 : o.binning = some a.binning
    · simp [h1, h2]
    · simp only [h1, h2, if_false, Bool.false_eq_true, false_implies, and_true]
      cases applyBinning a.binning 0 o.craters with
      | error e => exact ⟨rfl, rfl, by simpa using h1⟩
      | ok t => exact ⟨rfl, rfl, by simpa using h1⟩

/-- **C121: the curve of a fitted age.**  The curve drawn for a fit to the points is that of the fitted production function. -/
theorem C121_fit_curve (cv : CurveFit) (simpson : Simpson) (s : Overplot.Set) (hr : s.pf.range.1 ≤ s.pf.range.2)
    (o : Obj) (src : Source) (p : Options) (k : FitType) (hk : p.kind = .fit k) (m : CountMarks)
    (h : overplot cv simpson s (some (o, src)) p = .ok (some m)) :
    ∃ o' r, o'.craters = o.craters ∧ o'.area = o.area ∧ o'.prebinned = o.prebinned ∧ (o.prebinned = true → o' = o) ∧
      fitAge s.pf s.cf cv s.pfc o' k p.binning p.range p.resurf s.ref = .ok r ∧ CurveOf s p.range r.a0.best m.fit ∧
      s.cf.t (some r.a0.best) none = .ok r.t ∧
      (p.showAge = true → ∃ place up down, m.age = some (place, (r.t, up, down), p.ageLeft) ∧
        (∀ u, r.tUpper = .ok u → up = .ok (u - r.t)) ∧ ∀ l, r.tLower = .ok l → down = .ok (r.t - l)) := by
  obtain ⟨d, v, _, hv, _, _, _, hm⟩ := overplot_ok h
  unfold ageValues at hv
  rw [hk] at hv
  dsimp only at hv
  obtain ⟨r, hr', hv⟩ := except_bind_eq_ok hv
  injection hv with hv
  have hf := hm _ hv.symm
  have hcurve := curve_of hr hf
  obtain ⟨d', y', hd', hfit, ht, hiso⟩ := fitMarks_ok hf
  dsimp only at hcurve
  obtain ⟨s1, s2, s3, s4⟩ := getplotdata_state o (plotArgs s p)
  refine ⟨_, r, s1, s2, s3, s4, hr', hcurve, ?_, ?_⟩
  · unfold fitAge at hr'
    dsimp only at hr'
    obtain ⟨_, _, hr'⟩ := except_bind_eq_ok hr'
    obtain ⟨a, _, hr'⟩ := except_bind_eq_ok hr'
    obtain ⟨t, htt, hr'⟩ := except_bind_eq_ok hr'
    obtain ⟨nd, _, hr'⟩ := except_bind_eq_ok hr'
    injection hr' with hr'
    subst hr'
    exact htt
  · intro hs
    unfold ageText at ht
    rw [if_pos hs] at ht
    have hl := hcurve.length
    revert ht
    cases hq : m.fit with
    | nil => rw [hq] at hl; cases hl
    | cons q l =>
      intro ht
      injection ht with ht
      refine ⟨_, _, _, ht.symm, ?_, ?_⟩
      · intro u hu; rw [hu]; rfl
      · intro u hu; rw [hu]; rfl

/-- **C121: the plot exists.**  With a polynomial production function, whenever the plot data and the likelihood exist, the plot of a
Poisson age is drawn. -/
theorem C121_defined (cv : CurveFit) (simpson : Simpson) (s : Overplot.Set) (a : List ℝ) (ha : a ≠ []) (r : ℝ × ℝ) (hr0 : 0 < r.1)
    (hr : r.1 ≤ r.2) (hpf : s.pf = initPoly a (some r)) (p0 p1 p3 : ℝ) (hc : GoodChron s.cf p0 p1 p3) (href : 0 < s.ref)
    (hpr : s.pr ∈ [Presentation.cumulative, .differential, .rplot, .hartmann]) (o : Obj) (src : Source) (p : Options) (b : Bool)
    (hk : p.kind = .poisson b) (hh : p.hide = false) (hiso : p.isochron = false)
    (hd : ∃ d, (o.getplotdata (plotArgs s p)).2 = .ok d)
    (hl : ∃ q, Craterpdf.init s.pf s.cf simpson src (clipE p.range.1 s.pf.range.1 s.pf.range.2) (clipE p.range.2 s.pf.range.1 s.pf.range.2)
      none none b 5000 = .ok q) :
    ∃ m, overplot cv simpson s (some (o, src)) p = .ok (some m) := by
  obtain ⟨d, hd⟩ := hd
  obtain ⟨q, hq⟩ := hl
  obtain ⟨x, hx⟩ : ∃ x, s.pf.defaultA0 = .ok x := by
    rw [hpf]
    cases a with
    | nil => exact absurd rfl ha
    | cons x a => exact ⟨x, rfl⟩
  obtain ⟨w, hw, _⟩ := C82_defined s.pf s.cf simpson src p.range b s.ref p0 p1 p3 hc href ⟨x, hx⟩ q hq
  obtain ⟨med, low, up, Nm, Nl, Nu, e, _, _, _, _, _, _, _, n1, _, _, q1, q2, _, ea, _⟩ :=
    C82_reported s.pf s.cf simpson src p.range b s.ref p0 p1 p3 hc w hw
  obtain ⟨cd, cy, hcurve⟩ := C22_curve_defined a r hr0 hr s.pr hpr (log10 Nm) (Or.inr ha)
    (some (p.range.1 * ((0.99 : ℝ) : EReal), p.range.2 * ((1.01 : ℝ) : EReal)))
  rw [← hpf] at hcurve
  have hlen := (C22_curve s.pf (by rw [hpf]; exact hr) s.pr _ _ cd cy hcurve)
  have hv : ageValues cv simpson s (o.getplotdata (plotArgs s p)).1 src p = .ok (some ⟨log10 Nm, med, .ok low, .ok up⟩) := by
    unfold ageValues
    rw [hk]
    dsimp only
    rw [hw, except_ok_bind, e, ea]
  have hne : drawn (cd.zip cy) ≠ [] := by
    intro h0
    have : (drawn (cd.zip cy)).length = 400 := by simp [drawn, hlen.1, hlen.2.1]
    rw [h0] at this
    cases this
  have ht : ∃ t, ageText s p ⟨log10 Nm, med, .ok low, .ok up⟩ (drawn (cd.zip cy)) = .ok t := by
    unfold ageText
    split
    · cases hz : drawn (cd.zip cy) with
      | nil => exact absurd hz hne
      | cons z l => exact ⟨_, rfl⟩
    · exact ⟨_, rfl⟩
  obtain ⟨t, ht⟩ := ht
  unfold overplot
  dsimp only
  rw [if_neg (by simp [hh]), hd, except_ok_bind, hv, except_ok_bind]
  unfold allFitMarks fitMarks
  dsimp only
  rw [isoCurve, hiso, if_neg (by simp), except_ok_bind, hcurve, except_ok_bind]
  dsimp only
  rw [ht, except_ok_bind, except_ok_bind]
  exact ⟨_, rfl⟩

/-! ### C122 -/

/-- Specification: the point of the plot, as decimal logarithms of diameter and density, at given axes coordinates. -/
def decadesAt (xr yr : ℝ × ℝ) (q : ℝ × ℝ) : ℝ × ℝ := (xr.1 + q.1 * (xr.2 - xr.1), yr.1 + q.2 * (yr.2 - yr.1))

/-- **C122 (what holds): place of the age text.**  The age stands at the first point of its curve, 2 % of the axes to the right and above
(or to the left and below, where the text ends, if `age_left`); `offset_age` moves it by that number of twentieths of a decade to the right,
and upward by as much of the height as of the width.  Missing: upward by twentieths of a decade, see below. -/
theorem C122_age_place_partial (cv : CurveFit) (simpson : Simpson) (s : Overplot.Set) (hx : s.xr.1 + 1 ≤ s.xr.2) (hy : s.yr.1 < s.yr.2)
    (o : Obj) (src : Source) (p : Options) (m : CountMarks) (h : overplot cv simpson s (some (o, src)) p = .ok (some m))
    (place : ℝ × ℝ) (v : ℝ × Except Err ℝ × Except Err ℝ) (left : Bool) (ha : m.age = some (place, v, left)) :
    ∃ x y, m.fit[0]? = some (x, y) ∧ left = p.ageLeft ∧
      (decadesAt s.xr s.yr place).1 = x + 0.02 * (if p.ageLeft then -1 else 1) * (s.xr.2 - s.xr.1) + p.offset.1 / 20 ∧
      (decadesAt s.xr s.yr place).2 = log10 y + 0.02 * (if p.ageLeft then -1 else 1) * (s.yr.2 - s.yr.1) +
        p.offset.2 / 20 * ((s.yr.2 - s.yr.1) / (s.xr.2 - s.xr.1)) := by
  obtain ⟨d, w, _, _, _, _, hn, hm⟩ := overplot_ok h
  cases w with
  | none => rw [(hn rfl).2.2] at ha; cases ha
  | some w =>
    obtain ⟨_, _, _, _, ht, _⟩ := fitMarks_ok (hm w rfl)
    unfold ageText at ht
    split_ifs at ht with hs
    · revert ht
      cases hq : m.fit with
      | nil => intro ht; cases ht
      | cons q l =>
        intro ht
        injection ht with ht
        rw [ha] at ht
        simp only [Option.some.injEq, Prod.mk.injEq] at ht
        obtain ⟨ht, _, rfl⟩ := ht
        have hd : axisDecades s.xr = s.xr.2 - s.xr.1 := by
          unfold axisDecades
          rw [max_eq_right (show s.xr.1 ≤ s.xr.2 by linarith), min_eq_left (show s.xr.1 ≤ s.xr.2 by linarith), max_eq_left (by linarith)]
        have h1 : s.xr.2 - s.xr.1 ≠ 0 := by linarith
        have h2 : s.yr.2 - s.yr.1 ≠ 0 := by linarith
        refine ⟨q.1, q.2, rfl, rfl, ?_, ?_⟩
        · rw [← ht]
          unfold decadesAt textPlace dataToAxis
          simp only [hd]
          field_simp
          ring
        · rw [← ht]
          unfold decadesAt textPlace dataToAxis
          simp only [hd]
          field_simp
          ring
    · injection ht with ht
      rw [ha] at ht
      cases ht

/-- **C122 fails upward**: unless the axes have equally many decades, a shift of the age upward is not in twentieths of a decade. -/
theorem C122_upward_counterexample (s : Overplot.Set) (hx : s.xr.1 + 1 ≤ s.xr.2) (hy : s.yr.1 < s.yr.2)
    (hne : s.yr.2 - s.yr.1 ≠ s.xr.2 - s.xr.1) (p : Options) (ho : p.offset.2 ≠ 0) (q : ℝ × ℝ) :
    (decadesAt s.xr s.yr (textPlace s p q)).2 - (decadesAt s.xr s.yr (textPlace s { p with offset := (p.offset.1, 0) } q)).2 ≠ p.offset.2 / 20 := by
  have hd : axisDecades s.xr = s.xr.2 - s.xr.1 := by
    unfold axisDecades
    rw [max_eq_right (show s.xr.1 ≤ s.xr.2 by linarith), min_eq_left (show s.xr.1 ≤ s.xr.2 by linarith), max_eq_left (by linarith)]
  have h1 : s.xr.2 - s.xr.1 ≠ 0 := by linarith
  unfold decadesAt textPlace
  simp only [hd]
  intro h
  apply hne
  have e : p.offset.2 / ((s.xr.2 - s.xr.1) * 20) * (s.yr.2 - s.yr.1) = p.offset.2 / 20 := by
    rw [zero_div] at h
    linarith
  field_simp at e
  exact e

/-- a count of four craters from 1 to 2 km, its Poisson age and the place of the age, moved up by four twentieths -/
example (cv : CurveFit) (simpson : Simpson) : ∃ s o src p m, p.kind = .poisson false ∧ p.offset.2 ≠ 0 ∧ s.xr.1 + 1 ≤ s.xr.2 ∧
    s.yr.1 < s.yr.2 ∧ s.yr.2 - s.yr.1 ≠ s.xr.2 - s.xr.1 ∧ GoodChron s.cf 0 0 2 ∧
    overplot cv simpson s (some (o, src)) p = .ok (some m) ∧ m.points.length = 1 ∧ m.age ≠ none := by
  obtain ⟨c, hg, hN, h⟩ := age_example simpson (some (1, 4))
  obtain ⟨q, hq⟩ := h 1 4 (by norm_num) (by norm_num) (by norm_num) (by norm_num)
  have e1 : clipE 0 1 4 = 1 := by
    unfold clipE
    rw [max_eq_right (by exact_mod_cast (zero_le_one : (0 : ℝ) ≤ 1)), min_eq_right (by exact_mod_cast (by norm_num : (1 : ℝ) ≤ 4))]
    exact EReal.toReal_coe _
  have e2 : clipE ⊤ 1 4 = 4 := by
    unfold clipE
    rw [max_eq_left le_top, min_eq_left le_top]
    exact EReal.toReal_coe _
  have hpt : point .cumulative 10 0 (some fun _ => 1) ⟨1, 2, 1, 1.5, 4, 4, 4, 4⟩ = .ok ⟨1, 4 / 10 + 0, (4 / 10 + 0) / Real.sqrt 4⟩ := by
    have h1 : fdiv 4 10 = .ok (4 / 10) := by simp [fdiv]
    have h2 : errBar (4 / 10 + 0) 4 = .ok ((4 / 10 + 0) / Real.sqrt 4) := by
      unfold errBar; rw [if_neg (by norm_num)]
    simp only [point, h1, except_ok_bind, h2]
  have hk : (nonEmpty [⟨1, 2, 1, 1.5, 4, 4, 4, 4⟩]).filter (inRange (0, ⊤) false) = [⟨1, 2, 1, 1.5, 4, 4, 4, 4⟩] := by
    have h3 : ((0 : EReal) < ((1.5 : ℝ) : EReal)) := by exact_mod_cast (by norm_num : (0 : ℝ) < 1.5)
    simp [nonEmpty, inRange, h3, EReal.coe_lt_top]
  have hbr : binRangeOf .none [⟨1, 2, 1, 1.5, 4, 4, 4, 4⟩] (0, ⊤) false = .ok (((1 : ℝ) : EReal), ((2 : ℝ) : EReal)) := by
    simp [binRangeOf]
  have hpd : plotData .cumulative .none [⟨1, 2, 1, 1.5, 4, 4, 4, 4⟩] 10 0 (some fun _ => 1) (some (0, ⊤)) false false =
      .ok ⟨[⟨1, 4 / 10 + 0, (4 / 10 + 0) / Real.sqrt 4⟩], 4, 4, (((1 : ℝ) : EReal), ((2 : ℝ) : EReal))⟩ := by
    simp only [plotData, hk, List.mapM_cons, List.mapM_nil, hpt, except_ok_bind, hbr, pure, Except.pure]
    simp
  let s : Overplot.Set := ⟨initPoly [0, -1] (some (1, 4)), ⟨fun _ => 1, fun _ _ => 1, fun _ => 1⟩, c, none, 1, .cumulative, (-1, 2), (-3, 3)⟩
  let o : Obj := ⟨[], 10, true, some .none, [⟨1, 2, 1, 1.5, 4, 4, 4, 4⟩]⟩
  let p : Options := ⟨.poisson false, (0, ⊤), .none, false, true, false, true, false, (1, 4), false, false⟩
  have hd : (o.getplotdata (plotArgs s p)).2 = .ok ⟨[⟨1, 4 / 10 + 0, (4 / 10 + 0) / Real.sqrt 4⟩], 4, 4, (((1 : ℝ) : EReal), ((2 : ℝ) : EReal))⟩ := by
    simp only [Obj.getplotdata, Obj.ensure, o, s, p, plotArgs, if_true, plotDataFull, adjOf, except_ok_bind]
    simpa using hpd
  obtain ⟨m, hm⟩ := C121_defined cv simpson s [0, -1] (by simp) (1, 4) (by norm_num) (by norm_num) rfl 0 0 2 hg one_pos (by simp [s]) o
    ⟨some [1, 1.5, 2, 3], [], 10, none⟩ p false rfl rfl rfl ⟨_, hd⟩ ⟨q, by
      have : s.pf.range = (1, 4) := rfl
      rw [this]
      simp only [p]
      rw [e1, e2]
      exact hq⟩
  refine ⟨s, o, _, p, m, rfl, by simp [p], by norm_num [s], by norm_num [s], by norm_num [s], hg, hm, ?_, ?_⟩
  · obtain ⟨d, w, hd', _, hp, _⟩ := overplot_ok hm
    rw [hd] at hd'
    injection hd' with hd'
    rw [hp, ← hd']
    rfl
  · obtain ⟨_, _, _, _, _, _, _, _, _, _, ht, _⟩ := C121_poisson_curve cv simpson s (by norm_num [s, initPoly, PFn.range]) 0 0 2 hg o _ p false rfl m hm
    obtain ⟨place, ht⟩ := ht rfl
    rw [ht]
    simp

end

end Verif.Props
