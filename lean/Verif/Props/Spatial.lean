import Verif.Model.Spatial
import Verif.Model.Randomness
import Verif.Props.Misc
import Mathlib.Analysis.SpecialFunctions.Integrals.Basic
import Mathlib.MeasureTheory.Measure.Lebesgue.Basic
import Mathlib.MeasureTheory.Measure.Prod
import Mathlib.Analysis.Real.Pi.Bounds
import Verif.Props.BinCraters

/-! # C99, C100, C101: craters drawn as polygons, random points, enclosing range -/

namespace Verif.Props

open Verif.Py Verif.Spatial Verif.Rand

/-! ### C99 -/

/-- Specification: area of a spherical cap of angular radius `θ`, made of rings of length `2πR sin t` and width `R dt` -/
noncomputable def capArea (R θ : ℝ) : ℝ := ∫ t in (0 : ℝ)..θ, 2 * Real.pi * R * Real.sin t * R

theorem capArea_eq (R θ : ℝ) : capArea R θ = 2 * Real.pi * R ^ 2 * (1 - Real.cos θ) := by
  unfold capArea
  have : (fun t => 2 * Real.pi * R * Real.sin t * R) = fun t => (2 * Real.pi * R ^ 2) * Real.sin t := by
    funext t; ring
  rw [this, intervalIntegral.integral_const_mul, integral_sin, Real.cos_zero]

/-- **C99, diameter.** A crater whose polygon has the area of a spherical cap gets the diameter of the cap measured along the surface. -/
theorem C99_diameter (R θ : ℝ) (hR : 0 < R) (h0 : 0 ≤ θ) (h1 : θ ≤ Real.pi) : sphericalDiameter R (capArea R θ) = .ok (2 * (R * θ)) := by
  have hpi := Real.pi_pos
  have e : 1 - capArea R θ / (2 * Real.pi * R ^ 2) = Real.cos θ := by
    rw [capArea_eq]
    field_simp
    ring
  unfold sphericalDiameter
  dsimp only
  rw [e, if_pos ⟨Real.neg_one_le_cos θ, Real.cos_le_one θ⟩, Real.arccos_cos h0 h1]
  congr 1
  ring

example : (0 : ℝ) < 1737.4 ∧ (0 : ℝ) ≤ 0.1 ∧ (0.1 : ℝ) ≤ Real.pi := ⟨by norm_num, by norm_num, by linarith [Real.pi_gt_three]⟩

/-- **C99, order.** Every polygon area up to that of the body gives a diameter, and larger areas give larger diameters. -/
theorem C99_increasing (R : ℝ) (hR : 0 < R) : ∃ d : ℝ → ℝ, (∀ A, 0 ≤ A → A ≤ 4 * Real.pi * R ^ 2 → sphericalDiameter R A = .ok (d A)) ∧
    StrictMonoOn d (Set.Icc 0 (4 * Real.pi * R ^ 2)) ∧ d 0 = 0 := by
  have hpi := Real.pi_pos
  have hc : 0 < 2 * Real.pi * R ^ 2 := by positivity
  refine ⟨fun A => 2 * R * Real.arccos (1 - A / (2 * Real.pi * R ^ 2)), ?_, ?_, by simp⟩
  · intro A h0 h1
    unfold sphericalDiameter
    dsimp only
    rw [if_pos]
    have h2 : A / (2 * Real.pi * R ^ 2) ≤ 2 := by rw [div_le_iff₀ hc]; linarith
    have h3 : 0 ≤ A / (2 * Real.pi * R ^ 2) := by positivity
    constructor <;> linarith
  · intro A hA B hB hAB
    have h2 : B / (2 * Real.pi * R ^ 2) ≤ 2 := by rw [div_le_iff₀ hc]; linarith [hB.2]
    have h3 : 0 ≤ A / (2 * Real.pi * R ^ 2) := div_nonneg hA.1 hc.le
    have h4 : A / (2 * Real.pi * R ^ 2) < B / (2 * Real.pi * R ^ 2) := by gcongr
    have : Real.arccos (1 - A / (2 * Real.pi * R ^ 2)) < Real.arccos (1 - B / (2 * Real.pi * R ^ 2)) :=
      Real.strictAntiOn_arccos ⟨by linarith, by linarith⟩ ⟨by linarith, by linarith⟩ (by linarith)
    dsimp only
    nlinarith

/-- Specification: a valid crater polygon: positive area, not above that of the body; the intersection is a part of it, and all of it if the
polygon is covered -/
def ValidShape (R : ℝ) (s : CraterShape) : Prop :=
  0 < s.area ∧ s.area ≤ 4 * Real.pi * R ^ 2 ∧ 0 ≤ s.inter ∧ s.inter ≤ s.area ∧ (s.covered = true → s.inter = s.area)

/-- **C99, craters.** Of every list of valid crater polygons exactly those are kept which overlap the counting area, in order, each with its
own position, the diameter of its area, and a fraction: 1 for covered polygons, otherwise between 0 and 1, increasing with the
overlap and right at the depths `i/99`. -/
theorem C99_craters (R : ℝ) (l : List CraterShape) (hl : ∀ s ∈ l, ValidShape R s) :
    ∃ d f : CraterShape → ℝ, readShapes R R l =
        .ok ((l.filter (fun s => decide (0 < s.inter))).map (fun s => ⟨d s, f s, s.lon, s.lat⟩)) ∧
      (∀ s ∈ l, sphericalDiameter R s.area = .ok (d s) ∧ (s.covered = true → f s = 1) ∧ (0 < s.inter → 0 < f s ∧ f s ≤ 1) ∧
        ∀ i : ℕ, i ≤ 99 → s.inter / s.area = segmentFraction ((i : ℝ) / 99) → f s = (i : ℝ) / 99) ∧
      (∀ s ∈ l, ∀ s' ∈ l, s.inter / s.area < s'.inter / s'.area → f s < f s') := by
  have hpi := Real.pi_pos
  obtain ⟨inv, i1, i2, i3, i4, i5, i6, _, i8⟩ := C29_inverse
  set d : CraterShape → ℝ := fun s => 2 * R * Real.arccos (1 - s.area / (2 * Real.pi * R ^ 2)) with hd
  set f : CraterShape → ℝ := fun s => if s.covered then 1 else inv (s.inter / s.area) with hf
  have hsd : ∀ s ∈ l, sphericalDiameter R s.area = .ok (d s) := by
    intro s hs
    obtain ⟨h1, h2, _⟩ := hl s hs
    have hc : 0 < 2 * Real.pi * R ^ 2 := by nlinarith
    unfold sphericalDiameter
    dsimp only
    rw [if_pos]
    have h3 : s.area / (2 * Real.pi * R ^ 2) ≤ 2 := by rw [div_le_iff₀ hc]; linarith
    have h4 : 0 ≤ s.area / (2 * Real.pi * R ^ 2) := by positivity
    constructor <;> linarith
  have hcov : ∀ s ∈ l, s.covered = true → s.inter / s.area = 1 := by
    intro s hs hc
    obtain ⟨h1, _, _, _, h5⟩ := hl s hs
    rw [h5 hc, div_self h1.ne']
  have hfi : ∀ s ∈ l, f s = inv (s.inter / s.area) := by
    intro s hs
    simp only [hf]
    split
    · rename_i hc
      rw [hcov s hs hc, i6]
    · rfl
  have hunit : ∀ s ∈ l, s.inter / s.area ∈ Set.Icc (0 : ℝ) 1 := by
    intro s hs
    obtain ⟨h1, _, h3, h4, _⟩ := hl s hs
    exact ⟨div_nonneg h3 h1.le, (div_le_one h1).2 h4⟩
  have hfp : ∀ s ∈ l, (0 < f s ↔ 0 < s.inter) := by
    intro s hs
    rw [hfi s hs]
    obtain ⟨h1, _, h3, h4, _⟩ := hl s hs
    constructor
    · intro h
      rcases h3.lt_or_eq with h' | h'
      · exact h'
      · rw [← h', zero_div, i5] at h
        exact absurd h (lt_irrefl _)
    · intro h
      have := i8 (Set.left_mem_Icc.2 zero_le_one) (hunit s hs) (div_pos h h1)
      rwa [i5] at this
  refine ⟨d, f, ?_, ?_, ?_⟩
  · have hst : ∀ s ∈ l, storeOne R s = .ok ⟨d s, f s, s.lon, s.lat⟩ := by
      intro s hs
      unfold storeOne fractionOf
      rw [hsd s hs]
      show (if s.covered = true then Except.ok 1 else if s.area = 0 then Except.error Exc.nonFinite else Misc.af2lf (s.inter / s.area)).bind _ = _
      simp only [hf]
      split
      · rfl
      · rw [if_neg (hl s hs).1.ne', i1]
        rfl
    unfold readShapes
    rw [if_neg (by simp), mapM_all_ok hst]
    show Except.ok _ = Except.ok _
    congr 1
    rw [List.filter_map]
    congr 1
    apply List.filter_congr
    intro s hs
    simp only [Function.comp, decide_eq_decide]
    exact hfp s hs
  · intro s hs
    refine ⟨hsd s hs, ?_, ?_, ?_⟩
    · intro hc
      simp [hf, hc]
    · intro h
      refine ⟨(hfp s hs).2 h, ?_⟩
      rw [hfi s hs]
      exact (i2 _).2
    · intro i hi h
      rw [hfi s hs, h]
      exact i4 i hi
  · intro s hs s' hs' h
    rw [hfi s hs, hfi s' hs']
    exact i8 (hunit s hs) (hunit s' hs') h

example : ValidShape 1737.4 ⟨10, false, 4, 20, 30⟩ := by
  refine ⟨by norm_num, ?_, by norm_num, by norm_num, by simp⟩
  norm_num
  nlinarith [Real.pi_gt_three]

/-- **C99, mismatch.** Crater and area files for bodies of different radius are refused. -/
theorem C99_radii (rc ra : ℝ) (h : rc ≠ ra) (l : List CraterShape) : readShapes rc ra l = .error .value := by
  unfold readShapes
  rw [if_pos h]

/-! ### C100 -/

/-- Specification: area on a sphere of radius `R` between two longitudes and two latitudes (degrees): strips of length
`R cos(lat) Δlon` and width `R d(lat)` -/
noncomputable def zoneArea (R : ℝ) (b : Box) : ℝ :=
  ∫ t in (b.y0 * Real.pi / 180)..(b.y1 * Real.pi / 180), R * Real.cos t * ((b.x1 - b.x0) * Real.pi / 180) * R

/-- Specification: a range of longitudes and latitudes on the sphere -/
def ValidBox (b : Box) : Prop := b.x0 < b.x1 ∧ -90 ≤ b.y0 ∧ b.y0 < b.y1 ∧ b.y1 ≤ 90

/-- Specification: the point (longitude, latitude) lies in the range -/
def Box.Has (b : Box) (p : ℝ × ℝ) : Prop := b.x0 ≤ p.1 ∧ p.1 ≤ b.x1 ∧ b.y0 ≤ p.2 ∧ p.2 ≤ b.y1

theorem zoneArea_eq (R : ℝ) (b : Box) : zoneArea R b =
    R ^ 2 * ((b.x1 - b.x0) * Real.pi / 180) * (Real.sin (radians b.y1) - Real.sin (radians b.y0)) := by
  unfold zoneArea radians
  have : (fun t => R * Real.cos t * ((b.x1 - b.x0) * Real.pi / 180) * R) = fun t => (R ^ 2 * ((b.x1 - b.x0) * Real.pi / 180)) * Real.cos t := by
    funext t; ring
  rw [this, intervalIntegral.integral_const_mul, integral_cos]

theorem radians_mem {y : ℝ} (h0 : -90 ≤ y) (h1 : y ≤ 90) : radians y ∈ Set.Icc (-(Real.pi / 2)) (Real.pi / 2) := by
  have hpi := Real.pi_pos
  unfold radians
  constructor <;> nlinarith

theorem radians_lt {x y : ℝ} : radians x < radians y ↔ x < y := by
  have hpi := Real.pi_pos
  unfold radians
  rw [div_lt_div_iff_of_pos_right (by norm_num), mul_lt_mul_iff_left₀ hpi]

theorem sin_radians_lt {x y : ℝ} (h0 : -90 ≤ x) (h1 : x < y) (h2 : y ≤ 90) : Real.sin (radians x) < Real.sin (radians y) :=
  Real.strictMonoOn_sin (radians_mem h0 (by linarith)) (radians_mem (by linarith) h2) (radians_lt.2 h1)

theorem degrees_le_iff {r d : ℝ} : degrees r ≤ d ↔ r ≤ radians d := by
  have hpi := Real.pi_pos
  unfold degrees radians
  rw [div_le_iff₀ hpi, le_div_iff₀ (by norm_num)]

theorem le_degrees_iff {r d : ℝ} : d ≤ degrees r ↔ radians d ≤ r := by
  have hpi := Real.pi_pos
  unfold degrees radians
  rw [le_div_iff₀ hpi, div_le_iff₀ (by norm_num)]

/-- which random numbers give a latitude in a given interval -/
theorem lat_iff {b : Box} (hb : ValidBox b) {c d r : ℝ} (hc : b.y0 ≤ c) (hcd : c ≤ d) (hd : d ≤ b.y1) (h0 : 0 ≤ r) (h1 : r ≤ 1) (rx : ℝ) :
    (c ≤ (randomPoint b rx r).2 ∧ (randomPoint b rx r).2 ≤ d) ↔
      Real.sin (radians c) ≤ uniform (Real.sin (radians b.y0)) (Real.sin (radians b.y1)) r ∧
      uniform (Real.sin (radians b.y0)) (Real.sin (radians b.y1)) r ≤ Real.sin (radians d) := by
  obtain ⟨_, hb1, hb2, hb3⟩ := hb
  have hs := sin_radians_lt hb1 hb2 hb3
  set u := uniform (Real.sin (radians b.y0)) (Real.sin (radians b.y1)) r with hu
  have hu1 : u ∈ Set.Icc (-1 : ℝ) 1 := by
    have ha := Real.neg_one_le_sin (radians b.y0)
    have hb := Real.sin_le_one (radians b.y1)
    rw [hu]
    unfold uniform
    constructor <;> nlinarith
  show (c ≤ degrees (Real.arcsin u) ∧ degrees (Real.arcsin u) ≤ d) ↔ _
  rw [le_degrees_iff, degrees_le_iff]
  have mc := radians_mem (y := c) (by linarith) (by linarith)
  have md := radians_mem (y := d) (by linarith) (by linarith)
  rw [Real.le_arcsin_iff_sin_le mc hu1, Real.arcsin_le_iff_le_sin hu1 md]

open MeasureTheory in
/-- **C100.** The random points are spread evenly over the surface: for every zone inside the range, the share of pairs of random numbers
which give a point in the zone is the share of the area of the zone in that of the range. -/
theorem C100_uniform (R : ℝ) (hR : 0 < R) (b z : Box) (hb : ValidBox b) (hx0 : b.x0 ≤ z.x0) (hx : z.x0 ≤ z.x1) (hx1 : z.x1 ≤ b.x1)
    (hy0 : b.y0 ≤ z.y0) (hy : z.y0 ≤ z.y1) (hy1 : z.y1 ≤ b.y1) :
    (volume {r : ℝ × ℝ | r ∈ Set.Icc (0 : ℝ) 1 ×ˢ Set.Icc (0 : ℝ) 1 ∧ Box.Has z (randomPoint b r.1 r.2)}).toReal =
      zoneArea R z / zoneArea R b := by
  have hpi := Real.pi_pos
  obtain ⟨hb0, hb1, hb2, hb3⟩ := hb
  have hs := sin_radians_lt hb1 hb2 hb3
  set s0 := Real.sin (radians b.y0)
  set s1 := Real.sin (radians b.y1)
  have hmono : ∀ x y, -90 ≤ x → x ≤ y → y ≤ 90 → Real.sin (radians x) ≤ Real.sin (radians y) := by
    intro x y h0 h1 h2
    rcases h1.eq_or_lt with rfl | h1
    · exact le_rfl
    · exact (sin_radians_lt h0 h1 h2).le
  have hz0 : s0 ≤ Real.sin (radians z.y0) := hmono _ _ hb1 hy0 (by linarith)
  have hz1 : Real.sin (radians z.y1) ≤ s1 := hmono _ _ (by linarith) hy1 hb3
  have hzz : Real.sin (radians z.y0) ≤ Real.sin (radians z.y1) := hmono _ _ (by linarith) hy (by linarith)
  set t0 := Real.sin (radians z.y0)
  set t1 := Real.sin (radians z.y1)
  have hset : {r : ℝ × ℝ | r ∈ Set.Icc (0 : ℝ) 1 ×ˢ Set.Icc (0 : ℝ) 1 ∧ Box.Has z (randomPoint b r.1 r.2)} =
      Set.Icc ((z.x0 - b.x0) / (b.x1 - b.x0)) ((z.x1 - b.x0) / (b.x1 - b.x0)) ×ˢ Set.Icc ((t0 - s0) / (s1 - s0)) ((t1 - s0) / (s1 - s0)) := by
    have hw : 0 < b.x1 - b.x0 := by linarith
    have hv : 0 < s1 - s0 := by linarith
    ext r
    simp only [Set.mem_setOf_eq, Set.mem_prod, Set.mem_Icc, Box.Has]
    rw [div_le_iff₀ hw, le_div_iff₀ hw, div_le_iff₀ hv, le_div_iff₀ hv]
    constructor
    · rintro ⟨⟨⟨a1, a2⟩, a3, a4⟩, c1, c2, c3, c4⟩
      obtain ⟨e1, e2⟩ := (lat_iff ⟨hb0, hb1, hb2, hb3⟩ hy0 hy hy1 a3 a4 r.1).1 ⟨c3, c4⟩
      simp only [randomPoint, uniform] at c1 c2 e1 e2
      refine ⟨⟨by linarith, by linarith⟩, ?_, ?_⟩
      · change t0 ≤ s0 + (s1 - s0) * r.2 at e1; linarith
      · change s0 + (s1 - s0) * r.2 ≤ t1 at e2; linarith
    · rintro ⟨⟨c1, c2⟩, c3, c4⟩
      have a1 : 0 ≤ r.1 := by
        by_contra h
        push Not at h
        nlinarith
      have a2 : r.1 ≤ 1 := by
        by_contra h
        push Not at h
        nlinarith
      have a3 : 0 ≤ r.2 := by
        by_contra h
        push Not at h
        nlinarith
      have a4 : r.2 ≤ 1 := by
        by_contra h
        push Not at h
        nlinarith
      have e := (lat_iff ⟨hb0, hb1, hb2, hb3⟩ hy0 hy hy1 a3 a4 r.1).2 (by
        simp only [uniform]
        constructor
        · show t0 ≤ s0 + (s1 - s0) * r.2; linarith
        · show s0 + (s1 - s0) * r.2 ≤ t1; linarith)
      refine ⟨⟨⟨a1, a2⟩, a3, a4⟩, ?_, ?_, e.1, e.2⟩
      · simp only [randomPoint, uniform]; linarith
      · simp only [randomPoint, uniform]; linarith
  rw [hset, Measure.volume_eq_prod, Measure.prod_prod, Real.volume_Icc, Real.volume_Icc, ENNReal.toReal_mul, ENNReal.toReal_ofReal, ENNReal.toReal_ofReal,
    zoneArea_eq, zoneArea_eq]
  · change _ = R ^ 2 * ((z.x1 - z.x0) * Real.pi / 180) * (t1 - t0) / (R ^ 2 * ((b.x1 - b.x0) * Real.pi / 180) * (s1 - s0))
    have hw : b.x1 - b.x0 ≠ 0 := by linarith
    have hv : s1 - s0 ≠ 0 := by linarith
    field_simp
    ring
  · have : (t1 - s0) / (s1 - s0) - (t0 - s0) / (s1 - s0) = (t1 - t0) / (s1 - s0) := by rw [← sub_div]; congr 1; ring
    rw [this]
    exact div_nonneg (by linarith) (by linarith)
  · have : (z.x1 - b.x0) / (b.x1 - b.x0) - (z.x0 - b.x0) / (b.x1 - b.x0) = (z.x1 - z.x0) / (b.x1 - b.x0) := by rw [← sub_div]; congr 1; ring
    rw [this]
    exact div_nonneg (by linarith) (by linarith)

example : ValidBox ⟨-180, 180, -90, 90⟩ ∧ ValidBox ⟨10, 20, 30, 40⟩ := by
  unfold ValidBox; norm_num

/-- **C100, range.** Every random point lies in the range, and every point of the range can be drawn. -/
theorem C100_range (b : Box) (hb : ValidBox b) :
    (∀ rx ry, 0 ≤ rx → rx ≤ 1 → 0 ≤ ry → ry ≤ 1 → Box.Has b (randomPoint b rx ry)) ∧
    (∀ p, Box.Has b p → ∃ rx ry, 0 ≤ rx ∧ rx ≤ 1 ∧ 0 ≤ ry ∧ ry ≤ 1 ∧ randomPoint b rx ry = p) := by
  have hv := hb
  obtain ⟨hb0, hb1, hb2, hb3⟩ := hb
  have hs := sin_radians_lt hb1 hb2 hb3
  constructor
  · intro rx ry h0 h1 h2 h3
    obtain ⟨e1, e2⟩ := (lat_iff hv le_rfl hb2.le le_rfl h2 h3 rx).2 (by
      unfold uniform
      constructor <;> nlinarith)
    refine ⟨?_, ?_, e1, e2⟩ <;> simp only [randomPoint, uniform] <;> nlinarith
  · rintro ⟨x, y⟩ ⟨p1, p2, p3, p4⟩
    dsimp only at p1 p2 p3 p4
    have hs0 : Real.sin (radians b.y0) ≤ Real.sin (radians y) := by
      rcases p3.eq_or_lt with h | h
      · rw [h]
      · exact (sin_radians_lt hb1 h (by linarith)).le
    have hs1 : Real.sin (radians y) ≤ Real.sin (radians b.y1) := by
      rcases p4.eq_or_lt with h | h
      · rw [h]
      · exact (sin_radians_lt (by linarith) h hb3).le
    refine ⟨(x - b.x0) / (b.x1 - b.x0), (Real.sin (radians y) - Real.sin (radians b.y0)) / (Real.sin (radians b.y1) - Real.sin (radians b.y0)),
      div_nonneg (by linarith) (by linarith), (div_le_one (by linarith)).2 (by linarith), div_nonneg (by linarith) (by linarith),
      (div_le_one (by linarith)).2 (by linarith), ?_⟩
    unfold randomPoint uniform
    have hw : b.x1 - b.x0 ≠ 0 := by linarith
    have hv : Real.sin (radians b.y1) - Real.sin (radians b.y0) ≠ 0 := by linarith
    rw [mul_div_cancel₀ _ hw, mul_div_cancel₀ _ hv]
    have m := radians_mem (y := y) (by linarith) (by linarith)
    rw [add_sub_cancel, add_sub_cancel, Real.arcsin_sin m.1 m.2]
    have hpi := Real.pi_ne_zero
    unfold degrees radians
    congr 1
    field_simp

/-- **C100, batches.** As long as craters are missing, every batch drawn has at least ten points, its expected number of hits
(`hitRate` is the share of the range covered by the area) exceeds 1.2 times the number of craters missing, it has at most ten points
more than needed for that, and all its points lie in the range. -/
theorem C100_batch (b : Box) (hb : ValidBox b) (n count : ℤ) (hc : count < n) (hitRate : ℝ) (h0 : 0 < hitRate)
    (rnd : ℕ → ℕ → ℝ × ℝ) (hr : ∀ i j, (0 ≤ (rnd i j).1 ∧ (rnd i j).1 ≤ 1) ∧ 0 ≤ (rnd i j).2 ∧ (rnd i j).2 ≤ 1) (i : ℕ) :
    10 ≤ (drawBatch b n hitRate rnd i count).length ∧
    1.2 * ((n - count : ℤ) : ℝ) < hitRate * (drawBatch b n hitRate rnd i count).length ∧
    hitRate * ((drawBatch b n hitRate rnd i count).length - 10) ≤ 1.2 * ((n - count : ℤ) : ℝ) ∧
    ∀ p ∈ drawBatch b n hitRate rnd i count, Box.Has b p := by
  have hlen : (drawBatch b n hitRate rnd i count).length = batchSize n count hitRate := by simp [drawBatch]
  have hm : (0 : ℝ) < ((n - count : ℤ) : ℝ) := by exact_mod_cast sub_pos.2 hc
  have hf0 : (0 : ℤ) ≤ ⌊1.2 * ((n - count : ℤ) : ℝ) / hitRate⌋ := Int.floor_nonneg.2 (by positivity)
  have hz : ((batchSize n count hitRate : ℕ) : ℤ) = ⌊1.2 * ((n - count : ℤ) : ℝ) / hitRate⌋ + 10 := by
    rw [batchSize, Int.toNat_of_nonneg (by omega)]
  have hzr : ((batchSize n count hitRate : ℕ) : ℝ) = (⌊1.2 * ((n - count : ℤ) : ℝ) / hitRate⌋ : ℝ) + 10 := by exact_mod_cast hz
  have hfl := Int.floor_le (1.2 * ((n - count : ℤ) : ℝ) / hitRate)
  have hfu := Int.lt_floor_add_one (1.2 * ((n - count : ℤ) : ℝ) / hitRate)
  rw [hlen]
  refine ⟨by omega, ?_, ?_, ?_⟩
  · rw [hzr]
    rw [div_lt_iff₀ h0] at hfu
    nlinarith
  · rw [hzr]
    rw [le_div_iff₀ h0] at hfl
    nlinarith
  · intro p hp
    obtain ⟨j, _, rfl⟩ := List.mem_map.1 hp
    obtain ⟨⟨r1, r2⟩, r3, r4⟩ := hr i j
    exact (C100_range b hb).1 _ _ r1 r2 r3 r4

/-! ### C101 -/

/-- Specification: a point on the globe -/
def OnGlobe (p : ℝ × ℝ) : Prop := -180 ≤ p.1 ∧ p.1 ≤ 180 ∧ -90 ≤ p.2 ∧ p.2 ≤ 90

/-- **C101 (partial).** If the area stays within the limits of its vertices, apart from a pole it covers, and covers at most one pole,
then every point of it can be drawn.  Missing: areas which cover both poles, whose edges bulge towards a pole, or which lie across
longitude 180° (counterexamples below). -/
theorem C101_reach_partial (A : Set (ℝ × ℝ)) (b : Box) (north south : Bool) (hpoles : ¬ (north = true ∧ south = true))
    (hvalid : ValidBox (enclosing b north south)) (hglobe : ∀ p ∈ A, OnGlobe p)
    (hlon : north = false → south = false → ∀ p ∈ A, b.x0 ≤ p.1 ∧ p.1 ≤ b.x1)
    (hlow : south = false → ∀ p ∈ A, b.y0 ≤ p.2) (hhigh : north = false → ∀ p ∈ A, p.2 ≤ b.y1) :
    ∀ p ∈ A, ∃ rx ry, 0 ≤ rx ∧ rx ≤ 1 ∧ 0 ≤ ry ∧ ry ≤ 1 ∧ randomPoint (enclosing b north south) rx ry = p := by
  intro p hp
  refine (C100_range _ hvalid).2 p ?_
  obtain ⟨g1, g2, g3, g4⟩ := hglobe p hp
  cases north <;> cases south
  · exact ⟨(hlon rfl rfl p hp).1, (hlon rfl rfl p hp).2, hlow rfl p hp, hhigh rfl p hp⟩
  · exact ⟨g1, g2, g3, hhigh rfl p hp⟩
  · exact ⟨g1, g2, hlow rfl p hp, g4⟩
  · exact absurd ⟨rfl, rfl⟩ hpoles

/-- a polar cap: vertices along latitude 60°, range from there to the pole, all longitudes -/
example : enclosing (boundsOf (-120, 60) [(0, 60), (120, 60)]) true false = ⟨-180, 180, 60, 90⟩ ∧ ValidBox ⟨-180, 180, 60, 90⟩ := by
  constructor
  · simp [enclosing, boundsOf]
  · unfold ValidBox; norm_num

/-- **C101, both poles.** An area which covers both poles: nothing north of its northernmost vertex is ever drawn. -/
theorem C101_both_poles_counterexample (b : Box) (h0 : -90 < b.y1) (h1 : b.y1 < 90) :
    ∀ rx ry, 0 ≤ rx → rx ≤ 1 → 0 ≤ ry → ry ≤ 1 → (randomPoint (enclosing b true true) rx ry).2 ≤ b.y1 := by
  intro rx ry a1 a2 a3 a4
  have hv : ValidBox (enclosing b true true) := by
    refine ⟨?_, ?_, ?_, ?_⟩ <;> simp [enclosing] <;> linarith
  exact ((C100_range _ hv).1 rx ry a1 a2 a3 a4).2.2.2

/-- Specification: direction of a point given by longitude and latitude in degrees -/
noncomputable def direction (p : ℝ × ℝ) : ℝ × ℝ × ℝ :=
  (Real.cos (radians p.2) * Real.cos (radians p.1), Real.cos (radians p.2) * Real.sin (radians p.1), Real.sin (radians p.2))

/-- Specification: sum of the directions of vertices with weights -/
noncomputable def weighted (l : List (ℝ × (ℝ × ℝ))) : ℝ × ℝ × ℝ :=
  ((l.map (fun v => v.1 * (direction v.2).1)).sum, (l.map (fun v => v.1 * (direction v.2).2.1)).sum, (l.map (fun v => v.1 * (direction v.2).2.2)).sum)

/-- Specification: the inside of the convex spherical polygon with the given vertices: directions which are combinations of those of the
vertices with positive weights -/
def InConvex (vertices : List (ℝ × ℝ)) (p : ℝ × ℝ) : Prop :=
  ∃ w : List ℝ, w.length = vertices.length ∧ (∀ x ∈ w, 0 < x) ∧ direction p = weighted (w.zip vertices)

/-- **C101, bulging edges.** The triangle with vertices 60°W 45°N, 60°E 45°N and 0° 0° contains the point 0° 60°N, but the range ends at
latitude 45°: such points are never drawn. -/
theorem C101_bulge_counterexample :
    InConvex [(-60, 45), (60, 45), (0, 0)] (0, 60) ∧
    ∀ rx ry, 0 ≤ rx → rx ≤ 1 → 0 ≤ ry → ry ≤ 1 →
      (randomPoint (enclosing (boundsOf (-60, 45) [(60, 45), (0, 0)]) false false) rx ry).2 ≤ 45 := by
  constructor
  · have r60 : radians 60 = Real.pi / 3 := by unfold radians; ring
    have r60' : radians (-60) = -(Real.pi / 3) := by unfold radians; ring
    have r45 : radians 45 = Real.pi / 4 := by unfold radians; ring
    have r0 : radians 0 = 0 := by unfold radians; ring
    have h2 : Real.sqrt 2 * Real.sqrt 2 = 2 := Real.mul_self_sqrt (by norm_num)
    have h3 : Real.sqrt 3 * Real.sqrt 3 = 3 := Real.mul_self_sqrt (by norm_num)
    have p2 : 0 < Real.sqrt 2 := Real.sqrt_pos.2 (by norm_num)
    have p3 : 0 < Real.sqrt 3 := Real.sqrt_pos.2 (by norm_num)
    have h32 : Real.sqrt 3 < 2 := by nlinarith
    refine ⟨[Real.sqrt 3 * Real.sqrt 2 / 4, Real.sqrt 3 * Real.sqrt 2 / 4, 1 / 2 - Real.sqrt 3 / 4], rfl, ?_, ?_⟩
    · intro x hx
      simp only [List.mem_cons, List.not_mem_nil, or_false] at hx
      rcases hx with rfl | rfl | rfl
      · positivity
      · positivity
      · linarith
    · simp only [direction, weighted, List.zip_cons_cons, List.zip_nil_right, List.map_cons, List.map_nil, List.sum_cons, List.sum_nil,
        r60, r60', r45, r0, Real.cos_neg, Real.sin_neg, Real.cos_pi_div_three, Real.sin_pi_div_three, Real.cos_pi_div_four,
        Real.sin_pi_div_four, Real.cos_zero, Real.sin_zero]
      refine Prod.ext ?_ (Prod.ext ?_ ?_)
      · dsimp only; linear_combination (- Real.sqrt 3 / 8) * h2
      · dsimp only; ring
      · dsimp only; linear_combination (- Real.sqrt 3 / 4) * h2
  · intro rx ry a1 a2 a3 a4
    have hb : enclosing (boundsOf (-60, 45) [(60, 45), (0, 0)]) false false = ⟨-60, 60, 0, 45⟩ := by
      simp [enclosing, boundsOf]
    rw [hb]
    exact ((C100_range _ (by unfold ValidBox; norm_num)).1 rx ry a1 a2 a3 a4).2.2.2

/-- an area between 179°E and 179°W, from the equator to 2°N -/
def acrossDateLine : List (ℝ × ℝ) := [(179, 0), (-179, 0), (-179, 2), (179, 2)]

theorem acrossDateLine_bounds : boundsOf (179, 0) [(-179, 0), (-179, 2), (179, 2)] = ⟨-179, 179, 0, 2⟩ := by
  simp [boundsOf]

/-- the inside of the area lies beyond 179° -/
theorem acrossDateLine_lon {p : ℝ × ℝ} (h : InConvex acrossDateLine p) (h0 : -179 ≤ p.1) (h1 : p.1 ≤ 179) (h2 : -90 ≤ p.2) (h3 : p.2 ≤ 90) : False := by
  obtain ⟨w, hw, hpos, e⟩ := h
  match w, hw with
  | [w1, w2, w3, w4], _ =>
    have p1 := hpos w1 (by simp)
    have p2 := hpos w2 (by simp)
    have p3 := hpos w3 (by simp)
    have p4 := hpos w4 (by simp)
    have hpi := Real.pi_pos
    simp only [acrossDateLine, direction, weighted, List.zip_cons_cons, List.zip_nil_right, List.map_cons, List.map_nil, List.sum_cons,
      List.sum_nil, Prod.mk.injEq] at e
    obtain ⟨ex, ey, _⟩ := e
    have rneg : radians (-179) = -radians 179 := by unfold radians; ring
    rw [rneg, Real.cos_neg] at ex
    rw [rneg, Real.sin_neg] at ey
    have r0 : Real.cos (radians 0) = 1 := by unfold radians; simp
    rw [r0] at ex ey
    have hk : 0 < Real.cos (radians 2) := by
      apply Real.cos_pos_of_mem_Ioo
      unfold radians
      constructor <;> nlinarith
    have hc : 0 ≤ Real.cos (radians p.2) := Real.cos_nonneg_of_mem_Icc (radians_mem h2 h3)
    have hs2 : 2 * (Real.sin (radians 179) * Real.cos (radians 179)) < 0 := by
      have e2 : 2 * (Real.sin (radians 179) * Real.cos (radians 179)) = Real.sin (2 * radians 179) := by rw [Real.sin_two_mul]; ring
      rw [e2]
      have : Real.sin (2 * radians 179) = Real.sin (2 * radians 179 - 2 * Real.pi) := (Real.sin_sub_two_pi _).symm
      rw [this]
      apply Real.sin_neg_of_neg_of_neg_pi_lt
      · unfold radians; nlinarith
      · unfold radians; nlinarith
    set t := radians 179
    set lam := radians p.1
    set k := Real.cos (radians 2)
    have f1 : Real.cos (radians p.2) * Real.sin (t - lam) = (w2 + w3 * k) * (2 * (Real.sin t * Real.cos t)) := by
      rw [Real.sin_sub]
      linear_combination Real.sin t * ex - Real.cos t * ey
    have f2 : Real.cos (radians p.2) * Real.sin (t + lam) = (w1 + w4 * k) * (2 * (Real.sin t * Real.cos t)) := by
      rw [Real.sin_add]
      linear_combination Real.sin t * ex + Real.cos t * ey
    have g1 : Real.sin (t - lam) < 0 := by
      by_contra hn
      push Not at hn
      have : 0 ≤ Real.cos (radians p.2) * Real.sin (t - lam) := mul_nonneg hc hn
      have : (w2 + w3 * k) * (2 * (Real.sin t * Real.cos t)) < 0 := mul_neg_of_pos_of_neg (by positivity) hs2
      linarith
    have g2 : Real.sin (t + lam) < 0 := by
      by_contra hn
      push Not at hn
      have : 0 ≤ Real.cos (radians p.2) * Real.sin (t + lam) := mul_nonneg hc hn
      have : (w1 + w4 * k) * (2 * (Real.sin t * Real.cos t)) < 0 := mul_neg_of_pos_of_neg (by positivity) hs2
      linarith
    have lt1 : lam ≤ t := by
      show p.1 * Real.pi / 180 ≤ 179 * Real.pi / 180
      nlinarith
    have lt2 : -t ≤ lam := by
      show -(179 * Real.pi / 180) ≤ p.1 * Real.pi / 180
      nlinarith
    have tpi : t < Real.pi := by
      show 179 * Real.pi / 180 < Real.pi
      nlinarith
    have b1 : Real.pi < t - lam := by
      by_contra hn
      push Not at hn
      exact absurd (Real.sin_nonneg_of_nonneg_of_le_pi (by linarith) hn) (by linarith)
    have b2 : Real.pi < t + lam := by
      by_contra hn
      push Not at hn
      exact absurd (Real.sin_nonneg_of_nonneg_of_le_pi (by linarith) hn) (by linarith)
    linarith

/-- the point at longitude 180°, latitude 1° is inside: the area is not empty -/
example : InConvex acrossDateLine (180, 1) := by
  have hpi := Real.pi_pos
  have r180 : radians 180 = Real.pi := by unfold radians; ring
  have r179 : radians 179 = Real.pi - radians 1 := by unfold radians; ring
  have r179' : radians (-179) = -(Real.pi - radians 1) := by unfold radians; ring
  have r2 : radians 2 = 2 * radians 1 := by unfold radians; ring
  have r0 : radians 0 = 0 := by unfold radians; ring
  have hk : 0 < Real.cos (radians 1) := by
    apply Real.cos_pos_of_mem_Ioo
    unfold radians
    constructor <;> nlinarith
  have hk1 := Real.cos_le_one (radians 1)
  set k := Real.cos (radians 1) with hkdef
  refine ⟨[1 / 2 - (2 * k ^ 2 - 1) / (4 * k), 1 / 2 - (2 * k ^ 2 - 1) / (4 * k), 1 / (4 * k), 1 / (4 * k)], rfl, ?_, ?_⟩
  · have : 0 < 1 / 2 - (2 * k ^ 2 - 1) / (4 * k) := by
      rw [sub_pos, div_lt_div_iff₀ (by positivity) (by norm_num)]
      nlinarith
    intro x hx
    simp only [List.mem_cons, List.not_mem_nil, or_false] at hx
    rcases hx with rfl | rfl | rfl | rfl
    · exact this
    · exact this
    · positivity
    · positivity
  · simp only [acrossDateLine, direction, weighted, List.zip_cons_cons, List.zip_nil_right, List.map_cons, List.map_nil, List.sum_cons,
      List.sum_nil, r180, r179, r179', r2, r0, Real.cos_neg, Real.sin_neg, Real.cos_pi, Real.sin_pi, Real.cos_pi_sub, Real.sin_pi_sub,
      Real.cos_zero, Real.sin_zero, Real.cos_two_mul, Real.sin_two_mul, ← hkdef]
    refine Prod.ext ?_ (Prod.ext ?_ ?_)
    · dsimp only; field_simp; ring
    · dsimp only; ring
    · dsimp only; field_simp; ring

/-- points drawn outside the area leave everything as it is -/
theorem placeBatch_outside {P ι : Type} [DecidableEq ι] (S : Rand.Sphere P ι) (n : ℤ) (diam : ℝ) (pts : List P)
    (h : ∀ p ∈ pts, S.within p = false) (s : Rand.Filed P ι × ℤ) : Rand.placeBatch S n diam pts s = s := by
  induction pts with
  | nil => rfl
  | cons p pts ih =>
    unfold Rand.placeBatch
    rw [if_neg (by simp [h p (by simp)])]
    exact ih (fun q hq => h q (by simp [hq]))

theorem sprinkle_outside {P ι : Type} [DecidableEq ι] (S : Rand.Sphere P ι) (n : ℤ) (diam : ℝ) (draw : ℕ → ℤ → List P)
    (h : ∀ i c, ∀ p ∈ draw i c, S.within p = false) (s : Rand.Filed P ι × ℤ) (hs : s.2 < n) (fuel i : ℕ) :
    Rand.sprinkle S n diam draw fuel i s = none := by
  induction fuel generalizing i with
  | zero => rfl
  | succ k ih =>
    unfold Rand.sprinkle
    rw [if_pos hs, placeBatch_outside S n diam _ (h i s.2)]
    exact ih (i + 1)

/-- **C101, across 180°.** For an area on both sides of longitude 180° no random point ever falls in it, whatever the random numbers: placing
the craters never ends. -/
theorem C101_across_counterexample {ι : Type} [DecidableEq ι] (S : Rand.Sphere (ℝ × ℝ) ι)
    (hS : ∀ p, S.within p = true → InConvex acrossDateLine p) (n : ℤ) (hn : 0 < n) (diam hitRate : ℝ)
    (rnd : ℕ → ℕ → ℝ × ℝ) (h0 : ∀ i j, 0 ≤ (rnd i j).1 ∧ (rnd i j).1 ≤ 1 ∧ 0 ≤ (rnd i j).2 ∧ (rnd i j).2 ≤ 1) (fuel : ℕ) :
    Rand.sprinkleDiscs S n diam
      (drawBatch (enclosing (boundsOf (179, 0) [(-179, 0), (-179, 2), (179, 2)]) false false) n hitRate rnd) fuel = none := by
  refine sprinkle_outside S n diam _ ?_ ([], 0) hn fuel 0
  intro i c p hp
  unfold drawBatch at hp
  obtain ⟨j, _, rfl⟩ := List.mem_map.1 hp
  rw [acrossDateLine_bounds]
  obtain ⟨r1, r2, r3, r4⟩ := h0 i j
  obtain ⟨q1, q2, q3, q4⟩ := (C100_range ⟨-179, 179, 0, 2⟩ (by unfold ValidBox; norm_num)).1 _ _ r1 r2 r3 r4
  by_contra hw
  have hw := hS _ (by simpa using hw)
  exact acrossDateLine_lon hw q1 q2 (le_trans (by norm_num) q3) (q4.trans (by norm_num))

end Verif.Props
