import Verif.Model.MapSpace
import Verif.Props.MapPlot

/-! Property C138: printed maps. -/

namespace Verif.Props

open Verif.Py Verif.Spatial Verif.PlotSpace Verif.MapPlot Verif.MapSpace

/-- Specification: the room for a map: with one number a square of five times that length, with two numbers the box. -/
def RoomAsked (dims : List ℝ) (A B : ℝ) : Prop := (∃ v, dims = [v] ∧ A = 5 * v ∧ B = 5 * v) ∨ dims = [A, B]

/-- **C138, size.**  The axes of a map have exactly the size asked for, with a margin of a fifth of the point size (in cm) around them. -/
theorem C138_size {pt : ℝ} (hpt : 0 < pt) {dims : List ℝ} {A B : ℝ} (hA : 0 < A) (h : RoomAsked dims A B) :
    ∃ l, mapSpace pt dims = .ok l ∧ l.width = A ∧ l.height = B ∧ l.left = 0.2 * pt ∧ l.bottom = 0.2 * pt ∧
      l.xsize = A + 0.4 * pt ∧ l.ysize = B + 0.4 * pt := by
  have hm : pt * 0.2 ≠ 0 := by positivity
  rcases h with ⟨v, rfl, rfl, rfl⟩ | rfl
  · refine ⟨_, by unfold mapSpace; dsimp only; rw [except_ok_bind, if_neg hm], ?_⟩
    dsimp only
    refine ⟨?_, ?_, by ring, by ring, by ring, by ring⟩ <;> (field_simp; ring)
  · refine ⟨_, by unfold mapSpace; dsimp only; rw [if_neg hA.ne', except_ok_bind, if_neg hm], ?_⟩
    dsimp only
    refine ⟨?_, ?_, by ring, by ring, by ring, by ring⟩ <;> (field_simp; ring)

/-- **C138, errors.**  With three or more numbers there is an error. -/
theorem C138_numbers (pt : ℝ) (a b c : ℝ) (l : List ℝ) : mapSpace pt (a :: b :: c :: l) = .error .value := rfl

/-- **C138, scale.**  On paper there is one scale `k` (cm per km) in both directions, so that shapes are not distorted: it is the largest with which
the map fits into the room, which it fills in one direction; in the other it is in the middle. -/
theorem C138_scale {pt : ℝ} (hpt : 0 < pt) {dims : List ℝ} {A B : ℝ} (hA : 0 < A) (hB : 0 < B) (h : RoomAsked dims A B) {xr yr : ℝ × ℝ}
    (hx : xr.1 < xr.2) (hy : yr.1 < yr.2) : ∃ l k x0 y0, mapSpace pt dims = .ok l ∧ 0 < k ∧
      (∀ q, onPaper xr yr (equalAspect xr yr l) q = (x0 + k * q.1, y0 + k * q.2)) ∧
      k * (xr.2 - xr.1) ≤ A ∧ k * (yr.2 - yr.1) ≤ B ∧ (k * (xr.2 - xr.1) = A ∨ k * (yr.2 - yr.1) = B) ∧
      x0 + k * ((xr.1 + xr.2) / 2) = l.xsize / 2 ∧ y0 + k * ((yr.1 + yr.2) / 2) = l.ysize / 2 := by
  obtain ⟨l, hl, h1, h2, h3, h4, h5, h6⟩ := C138_size hpt hA h
  have dx : 0 < xr.2 - xr.1 := by linarith
  have dy : 0 < yr.2 - yr.1 := by linarith
  have hr : 0 < (yr.2 - yr.1) / (xr.2 - xr.1) := by positivity
  have hx0 : xr.2 - xr.1 ≠ 0 := dx.ne'
  have hy0 : yr.2 - yr.1 ≠ 0 := dy.ne'
  by_cases hc : A * ((yr.2 - yr.1) / (xr.2 - xr.1)) ≤ B
  · set k := A / (xr.2 - xr.1) with hk
    have hkx : k * (xr.2 - xr.1) = A := by rw [hk]; field_simp
    have hky : k * (yr.2 - yr.1) = A * ((yr.2 - yr.1) / (xr.2 - xr.1)) := by rw [hk]; field_simp
    have he : equalAspect xr yr l = ⟨l.xsize, l.ysize, l.left, l.bottom + (B - k * (yr.2 - yr.1)) / 2, k * (xr.2 - xr.1),
        k * (yr.2 - yr.1)⟩ := by
      unfold equalAspect
      dsimp only
      rw [h1, h2, if_pos hc, hkx, hky]
      simp
    refine ⟨l, k, l.left - k * xr.1, l.bottom + (B - k * (yr.2 - yr.1)) / 2 - k * yr.1, hl, by positivity, ?_, hkx.le, by rw [hky]; exact hc,
      Or.inl hkx, ?_, ?_⟩
    · intro q
      rw [he]
      unfold onPaper
      dsimp only
      ext
      · dsimp only; field_simp; ring
      · dsimp only; field_simp; ring
    · rw [h3, h5]; linarith
    · rw [h4, h6]; ring
  · have hc' := not_le.1 hc
    set k := B / (yr.2 - yr.1) with hk
    have hky : k * (yr.2 - yr.1) = B := by rw [hk]; field_simp
    have hkx : k * (xr.2 - xr.1) = B / ((yr.2 - yr.1) / (xr.2 - xr.1)) := by rw [hk]; field_simp
    have he : equalAspect xr yr l = ⟨l.xsize, l.ysize, l.left + (A - k * (xr.2 - xr.1)) / 2, l.bottom, k * (xr.2 - xr.1),
        k * (yr.2 - yr.1)⟩ := by
      unfold equalAspect
      dsimp only
      rw [h1, h2, if_neg hc, hkx, hky]
      simp
    refine ⟨l, k, l.left + (A - k * (xr.2 - xr.1)) / 2 - k * xr.1, l.bottom - k * yr.1, hl, by positivity, ?_, ?_, hky.le, Or.inr hky, ?_, ?_⟩
    · intro q
      rw [he]
      unfold onPaper
      dsimp only
      ext
      · dsimp only; field_simp; ring
      · dsimp only; field_simp; ring
    · rw [hkx, div_le_iff₀ hr]
      exact hc'.le
    · rw [h3, h5]; ring
    · rw [h4, h6]; linarith

/-- the default size, for a map of 200 by 100 km -/
example : ∃ l k x0 y0, mapSpace 9 [7.5, 7.5] = .ok l ∧ 0 < k ∧
      (∀ q, onPaper (-100, 100) (-50, 50) (equalAspect (-100, 100) (-50, 50) l) q = (x0 + k * q.1, y0 + k * q.2)) ∧ k * 200 ≤ 7.5 := by
  obtain ⟨l, k, x0, y0, h1, h2, h3, h4, -⟩ := C138_scale (pt := 9) (by norm_num) (dims := [7.5, 7.5]) (A := 7.5) (B := 7.5) (by norm_num)
    (by norm_num) (Or.inr rfl) (xr := (-100, 100)) (yr := (-50, 50)) (by norm_num) (by norm_num)
  refine ⟨l, k, x0, y0, h1, h2, h3, ?_⟩
  norm_num at h4 ⊢
  linarith

/-- **C138, everything on paper.**  Every place of the area and of the crater rims lies on the paper within the room for the map, and away from
its edges. -/
theorem C138_inside {pt : ℝ} (hpt : 0 < pt) {dims : List ℝ} {A B : ℝ} (hA : 0 < A) (hB : 0 < B) (h : RoomAsked dims A B)
    {proj : ℝ × ℝ → Option (ℝ × ℝ)} {outlines rims : List Ring} {xr yr : ℝ × ℝ} (hm : mapLimits proj true outlines rims = .ok (xr, yr))
    (hx : xr.1 < xr.2) (hy : yr.1 < yr.2) : ∃ l, mapSpace pt dims = .ok l ∧ ∀ r ∈ outlines ++ rims, ∀ p ∈ r, ∃ q, proj p = some q ∧
      let s := onPaper xr yr (equalAspect xr yr l) q
      0.2 * pt < s.1 ∧ s.1 < 0.2 * pt + A ∧ 0.2 * pt < s.2 ∧ s.2 < 0.2 * pt + B := by
  obtain ⟨l, k, x0, y0, hl, hk, hp, kx, ky, -, cx, cy⟩ := C138_scale hpt hA hB h hx hy
  obtain ⟨l', hl', -, -, -, -, s1, s2⟩ := C138_size hpt hA h
  rw [hl] at hl'
  cases hl'
  refine ⟨l, hl, ?_⟩
  obtain ⟨hall, west, east, south, north, hc, hin, w1, w2, w3, w4⟩ := C125_shown _ _ _ _ _ _ hm
  simp only [if_true] at w1 w2 w3 w4
  intro r hr p hp'
  obtain ⟨q, hq, -⟩ := hall r hr p hp'
  obtain ⟨i1, i2, i3, i4⟩ := hin r hr p hp' q hq
  have a1 : xr.1 < q.1 := by linarith
  have a2 : q.1 < xr.2 := by linarith
  have a3 : yr.1 < q.2 := by linarith
  have a4 : q.2 < yr.2 := by linarith
  refine ⟨q, hq, ?_⟩
  dsimp only
  rw [hp]
  dsimp only
  rw [s1] at cx
  rw [s2] at cy
  have b1 := mul_lt_mul_of_pos_left a1 hk
  have b2 := mul_lt_mul_of_pos_left a2 hk
  have b3 := mul_lt_mul_of_pos_left a3 hk
  have b4 := mul_lt_mul_of_pos_left a4 hk
  refine ⟨?_, ?_, ?_, ?_⟩ <;> linarith

/-- a triangle, with plane coordinates, in a room of 10 by 8 cm -/
example : ∃ (xr yr : ℝ × ℝ) (l : Layout), mapLimits some true [[(0, 0), (1, 0), (1, 1)]] [] = .ok (xr, yr) ∧ mapSpace 9 [10, 8] = .ok l ∧
    0.2 * 9 < (onPaper xr yr (equalAspect xr yr l) (1, 1)).1 ∧ (onPaper xr yr (equalAspect xr yr l) (1, 1)).1 < 0.2 * 9 + 10 := by
  obtain ⟨xr, yr, h⟩ := C125_defined_partial (fun p => some p) true [[(0, 0), (1, 0), (1, 1)]] [] (by simp) (by simp) (fun r _ p _ => ⟨p, rfl⟩)
  have hall := (C125_shown _ _ _ _ _ _ h).1
  obtain ⟨q, hq, a1, a2, a3, a4⟩ := hall [(0, 0), (1, 0), (1, 1)] (by simp) (0, 0) (by simp)
  obtain ⟨q', hq', b1, b2, b3, b4⟩ := hall [(0, 0), (1, 0), (1, 1)] (by simp) (1, 1) (by simp)
  cases hq
  cases hq'
  dsimp only at *
  obtain ⟨l, hl, hin⟩ := C138_inside (pt := 9) (by norm_num) (dims := [10, 8]) (A := 10) (B := 8) (by norm_num) (by norm_num) (Or.inr rfl) h
    (by linarith) (by linarith)
  obtain ⟨q, hq, c1, c2, -⟩ := hin [(0, 0), (1, 0), (1, 1)] (by simp) (1, 1) (by simp)
  cases hq
  exact ⟨xr, yr, l, h, hl, c1, c2⟩

end Verif.Props
