import Verif.Model.Shade
import Verif.Props.AgeArea
import Verif.Props.RandomnessFile

/-! C143: what is drawn over the cells of an uncertainty plot: shading, texts and the caption of the colour scale. -/

namespace Verif.Props
open Verif.Cratercount Verif.Py Verif.Production Verif.Chronology Verif.Craterpdf Verif.Plotting Verif.AgeArea Verif.Text

noncomputable section

/-! ### specification -/

/-- the sides of a closed polygon -/
def sidesOf (P : List (ℝ × ℝ)) : List ((ℝ × ℝ) × (ℝ × ℝ)) := P.zip (P.tail ++ P.take 1)

/-- a ray from the place `q` to the right meets the side from `a` to `b` -/
def Meets (q : ℝ × ℝ) (s : (ℝ × ℝ) × (ℝ × ℝ)) : Prop :=
  ¬ (q.2 < s.1.2 ↔ q.2 < s.2.2) ∧ q.1 < s.1.1 + (q.2 - s.1.2) / (s.2.2 - s.1.2) * (s.2.1 - s.1.1)

open Classical in
/-- Specification: a place is inside a polygon if a ray from it meets its sides an odd number of times. -/
def InPolygon (P : List (ℝ × ℝ)) (q : ℝ × ℝ) : Prop := Odd ((sidesOf P).countP (fun s => decide (Meets q s)))

/-- Specification: a place of the plot is shaded. -/
def Shaded (P : Option (List (ℝ × ℝ))) (q : ℝ × ℝ) : Prop := ∃ p, P = some p ∧ InPolygon p q

/-- a triangle has an inside and an outside -/
example : InPolygon [(0, 0), (2, 0), (0, 2)] (0.5, 0.5) ∧ ¬ InPolygon [(0, 0), (2, 0), (0, 2)] (1.5, 1) := by
  constructor
  · simp only [InPolygon, sidesOf, List.tail_cons, List.take_succ_cons, List.take_zero, List.cons_append, List.nil_append, List.zip_cons_cons,
      List.zip_nil_left, List.countP_cons, List.countP_nil, Meets]
    norm_num
  · simp only [InPolygon, sidesOf, List.tail_cons, List.take_succ_cons, List.take_zero, List.cons_append, List.nil_append, List.zip_cons_cons,
      List.zip_nil_left, List.countP_cons, List.countP_nil, Meets]
    norm_num

/-! ### the polygon -/

theorem shade_inside (x y : Option ℝ) (hx : ∀ v, x = some v → 0 ≤ v ∧ v ≤ 1) (hy : ∀ v, y = some v → 0 < v ∧ v ≤ 1) (q : ℝ × ℝ)
    (h0 : 0 ≤ q.1) (h1 : q.1 < 1) (h2 : 0 ≤ q.2) (h3 : q.2 < 1) :
    Shaded (shadePolygon x y) q ↔ (∃ v, x = some v ∧ q.1 < v) ∨ ∃ v, y = some v ∧ v ≤ q.2 := by
  have c1 : ¬ q.1 < 0 := not_lt.2 h0
  have e0 : ¬ q.2 < 0 := not_lt.2 h2
  have hrx : ∀ v, InPolygon [(0, 0), (v, 0), (v, 1), (0, 1)] q ↔ q.1 < v := by
    intro v
    simp only [InPolygon, sidesOf, List.tail_cons, List.take_succ_cons, List.take_zero, List.cons_append, List.nil_append, List.zip_cons_cons,
      List.zip_nil_left, List.countP_cons, List.countP_nil, Meets, e0, h3, sub_self, mul_zero, add_zero, zero_add]
    by_cases hv : q.1 < v <;> simp [hv, c1]
  have hry : ∀ w, InPolygon [(0, w), (1, w), (1, 1), (0, 1)] q ↔ w ≤ q.2 := by
    intro w
    simp only [InPolygon, sidesOf, List.tail_cons, List.take_succ_cons, List.take_zero, List.cons_append, List.nil_append, List.zip_cons_cons,
      List.zip_nil_left, List.countP_cons, List.countP_nil, Meets, h3, sub_self, mul_zero, add_zero, zero_add]
    by_cases hw : q.2 < w
    · simp [hw]
    · simp [hw, c1, h1, not_lt.1 hw]
  have hl : ∀ v w, 0 < w → (InPolygon [(0, 0), (v, 0), (v, w), (1, w), (1, 1), (0, 1)] q ↔ q.1 < v ∨ w ≤ q.2) := by
    intro v w hw0
    simp only [InPolygon, sidesOf, List.tail_cons, List.take_succ_cons, List.take_zero, List.cons_append, List.nil_append, List.zip_cons_cons,
      List.zip_nil_left, List.countP_cons, List.countP_nil, Meets, e0, h3, sub_self, mul_zero, add_zero, zero_add]
    by_cases hw : q.2 < w
    · by_cases hv : q.1 < v <;> simp [hw, hv, c1, not_le.2 hw]
    · simp [hw, c1, h1, not_lt.1 hw]
  have hsome : ∀ (p : List (ℝ × ℝ)), Shaded (some p) q ↔ InPolygon p q := fun p =>
    ⟨fun ⟨_, h, h'⟩ => by injection h with h; rw [h]; exact h', fun h => ⟨p, rfl, h⟩⟩
  have ty : ∀ w, y = some w → truthy y = some w := fun w h => by
    rw [h, truthy, if_neg (hy w h).1.ne']
  cases x with
  | none =>
    cases y with
    | none => simp [shadePolygon, truthy, Shaded]
    | some w =>
      rw [shadePolygon, ty w rfl, truthy, hsome, hry]
      simp
  | some v =>
    by_cases hv : v = 0
    · subst hv
      have t0 : truthy (some 0) = none := if_pos rfl
      cases y with
      | none =>
        rw [shadePolygon, t0]
        simp [truthy, Shaded, h0]
      | some w =>
        rw [shadePolygon, t0, ty w rfl, hsome, hry]
        simp [h0]
    · have t0 : truthy (some v) = some v := if_neg hv
      cases y with
      | none =>
        rw [shadePolygon, t0, truthy, hsome, hrx]
        simp
      | some w =>
        rw [shadePolygon, t0, ty w rfl, hsome, hl v w (hy w rfl).1]
        simp

/-- the height of the boundary of the whole body -/
theorem globe_edge {y0 y1 maxArea v : ℝ} (hy : y0 < y1) (hA : 0 < maxArea) (h : wholeGlobe y0 y1 maxArea = some v) :
    (10 : ℝ) ^ (y0 + v * (y1 - y0)) = maxArea := by
  unfold wholeGlobe at h
  split at h
  · injection h with h
    rw [max_eq_right hy.le, min_eq_left hy.le] at h
    rw [← h, div_mul_cancel₀ _ (sub_pos.2 hy).ne', add_sub_cancel, pow10_log10 hA]
  · cases h

/-- the place of the boundary of saturation -/
theorem saturation_edge {fuel : ℕ} {xa xb : ℝ} {a : TimeAxis} (h : timeAxis fuel xa xb = some (.ok a)) {s v : ℝ}
    (hv : saturationX a s = some v) : v = axisPos a s := by
  have hs := C87_saturation_partial fuel xa xb a h s
  obtain ⟨k1, k2⟩ := hs.1.1 (by rw [hv]; rfl)
  have hc := (goodAxis h).cross_le
  unfold saturationX at hv
  dsimp only at hv
  unfold axisPos
  have e : searchsorted [a.tMin, a.tCrossover, a.tMax] s = if a.tCrossover < s then 2 else 1 := by
    simp only [searchsorted, List.takeWhile_cons, List.takeWhile_nil]
    by_cases h1 : a.tCrossover < s <;> simp [h1, k1, not_lt.2 k2]
  rw [e] at hv
  by_cases h1 : a.tCrossover < s
  · rw [if_pos h1, if_neg (by norm_num), if_pos rfl] at hv
    injection hv with hv
    rw [← hv, if_pos h1, mul_div_assoc]
  · rw [if_neg h1, if_pos rfl] at hv
    injection hv with hv
    rw [← hv, if_neg h1, mul_div_assoc]

/-- **C143, shading (partial).**  On an uncertainty plot of any time axis and range of areas, the place of an age and an area is shaded
exactly if the age is beyond the age of saturation shown on the axis, or the area is larger than that of the whole body shown on the axis.
Missing: limits outside the axes (C87: then nothing is shaded, even if all of the plot is beyond them). -/
theorem C143_shading_partial (fuel : ℕ) (xa xb : ℝ) (a : TimeAxis) (h : timeAxis fuel xa xb = some (.ok a)) (T : Option ℝ)
    (y0 y1 maxArea : ℝ) (hy : y0 < y1) (hA : 0 < maxArea) (t f : ℝ) (ht0 : a.tMin < t) (ht1 : t ≤ a.tMax) (hf0 : 0 ≤ f) (hf1 : f < 1)
    (hne : (10 : ℝ) ^ (y0 + f * (y1 - y0)) ≠ maxArea) :
    Shaded (shadePolygon (T.bind (saturationX a)) (wholeGlobe y0 y1 maxArea)) (axisPos a t, f) ↔
      (∃ s, T = some s ∧ a.tMin < s ∧ s ≤ a.tMax ∧ s < t) ∨
      ((10 : ℝ) ^ y0 < maxArea ∧ maxArea ≤ (10 : ℝ) ^ y1 ∧ maxArea < (10 : ℝ) ^ (y0 + f * (y1 - y0))) := by
  obtain ⟨g1, g2⟩ := C87_whole_globe_partial y0 y1 maxArea hy hA
  have g := goodAxis h
  have hs := C87_saturation_partial fuel xa xb a h
  obtain ⟨p0, p1⟩ := axisPos_range g ht0.le ht1
  have p1' : axisPos a t < 1 :=
    lt_of_lt_of_le (axisPos_strict g le_rfl ht0 ht1) (axisPos_range g le_rfl g.lt.le).2
  rw [shade_inside _ _ ?_ ?_ (axisPos a t, f) p0 p1' hf0 hf1]
  · refine or_congr ?_ ?_
    · constructor
      · rintro ⟨v, hv, hlt⟩
        obtain ⟨s, rfl, hsx⟩ := Option.bind_eq_some_iff.1 hv
        obtain ⟨k1, k2⟩ := (hs s).1.1 (by rw [hsx]; rfl)
        exact ⟨s, rfl, k1, k2, (((hs s).2 v hsx).2.2 t ht0.le ht1).1 hlt⟩
      · rintro ⟨s, rfl, k1, k2, hlt⟩
        obtain ⟨v, hv⟩ := Option.isSome_iff_exists.1 ((hs s).1.2 ⟨k1, k2⟩)
        exact ⟨v, hv, (((hs s).2 v hv).2.2 t ht0.le ht1).2 hlt⟩
    · constructor
      · rintro ⟨v, hv, hle⟩
        obtain ⟨k1, k2⟩ := g1.1 (by rw [hv]; rfl)
        obtain ⟨_, _, k3⟩ := g2 v hv
        refine ⟨k1, k2, (k3 f).2 (lt_of_le_of_ne hle fun e => hne ?_)⟩
        rw [← e, globe_edge hy hA hv]
      · rintro ⟨k1, k2, hlt⟩
        obtain ⟨v, hv⟩ := Option.isSome_iff_exists.1 (g1.2 ⟨k1, k2⟩)
        exact ⟨v, hv, (((g2 v hv).2.2 f).1 hlt).le⟩
  · intro v hv
    obtain ⟨s, rfl, hsx⟩ := Option.bind_eq_some_iff.1 hv
    exact ⟨((hs s).2 v hsx).1, ((hs s).2 v hsx).2.1⟩
  · intro v hv
    exact ⟨(g2 v hv).1, (g2 v hv).2.1⟩

/-- saturation at 2 Ga on an axis to 4 Ga, and a body smaller than the largest area shown -/
example : ∃ (fuel : ℕ) (a : TimeAxis), timeAxis fuel 0 4 = some (.ok a) ∧ a.tMin < 2 ∧ 3 ≤ a.tMax ∧
    Shaded (shadePolygon ((some 2).bind (saturationX a)) (wholeGlobe 2 8 (10 ^ 7))) (axisPos a 3, 0.1) := by
  obtain ⟨N, a, h, _, h3, _, _, _, _, _, _, _, _, _, _, _, _, h1⟩ := C49_time_axis 0 4
  have h' := h (N + 1) (by omega)
  have hM : a.tMin = 0 := by
    rw [(h1 (by norm_num)).2, show min (0 : ℝ) 4 = 0 by norm_num, min_eq_left (by norm_num; linarith), max_self]
  refine ⟨N + 1, a, h', by rw [hM]; norm_num, h3, ?_⟩
  have e : (10 : ℝ) ^ (2 + 0.1 * (8 - 2) : ℝ) < 10 ^ 7 := by
    rw [← Real.rpow_natCast, pow10_lt]
    norm_num
  exact (C143_shading_partial _ 0 4 a h' (some 2) 2 8 (10 ^ 7) (by norm_num) (by norm_num) 3 0.1 (by rw [hM]; norm_num) h3 (by norm_num)
    (by norm_num) e.ne).2 (Or.inl ⟨2, rfl, by rw [hM]; norm_num, by linarith, by norm_num⟩)

/-- **C143, texts.**  The words `whole globe` stand at the height of the area of the whole body and are drawn exactly if this is on the
axis, at least two hundredths below its end; the word `saturation` stands at the age of saturation and is drawn exactly if this is on the
axis, more than two hundredths from its old end.  There are no other texts. -/
theorem C143_texts (fuel : ℕ) (xa xb : ℝ) (a : TimeAxis) (h : timeAxis fuel xa xb = some (.ok a)) (T : Option ℝ)
    (y0 y1 maxArea : ℝ) (hy : y0 < y1) (hA : 0 < maxArea) (text : List Char) (at_ : ℝ × ℝ) :
    (text, at_) ∈ shadeTexts (T.bind (saturationX a)) (wholeGlobe y0 y1 maxArea) ↔
      (text = "whole globe".toList ∧ at_.1 = 0.82 ∧ (10 : ℝ) ^ (y0 + at_.2 * (y1 - y0)) = maxArea ∧ 0 < at_.2 ∧ at_.2 < 0.98) ∨
      (text = "saturation".toList ∧ at_.2 = 0.87 ∧ ∃ s, T = some s ∧ a.tMin < s ∧ s ≤ a.tMax ∧ at_.1 = axisPos a s ∧ 0.02 < at_.1) := by
  obtain ⟨g1, g2⟩ := C87_whole_globe_partial y0 y1 maxArea hy hA
  have g := goodAxis h
  have hs := C87_saturation_partial fuel xa xb a h
  unfold shadeTexts
  rw [List.mem_append]
  refine or_congr ?_ ?_
  · constructor
    · intro hm
      cases hw : wholeGlobe y0 y1 maxArea with
      | none => rw [hw] at hm; cases hm
      | some v =>
        obtain ⟨v0, v1, _⟩ := g2 v hw
        rw [hw, truthy, if_neg v0.ne'] at hm
        dsimp only at hm
        split at hm
        · next hv =>
          rw [List.mem_singleton] at hm
          cases hm
          exact ⟨rfl, rfl, globe_edge hy hA hw, v0, hv⟩
        · cases hm
    · rintro ⟨rfl, e1, e2, e3, e4⟩
      have hw : wholeGlobe y0 y1 maxArea = some at_.2 := by
        have k1 : (10 : ℝ) ^ y0 < maxArea := by rw [← e2, pow10_lt]; nlinarith
        have k2 : maxArea ≤ (10 : ℝ) ^ y1 := by rw [← e2, pow10_le]; nlinarith
        obtain ⟨v, hv⟩ := Option.isSome_iff_exists.1 (g1.2 ⟨k1, k2⟩)
        have e := globe_edge hy hA hv
        rw [← e2] at e
        have e := (Real.rpow_right_inj (by norm_num : (0 : ℝ) < 10) (by norm_num)).1 e
        rw [hv, mul_right_cancel₀ (sub_pos.2 hy).ne' (add_left_cancel e)]
      rw [hw, truthy, if_neg e3.ne']
      dsimp only
      rw [if_pos e4, List.mem_singleton, ← e1]
  · constructor
    · intro hm
      cases hw : T.bind (saturationX a) with
      | none => rw [hw] at hm; cases hm
      | some v =>
        obtain ⟨s, rfl, hsx⟩ := Option.bind_eq_some_iff.1 hw
        obtain ⟨k1, k2⟩ := (hs s).1.1 (by rw [hsx]; rfl)
        have e : v = axisPos a s := saturation_edge h hsx
        rw [hw, truthy] at hm
        by_cases v0 : v = 0
        · rw [if_pos v0] at hm
          cases hm
        · rw [if_neg v0] at hm
          dsimp only at hm
          split at hm
          · next hv =>
            rw [List.mem_singleton] at hm
            cases hm
            exact ⟨rfl, rfl, s, rfl, k1, k2, e, hv⟩
          · cases hm
    · rintro ⟨rfl, e1, s, rfl, k1, k2, e2, e3⟩
      obtain ⟨v, hv⟩ := Option.isSome_iff_exists.1 ((hs s).1.2 ⟨k1, k2⟩)
      have e : v = axisPos a s := saturation_edge h hv
      rw [Option.bind_some, hv, e, ← e2, truthy, if_neg (by linarith)]
      dsimp only
      rw [if_pos e3, List.mem_singleton, ← e1]

/-! ### the caption -/

/-- Specification: as many brackets are closed as opened. -/
def BracketsClosed (l : List Char) : Prop := l.count '(' = l.count ')'

/-- Specification: the quantity shown by each of the three plots. -/
def Shows (plot what : List Char) : Prop :=
  (plot = "k".toList ∧ what = "$k$".toList) ∨ (plot = "err".toList ∧ what = "Measured uncertainty $\\sigma$, %".toList) ∨
    (plot = "age".toList ∧ what = "Measured/actual age".toList)

/-- Specification: the text tells the diameter, to three figures, in km from 1 km on and in m below. -/
def TellsDiameter (d : ℚ) (text : List Char) : Prop :=
  ∃ n r unit, text = n ++ unit ∧ decVal n = some r ∧
    ((1 ≤ d ∧ unit = "$ km".toList ∧ IsRounded 3 d r) ∨ (d < 1 ∧ unit = "$ m".toList ∧ IsRounded 3 (d * 1000) r))

theorem bracketless_g (q : ℚ) : (gStr 2 q).count '(' = 0 ∧ (gStr 2 q).count ')' = 0 := by
  constructor
  · rw [List.count_eq_zero]
    intro h
    have := (plain_g 2 q).2 _ h
    revert this
    decide
  · rw [List.count_eq_zero]
    intro h
    have := (plain_g 2 q).2 _ h
    revert this
    decide

theorem diameter_km {d : ℚ} (h : 1 ≤ d) : diameterText d = " ($d > ".toList ++ (gStr 2 d ++ "$ km".toList) :=
  congrArg (" ($d > ".toList ++ ·) (if_pos h)

theorem diameter_m {d : ℚ} (h : d < 1) : diameterText d = " ($d > ".toList ++ (gStr 2 (d * 1000) ++ ("$ m".toList ++ ")".toList)) :=
  (congrArg (" ($d > ".toList ++ ·) (if_neg (not_le.2 h))).trans
    (congrArg (fun x => " ($d > ".toList ++ (gStr 2 (d * 1000) ++ x)) (by decide +kernel))

/-- **C143, caption (partial).**  The colour scale of each plot names the quantity and the smallest diameter.  Missing: the closing bracket
from 1 km on. -/
theorem C143_caption_partial (plot what : List Char) (h : Shows plot what) (dmin : ℚ) :
    ∃ t close, scaleCaption plot dmin = what ++ " ($d > ".toList ++ t ++ close ∧ TellsDiameter dmin t ∧ (dmin < 1 → close = ")".toList) ∧
      (BracketsClosed (scaleCaption plot dmin) ↔ dmin < 1) := by
  have hc : scaleCaption plot dmin = what ++ diameterText dmin := by
    unfold scaleCaption
    rcases h with ⟨rfl, rfl⟩ | ⟨rfl, rfl⟩ | ⟨rfl, rfl⟩
    · rw [if_pos rfl]
    · rw [if_neg (by decide +kernel), if_pos rfl]
    · rw [if_neg (by decide +kernel), if_neg (by decide +kernel), if_pos rfl]
  have hw : what.count '(' = 0 ∧ what.count ')' = 0 := by
    rcases h with ⟨rfl, rfl⟩ | ⟨rfl, rfl⟩ | ⟨rfl, rfl⟩ <;> decide +kernel
  by_cases hd : 1 ≤ dmin
  · have e := hc.trans (congrArg (what ++ ·) (diameter_km hd))
    clear hc
    obtain ⟨b1, b2⟩ := bracketless_g dmin
    have t := decVal_gStr 2 dmin
    generalize gStr 2 dmin = n at e b1 b2 t
    generalize scaleCaption plot dmin = cap at e
    refine ⟨n ++ "$ km".toList, [], ?_, ⟨_, _, _, rfl, t, Or.inl ⟨hd, rfl, isRounded_sci 2 dmin⟩⟩,
      fun h => absurd h (not_lt.2 hd), fun hb => ?_, fun h => absurd h (not_lt.2 hd)⟩
    · simp only [e, List.append_nil, List.append_assoc]
    · unfold BracketsClosed at hb
      simp only [e, List.count_append, hw.1, hw.2, b1, b2, zero_add] at hb
      refine absurd hb ?_
      decide +kernel
  · have hd' := not_le.1 hd
    have e := hc.trans (congrArg (what ++ ·) (diameter_m hd'))
    clear hc
    obtain ⟨b1, b2⟩ := bracketless_g (dmin * 1000)
    have t := decVal_gStr 2 (dmin * 1000)
    generalize gStr 2 (dmin * 1000) = n at e b1 b2 t
    generalize scaleCaption plot dmin = cap at e
    refine ⟨n ++ "$ m".toList, ")".toList, ?_, ⟨_, _, _, rfl, t, Or.inr ⟨hd', rfl, isRounded_sci 2 _⟩⟩,
      fun _ => rfl, fun _ => hd', fun _ => ?_⟩
    · simp only [e, List.append_assoc]
    · unfold BracketsClosed
      simp only [e, List.count_append, hw.1, hw.2, b1, b2, zero_add]
      decide +kernel

example : Shows "err".toList "Measured uncertainty $\\sigma$, %".toList := Or.inr (Or.inl ⟨rfl, rfl⟩)

/-- **C143 is false** for the caption from a smallest diameter of 1 km on: its bracket is not closed -/
theorem C143_bracket_counterexample : ¬ BracketsClosed (scaleCaption "k".toList 1) := fun h => by
  obtain ⟨_, _, _, _, _, h'⟩ := C143_caption_partial _ _ (Or.inl ⟨rfl, rfl⟩) 1
  exact absurd (h'.1 h) (lt_irrefl _)

end

end Verif.Props
