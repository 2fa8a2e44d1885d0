import Verif.Model.PlotSpace
import Verif.Props.Notation
import Verif.Props.Binning

/-! C91-C94: print dimensions, tick labels, axis titles and bin boundaries. -/

namespace Verif.Props

open Verif.Py Verif.Text Verif.Cratercount Verif.Spec
open Verif.PlotSpace (layout printScale axisDecades dataAspect timeAxisSize dimensions decadeTicks decadeLabel naturalTicks hartmannBins
  hartmannLabels hartmannValues chronologyTitle Mark overlayFrom binOverlay Layout)

/-! ### print dimensions -/

/-- Specification: the length of an axis: the difference of its limits, but at least 1. -/
noncomputable def spanOf (r : ℝ × ℝ) : ℝ := if 1 ≤ |r.2 - r.1| then |r.2 - r.1| else 1

theorem axisDecades_eq (r : ℝ × ℝ) : axisDecades r = spanOf r := by
  rw [axisDecades, spanOf]
  have : max r.1 r.2 - min r.1 r.2 = |r.2 - r.1| := max_sub_min_eq_abs' r.1 r.2 |>.trans (abs_sub_comm _ _)
  rw [this]
  split
  · rename_i h; exact max_eq_left h
  · rename_i h; exact max_eq_right (le_of_not_ge h)

theorem axisDecades_pos (r : ℝ × ℝ) : 1 ≤ axisDecades r := le_max_right _ _

/-- Specification: how many times longer a decade is on the x axis than on the y axis. -/
noncomputable def decadeRatio (p : PlotSpace.Pres) (xr yr : ℝ × ℝ) : ℝ :=
  match p with
  | .cumulative | .rplot => 1
  | .differential => 2
  | .hartmann | .chronology | .rate => spanOf yr / spanOf xr

theorem dataAspect_eq (p : PlotSpace.Pres) (xr yr : ℝ × ℝ) : dataAspect p (axisDecades xr) (axisDecades yr) = decadeRatio p xr yr := by
  rw [axisDecades_eq, axisDecades_eq]
  cases p <;> simp [dataAspect, decadeRatio]

theorem decadeRatio_pos (p : PlotSpace.Pres) (xr yr : ℝ × ℝ) : 0 < decadeRatio p xr yr := by
  have h1 := axisDecades_pos xr
  have h2 := axisDecades_pos yr
  rw [axisDecades_eq] at h1 h2
  have : 0 < spanOf yr / spanOf xr := by positivity
  cases p <;> simp only [decadeRatio] <;> first | exact this | norm_num

theorem layout_eq (p : PlotSpace.Pres) (xr yr : ℝ × ℝ) (pt : ℝ) (hpt : 0 < pt) (dims : List ℝ) (s : ℝ)
    (hs : printScale p (axisDecades xr) (axisDecades yr) dims = .ok s) :
    layout p xr yr pt false dims = .ok ⟨spanOf xr * s + 2 * (pt * 0.2), spanOf yr / decadeRatio p xr yr * s + 2 * (pt * 0.2),
      pt * 0.2, pt * 0.2, spanOf xr * s, spanOf yr / decadeRatio p xr yr * s⟩ := by
  have h1 := axisDecades_pos xr
  have h2 := axisDecades_pos yr
  rw [layout]
  simp only [hs, ok_bind, dataAspect_eq, Bool.false_and]
  rw [axisDecades_eq] at h1 h2
  rw [axisDecades_eq, axisDecades_eq]
  have hm : pt * 0.2 ≠ 0 := by positivity
  have e : spanOf yr / (spanOf yr / spanOf xr) = spanOf xr := by
    have : spanOf yr ≠ 0 := by positivity
    have : spanOf xr ≠ 0 := by positivity
    field_simp
  have hw : ∀ x : ℝ, pt * 0.2 * ((x + 2 * (pt * 0.2)) / (pt * 0.2) - 2) = x := by
    intro x; field_simp; ring
  cases p <;> simp [decadeRatio, e, hw]

/-- **C91, box.** For `AxB` (at least 1 cm each) the axes of a cumulative, differential, relative, chronology or rate plot fit into a
box of A by B cm and fill its width or its height; the figure is larger by the margin on each side.  In chronology and rate plots B
must be at least the length of the time axis per decade of the other.  The full property, for Hartmann plots and for smaller boxes, is
false (see the counterexamples). -/
theorem C91_box_partial (p : PlotSpace.Pres) (hp : p ≠ .hartmann) (xr yr : ℝ × ℝ) (pt : ℝ) (hpt : 0 < pt) (A B : ℝ) (hA : 1 ≤ A) (hB : 1 ≤ B)
    (hc : p = .chronology ∨ p = .rate → spanOf xr ≤ B * spanOf yr) :
    ∃ l, layout p xr yr pt false [A, B] = .ok l ∧ l.width ≤ A ∧ l.height ≤ B ∧ (l.width = A ∨ l.height = B) ∧ 0 < l.width ∧ 0 < l.height ∧
      l.xsize = l.width + 2 * l.left ∧ l.ysize = l.height + 2 * l.bottom ∧ l.left = 0.2 * pt ∧ l.bottom = 0.2 * pt := by
  have h1 := axisDecades_pos xr
  have h2 := axisDecades_pos yr
  rw [axisDecades_eq] at h1 h2
  have hr := decadeRatio_pos p xr yr
  have hBr : 1 ≤ B * decadeRatio p xr yr := by
    have hcc : p = .chronology ∨ p = .rate → 1 ≤ B * (spanOf yr / spanOf xr) := by
      intro h
      rw [mul_div_assoc', le_div_iff₀ (by positivity), one_mul]
      exact hc h
    cases p
    · simpa [decadeRatio] using hB
    · simp only [decadeRatio]; linarith
    · simpa [decadeRatio] using hB
    · exact absurd rfl hp
    · exact hcc (Or.inl rfl)
    · exact hcc (Or.inr rfl)
  have hs : printScale p (axisDecades xr) (axisDecades yr) [A, B] = .ok (min (A / spanOf xr) (B * decadeRatio p xr yr / spanOf yr)) := by
    simp only [printScale, if_neg hp, if_true, dataAspect_eq]
    rw [axisDecades_eq, axisDecades_eq, max_eq_left hA, max_eq_left hBr]
  have hy : 0 < spanOf yr := by positivity
  have hx : 0 < spanOf xr := by positivity
  have hl := layout_eq p xr yr pt hpt _ _ hs
  generalize decadeRatio p xr yr = r at *
  refine ⟨_, hl, ?_, ?_, ?_, ?_, ?_, rfl, rfl, mul_comm _ _, mul_comm _ _⟩
  · show spanOf xr * min _ _ ≤ A
    calc _ ≤ spanOf xr * (A / spanOf xr) := mul_le_mul_of_nonneg_left (min_le_left _ _) hx.le
      _ = A := by field_simp
  · show spanOf yr / r * min _ _ ≤ B
    calc _ ≤ spanOf yr / r * (B * r / spanOf yr) := mul_le_mul_of_nonneg_left (min_le_right _ _) (by positivity)
      _ = B := by field_simp
  · show spanOf xr * min _ _ = A ∨ spanOf yr / r * min _ _ = B
    rcases min_choice (A / spanOf xr) (B * r / spanOf yr) with h | h
    · left; rw [h]; field_simp
    · right; rw [h]; field_simp
  · show 0 < spanOf xr * min _ _
    have : 0 < min (A / spanOf xr) (B * r / spanOf yr) := lt_min (by positivity) (by positivity)
    positivity
  · show 0 < spanOf yr / r * min _ _
    have : 0 < min (A / spanOf xr) (B * r / spanOf yr) := lt_min (by positivity) (by positivity)
    positivity

/-- **C91, proportions.** Whatever the dimensions: decades of the two axes have the same length in cumulative and relative plots, an x
decade is twice as long in differential plots, and the axes are square in Hartmann, chronology and rate plots. -/
theorem C91_proportions (p : PlotSpace.Pres) (xr yr : ℝ × ℝ) (pt : ℝ) (hpt : 0 < pt) (dims : List ℝ) (l : Layout)
    (h : layout p xr yr pt false dims = .ok l) :
    (p = .cumulative ∨ p = .rplot → l.width / spanOf xr = l.height / spanOf yr) ∧
    (p = .differential → l.width / spanOf xr = 2 * (l.height / spanOf yr)) ∧
    (p = .chronology ∨ p = .rate ∨ p = .hartmann → l.width = l.height) := by
  have h1 := axisDecades_pos xr
  have h2 := axisDecades_pos yr
  cases hs : printScale p (axisDecades xr) (axisDecades yr) dims with
  | error e => rw [layout, hs] at h; cases h
  | ok s =>
    rw [layout_eq p xr yr pt hpt dims s hs] at h
    rw [axisDecades_eq] at h1 h2
    have hx : spanOf xr ≠ 0 := by positivity
    have hy : spanOf yr ≠ 0 := by positivity
    cases h
    refine ⟨?_, ?_, ?_⟩
    · rintro (rfl | rfl) <;> simp only [decadeRatio] <;> field_simp
    · rintro rfl; simp only [decadeRatio]; field_simp
    · rintro (rfl | rfl | rfl) <;> simp only [decadeRatio] <;> field_simp

/-- **C91, scale.** A single number of at least 1 is the length of one unit of the x axis in cm; in plots with a time axis only the axes
are five times as long. -/
theorem C91_scale_partial (p : PlotSpace.Pres) (xr yr : ℝ × ℝ) (pt : ℝ) (hpt : 0 < pt) (v : ℝ) (hv : 1 ≤ v) :
    (∃ l, layout p xr yr pt false [v] = .ok l ∧ l.width = v * spanOf xr) ∧ timeAxisSize [v] = .ok (5 * v, 5 * v) := by
  refine ⟨⟨_, layout_eq p xr yr pt hpt [v] v ?_, mul_comm _ _⟩, rfl⟩
  rw [printScale, max_eq_left hv]

/-- **C91, time axis.** Sequence and uncertainty plots have exactly the size asked for. -/
theorem C91_time_axis (A B : ℝ) : timeAxisSize [A, B] = .ok (A, B) := rfl

/-- **C91, text.** The dimensions are read from the numbers between the letters `x`; without a number there is a ValueError. -/
theorem C91_text (ts : List (List Char)) (hne : ts ≠ []) (hx : ∀ t ∈ ts, 'x' ∉ t) :
    (∀ vs, ts.map decVal = vs.map some → dimensions (join ['x'] ts) = .ok vs) ∧
    (∀ t ∈ ts, decVal t = none → dimensions (join ['x'] ts) = .error .value) := by
  rw [dimensions, split_join hne hx]
  clear hne hx
  constructor
  · induction ts with
    | nil =>
      intro vs h
      cases vs with
      | nil => rfl
      | cons v vs => simp at h
    | cons t ts ih =>
      intro vs h
      cases vs with
      | nil => simp at h
      | cons v vs =>
        simp only [List.map_cons, List.cons.injEq] at h
        rw [List.mapM_cons, h.1]
        simp only [ok_bind, ih vs h.2]
        rfl
  · induction ts with
    | nil => intro t ht; simp at ht
    | cons t ts ih =>
      intro u hu hn
      rw [List.mapM_cons]
      cases ht : decVal t with
      | none => rfl
      | some v =>
        simp only [ok_bind]
        have : u ∈ ts := by
          rcases List.mem_cons.1 hu with rfl | hu
          · rw [hn] at ht; cases ht
          · exact hu
        rw [ih u this hn]
        rfl

/-- a box, a single number, and texts which are not numbers -/
example : dimensions "7.5x7.5".toList = .ok [7.5, 7.5] ∧ dimensions "2".toList = .ok [2] ∧ dimensions "8x".toList = .error .value := by
  decide +kernel

example : ∃ l, layout .differential (-3, 2) (-5, 5) 9 false [7.5, 7.5] = .ok l ∧ l.width = 7.5 ∧ l.height = 7.5 := by
  have e1 : spanOf (-3, 2) = 5 := by norm_num [spanOf, abs_of_nonneg]
  have e2 : spanOf (-5, 5) = 10 := by norm_num [spanOf, abs_of_nonneg]
  obtain ⟨l, h, h1, h2, h3, _⟩ := C91_box_partial .differential (by decide) (-3, 2) (-5, 5) 9 (by norm_num) 7.5 7.5 (by norm_num) (by norm_num)
    (by rintro (h | h) <;> cases h)
  have hp := (C91_proportions .differential (-3, 2) (-5, 5) 9 (by norm_num) [7.5, 7.5] l h).2.1 rfl
  rw [e1, e2] at hp
  refine ⟨l, h, ?_, ?_⟩ <;> rcases h3 with h3 | h3 <;> linarith

/-- **C91, counterexample.** The height of the box is ignored in Hartmann plots: every Hartmann plot is a square of side A. -/
theorem C91_hartmann_counterexample (xr yr : ℝ × ℝ) (pt : ℝ) (hpt : 0 < pt) (A B : ℝ) (h : B < A) :
    ∃ l, layout .hartmann xr yr pt false [A, B] = .ok l ∧ l.width = A ∧ l.height = A ∧ B < l.height := by
  have h1 := axisDecades_pos xr
  have h2 := axisDecades_pos yr
  have e1 := axisDecades_eq xr
  have e2 := axisDecades_eq yr
  rw [e1] at h1
  rw [e2] at h2
  have hx : spanOf xr ≠ 0 := by positivity
  have hy : spanOf yr ≠ 0 := by positivity
  have hl := layout_eq .hartmann xr yr pt hpt [A, B] (A / spanOf xr) (by rw [printScale, if_pos rfl, e1])
  refine ⟨_, hl, ?_, ?_, ?_⟩
  · show spanOf xr * (A / spanOf xr) = A; field_simp
  · show spanOf yr / (spanOf yr / spanOf xr) * (A / spanOf xr) = A; field_simp
  · show B < spanOf yr / (spanOf yr / spanOf xr) * (A / spanOf xr)
    rw [show spanOf yr / (spanOf yr / spanOf xr) * (A / spanOf xr) = A by field_simp]
    exact h

example : (4 : ℝ) < 8 := by norm_num

/-- **C91, counterexample.** A box narrower than 1 cm is exceeded, a scale below 1 cm per decade is not obeyed, and a chronology plot of
4 Ga and one decade for the box 8x2 is 4 cm high. -/
theorem C91_small_counterexample :
    (∃ l, layout .cumulative (-3, 2) (-4, 1) 9 false [0.5, 8] = .ok l ∧ 0.5 < l.width) ∧
    (∃ l, layout .cumulative (-3, 2) (-4, 1) 9 false [0.5] = .ok l ∧ l.width = 1 * 5) ∧
    (∃ l, layout .chronology (0, 4) (-4, -3) 9 false [8, 2] = .ok l ∧ l.height = 4) := by
  have e1 : spanOf (-3, 2) = 5 := by norm_num [spanOf, abs_of_nonneg]
  have e2 : spanOf (-4, 1) = 5 := by norm_num [spanOf, abs_of_nonneg]
  have e3 : spanOf (0, 4) = 4 := by norm_num [spanOf, abs_of_nonneg]
  have e4 : spanOf (-4, -3) = 1 := by norm_num [spanOf, abs_of_nonneg]
  refine ⟨⟨_, layout_eq _ _ _ _ (by norm_num) _ (1 / 5) ?_, ?_⟩, ⟨_, layout_eq _ _ _ _ (by norm_num) _ 1 ?_, ?_⟩,
    ⟨_, layout_eq _ _ _ _ (by norm_num) _ 1 ?_, ?_⟩⟩
  · rw [axisDecades_eq, axisDecades_eq, e1, e2]
    simp only [printScale, dataAspect, reduceCtorEq, if_false, if_true, or_self]
    norm_num
  · show (0.5 : ℝ) < spanOf (-3, 2) * (1 / 5)
    rw [e1]; norm_num
  · norm_num [printScale]
  · show spanOf (-3, 2) * 1 = 1 * 5
    rw [e1]; norm_num
  · rw [axisDecades_eq, axisDecades_eq, e3, e4]
    simp only [printScale, dataAspect, reduceCtorEq, if_false, if_true, or_false, false_or]
    norm_num
  · show spanOf (-4, -3) / (spanOf (-4, -3) / spanOf (0, 4)) * 1 = 4
    rw [e3, e4]; norm_num

/-! ### tick labels -/

theorem isRounded_exact {d : ℕ} (hd : 1 ≤ d) {e : ℤ} {r : ℚ} (h : IsRounded d ((10 : ℚ) ^ e) r) : r = (10 : ℚ) ^ e := by
  have h1 := h.2.1 1 e (by rw [abs_one]; exact one_lt_pow₀ (by norm_num) (by omega))
  rw [Int.cast_one, one_mul, sub_self, abs_zero] at h1
  have := abs_nonpos_iff.1 h1
  linarith

theorem decVal_power (e : ℤ) : decVal (gStr 5 ((10 : ℚ) ^ e)) = some ((10 : ℚ) ^ e) := by
  rw [decVal_gStr, isRounded_exact (by norm_num) (isRounded_sci 5 _)]

/-- Specification: the text names the diameter of ten to the power `e` in km. -/
def NamesDecade (e : ℤ) (label : List Char) : Prop := ∃ t v, decVal t = some v ∧
  ((0 ≤ e ∧ label = t ++ "$\\,$km".toList ∧ v = (10 : ℚ) ^ e) ∨ (e < 0 ∧ label = t ++ "$\\,$m".toList ∧ v / 1000 = (10 : ℚ) ^ e))

/-- **C92, natural.** The labelled ticks of the diameter axis are exactly the powers of ten within its limits, in order, each with its
diameter in km from 1 km on and in m below. -/
theorem C92_natural (x0 x1 : ℝ) :
    (∀ e : ℤ, (∃ s, (e, s) ∈ naturalTicks x0 x1) ↔ x0 ≤ e ∧ (e : ℝ) ≤ x1) ∧
    (∀ e s, (e, s) ∈ naturalTicks x0 x1 → NamesDecade e s) ∧
    (naturalTicks x0 x1).Pairwise (fun a b => a.1 < b.1) := by
  have hmem : ∀ e : ℤ, e ∈ decadeTicks ⌈x0⌉ ⌊x1⌋ ↔ x0 ≤ e ∧ (e : ℝ) ≤ x1 := by
    intro e
    rw [← Int.ceil_le, ← Int.le_floor, decadeTicks, List.mem_map]
    constructor
    · rintro ⟨i, hi, rfl⟩
      rw [List.mem_range] at hi
      omega
    · rintro ⟨h1, h2⟩
      exact ⟨(e - ⌈x0⌉).toNat, by rw [List.mem_range]; omega, by omega⟩
  refine ⟨?_, ?_, ?_⟩
  · intro e
    rw [← hmem, naturalTicks]
    constructor
    · rintro ⟨s, hs⟩
      obtain ⟨e', h1, h2⟩ := List.mem_map.1 hs
      cases h2
      exact h1
    · intro h
      exact ⟨_, List.mem_map.2 ⟨e, h, rfl⟩⟩
  · intro e s hs
    obtain ⟨e', h1, h2⟩ := List.mem_map.1 hs
    cases h2
    rw [decadeLabel]
    split
    · rename_i h
      exact ⟨_, _, decVal_power e, Or.inl ⟨h, rfl, rfl⟩⟩
    · rename_i h
      refine ⟨_, _, decVal_power (e + 3), Or.inr ⟨by omega, rfl, ?_⟩⟩
      rw [zpow_add₀ (by norm_num)]
      norm_num
  · rw [naturalTicks, List.pairwise_map, decadeTicks, List.pairwise_map]
    exact List.pairwise_lt_range.imp (by intro a b h; show (_ : ℤ) < _; simpa using h)

example : decadeLabel (-2) = "10$\\,$m".toList ∧ decadeLabel (-4) = "0.1$\\,$m".toList ∧ decadeLabel 0 = "1$\\,$km".toList ∧
    decadeLabel 2 = "100$\\,$km".toList := by decide +kernel

example : ∃ s, ((-2 : ℤ), s) ∈ naturalTicks (-2.5) 1 := ((C92_natural (-2.5) 1).1 (-2)).2 (by norm_num)

/-- the numbers in the labels of the powers of two -/
def twoNumbers : List ℕ := [1, 2, 4, 8, 16, 31, 63, 125, 250, 500, 1, 2, 4, 8, 16, 32, 64, 128, 256, 512, 1024]

/-- Specification: the text names the diameter of two to the power `k` in km, to half a metre below 1 km, with the given unit. -/
def NamesPower (k : ℤ) (pre unit label : List Char) : Prop := ∃ n : ℕ, label = pre ++ natStr n ++ unit ∧
  (k < 0 → |(n : ℚ) - 1000 * (2 : ℚ) ^ k| ≤ 1 / 2) ∧ (0 ≤ k → (n : ℚ) = (2 : ℚ) ^ k)

/-- the ticks with their labels before the unit is added to the first -/
noncomputable def twoTicks : List ((ℤ × ℝ) × List Char) :=
  (List.range 21).map (fun i : ℕ => (((i : ℤ) - 10, log10 ((2 : ℝ) ^ ((i : ℤ) - 10))), hartmannLabels.getD i []))

theorem zip_twoTicks : hartmannValues.zip hartmannLabels = twoTicks := by
  have hl : hartmannLabels.length = 21 := by decide +kernel
  apply List.ext_getElem
  · simp [hartmannValues, twoTicks, hl]
  · intro i h1 h2
    have hi : i < 21 := by simpa [twoTicks] using h2
    simp [hartmannValues, twoTicks, List.getElem?_eq_getElem (show i < hartmannLabels.length by rw [hl]; exact hi)]

theorem label_names : ∀ i : ℕ, i < 21 → NamesPower ((i : ℤ) - 10) (if i = 10 then "  ".toList else []) (if i = 10 then "km".toList else [])
    (hartmannLabels.getD i []) := by
  have h1 : ∀ i : ℕ, i < 21 → hartmannLabels.getD i [] = (if i = 10 then "  ".toList else []) ++ natStr (twoNumbers.getD i 0) ++
      (if i = 10 then "km".toList else []) := by decide +kernel
  have h2 : ∀ i : ℕ, i < 21 → ((i : ℤ) - 10 < 0 → |((twoNumbers.getD i 0 : ℕ) : ℚ) - 1000 * (2 : ℚ) ^ ((i : ℤ) - 10)| ≤ 1 / 2) ∧
      (0 ≤ (i : ℤ) - 10 → ((twoNumbers.getD i 0 : ℕ) : ℚ) = (2 : ℚ) ^ ((i : ℤ) - 10)) := by decide +kernel
  intro i hi
  exact ⟨_, h1 i hi, h2 i hi⟩

theorem mem_twoTicks {t : (ℤ × ℝ) × List Char} (h : t ∈ twoTicks) : -10 ≤ t.1.1 ∧ t.1.1 ≤ 10 ∧ t.1.2 = log10 ((2 : ℝ) ^ t.1.1) ∧
    NamesPower t.1.1 (if t.1.1 = 0 then "  ".toList else []) (if t.1.1 = 0 then "km".toList else []) t.2 := by
  obtain ⟨i, hi, rfl⟩ := List.mem_map.1 h
  have hi := List.mem_range.1 hi
  refine ⟨by show (-10 : ℤ) ≤ (i : ℤ) - 10; omega, by show (i : ℤ) - 10 ≤ 10; omega, rfl, ?_⟩
  have h1 := label_names i hi
  show NamesPower ((i : ℤ) - 10) _ _ _
  by_cases h : i = 10
  · subst h; exact h1
  · rw [if_neg h, if_neg h] at h1
    rw [if_neg (by show ¬ (i : ℤ) - 10 = 0; omega), if_neg (by show ¬ (i : ℤ) - 10 = 0; omega)]
    exact h1

theorem log10_two_pow (k : ℤ) : log10 ((2 : ℝ) ^ k) = k * log10 2 := by
  rw [log10, log10, ← Real.rpow_intCast, Real.logb_rpow_eq_mul_logb_of_pos (by norm_num)]

theorem log10_two_pos : 0 < log10 2 := Real.logb_pos (by norm_num) (by norm_num)

theorem exists_twoTick {k : ℤ} (h1 : -10 ≤ k) (h2 : k ≤ 10) : ∃ s, ((k, log10 ((2 : ℝ) ^ k)), s) ∈ twoTicks := by
  obtain ⟨i, rfl⟩ : ∃ i : ℕ, k = (i : ℤ) - 10 := ⟨(k + 10).toNat, by omega⟩
  exact ⟨_, List.mem_map.2 ⟨i, List.mem_range.2 (by omega), rfl⟩⟩

/-- **C93, root-2.** (Partial: the claim for every axis is false, see the counterexamples.)  With at least two powers of two between 2^-10 and 2^10 km within the limits of the axis, the labelled ticks are
exactly these, in order, each with its diameter: in km from 1 km on, in m (to half a metre) below; 1 km has the unit km, and the first
tick the unit m if it is below 1 km.  The minor ticks halve the steps. -/
theorem C93_root2_partial (x0 x1 : ℝ) (k : ℤ) (hk : -10 ≤ k ∧ k + 1 ≤ 10) (h0 : x0 ≤ log10 ((2 : ℝ) ^ k)) (h1 : log10 ((2 : ℝ) ^ (k + 1)) ≤ x1) :
    ∃ t l minor, hartmannBins x0 x1 = .ok (t :: l, minor) ∧ minor = log10 2 / 2 ∧
      (∀ j : ℤ, (∃ p s, ((j, p), s) ∈ t :: l) ↔ -10 ≤ j ∧ j ≤ 10 ∧ x0 ≤ log10 ((2 : ℝ) ^ j) ∧ log10 ((2 : ℝ) ^ j) ≤ x1) ∧
      (∀ j p s, ((j, p), s) ∈ t :: l → p = log10 ((2 : ℝ) ^ j)) ∧
      (t :: l).Pairwise (fun a b => a.1.1 < b.1.1) ∧
      NamesPower t.1.1 (if t.1.1 = 0 then "  ".toList else [])
        (if t.1.1 = 0 then "km".toList else if t.1.1 < 0 then "m".toList else []) t.2 ∧
      (∀ u ∈ l, NamesPower u.1.1 (if u.1.1 = 0 then "  ".toList else []) (if u.1.1 = 0 then "km".toList else []) u.2) := by
  have hpos := log10_two_pos
  set F := twoTicks.filter (fun t => decide (x0 ≤ t.1.2 ∧ t.1.2 ≤ x1)) with hF
  have hsorted : F.Pairwise (fun a b => a.1.1 < b.1.1) := by
    apply List.Pairwise.filter
    rw [twoTicks, List.pairwise_map]
    exact List.pairwise_lt_range.imp (by intro a b h; show (_ : ℤ) < _; simpa using h)
  have hmem : ∀ u ∈ F, u ∈ twoTicks ∧ x0 ≤ u.1.2 ∧ u.1.2 ≤ x1 := by
    intro u hu
    obtain ⟨a, b⟩ := List.mem_filter.1 hu
    exact ⟨a, by simpa using b⟩
  have hex : ∀ j : ℤ, -10 ≤ j → j ≤ 10 → x0 ≤ log10 ((2 : ℝ) ^ j) → log10 ((2 : ℝ) ^ j) ≤ x1 → ∃ s, ((j, log10 ((2 : ℝ) ^ j)), s) ∈ F := by
    intro j a b c d
    obtain ⟨s, hs⟩ := exists_twoTick a b
    exact ⟨s, List.mem_filter.2 ⟨hs, by simpa using ⟨c, d⟩⟩⟩
  have hle : log10 ((2 : ℝ) ^ k) ≤ log10 ((2 : ℝ) ^ (k + 1)) := by
    rw [log10_two_pow, log10_two_pow]
    push_cast
    linarith
  obtain ⟨s0, m0⟩ := hex k hk.1 (by omega) h0 (le_trans hle h1)
  obtain ⟨s1, m1⟩ := hex (k + 1) (by omega) hk.2 (le_trans h0 hle) h1
  have hlist : ∃ t0 t1 l, F = t0 :: t1 :: l := by
    match hE : F with
    | [] => rw [hE] at m0; cases m0
    | [u] =>
      rw [hE, List.mem_singleton] at m0 m1
      have := congrArg (fun u : (ℤ × ℝ) × List Char => u.1.1) (m0.trans m1.symm)
      simp at this
    | t0 :: t1 :: l => exact ⟨t0, t1, l, rfl⟩
  obtain ⟨t0, t1, l, hl⟩ := hlist
  have ht0 := hmem t0 (by rw [hl]; simp)
  have ht1 := hmem t1 (by rw [hl]; simp)
  obtain ⟨p1, p2, p3, p4⟩ := mem_twoTicks ht0.1
  obtain ⟨q1, q2, q3, q4⟩ := mem_twoTicks ht1.1
  have hnext : t1.1.1 = t0.1.1 + 1 := by
    rw [hl] at hsorted
    have hlt : t0.1.1 < t1.1.1 := (List.pairwise_cons.1 hsorted).1 t1 (by simp)
    by_contra hne
    have hgt : t0.1.1 + 1 < t1.1.1 := by omega
    have c1 : x0 ≤ log10 ((2 : ℝ) ^ (t0.1.1 + 1)) := by
      have := ht0.2.1
      rw [p3, log10_two_pow] at this
      rw [log10_two_pow]
      push_cast
      linarith
    have c2 : log10 ((2 : ℝ) ^ (t0.1.1 + 1)) ≤ x1 := by
      have := ht1.2.2
      rw [q3, log10_two_pow] at this
      rw [log10_two_pow]
      have h3 : ((t0.1.1 + 1 : ℤ) : ℝ) ≤ t1.1.1 := by exact_mod_cast hgt.le
      have := mul_le_mul_of_nonneg_right h3 hpos.le
      linarith
    obtain ⟨s, hs⟩ := hex (t0.1.1 + 1) (by omega) (by omega) c1 c2
    rw [hl] at hs
    rcases List.mem_cons.1 hs with hs | hs
    · have := congrArg (fun u : (ℤ × ℝ) × List Char => u.1.1) hs
      simp at this
    · have h4 : t1.1.1 ≤ t0.1.1 + 1 := by
        rcases List.mem_cons.1 hs with hs | hs
        · exact le_of_eq (congrArg (fun u : (ℤ × ℝ) × List Char => u.1.1) hs).symm
        · exact ((List.pairwise_cons.1 (List.pairwise_cons.1 hsorted).2).1 _ hs).le
      omega
  have hres : hartmannBins x0 x1 = .ok ((if t0.1.2 < 0 then (t0.1, t0.2 ++ "m".toList) else t0) :: t1 :: l, (t1.1.2 - t0.1.2) / 2) := by
    rw [hartmannBins, zip_twoTicks, ← hF, hl]
  have hfst : (if t0.1.2 < 0 then (t0.1, t0.2 ++ "m".toList) else t0).1 = t0.1 := by split <;> rfl
  have hsign : t0.1.2 < 0 ↔ t0.1.1 < 0 := by
    rw [p3, log10_two_pow]
    constructor
    · intro h
      by_contra hc
      push Not at hc
      have : (0 : ℝ) ≤ t0.1.1 := by exact_mod_cast hc
      have := mul_nonneg this hpos.le
      linarith
    · intro h
      have : (t0.1.1 : ℝ) < 0 := by exact_mod_cast h
      exact mul_neg_of_neg_of_pos this hpos
  generalize ht : (if t0.1.2 < 0 then (t0.1, t0.2 ++ "m".toList) else t0) = t at hres hfst
  refine ⟨t, t1 :: l, _, hres, ?_, ?_, ?_, ?_, ?_, ?_⟩
  · rw [p3, q3, log10_two_pow, log10_two_pow, hnext]
    push_cast
    ring
  · intro j
    constructor
    · rintro ⟨p, s, hm⟩
      have : ∃ s', ((j, p), s') ∈ F := by
        rcases List.mem_cons.1 hm with hm | hm
        · refine ⟨t0.2, ?_⟩
          rw [hl]
          have : (j, p) = t0.1 := by rw [← hfst, ← hm]
          rw [this]
          exact List.mem_cons_self
        · exact ⟨s, by rw [hl]; exact List.mem_cons_of_mem _ hm⟩
      obtain ⟨s', hs'⟩ := this
      obtain ⟨a, b, c⟩ := hmem _ hs'
      obtain ⟨d1, d2, d3, _⟩ := mem_twoTicks a
      simp only at b c d1 d2 d3
      rw [d3] at b c
      exact ⟨d1, d2, b, c⟩
    · rintro ⟨a, b, c, d⟩
      obtain ⟨s, hs⟩ := hex j a b c d
      rw [hl] at hs
      rcases List.mem_cons.1 hs with hs | hs
      · refine ⟨log10 ((2 : ℝ) ^ j), t.2, ?_⟩
        have : (j, log10 ((2 : ℝ) ^ j)) = t.1 := by rw [hfst, ← hs]
        rw [this]
        exact List.mem_cons_self
      · exact ⟨_, s, List.mem_cons_of_mem _ hs⟩
  · intro j p s hm
    rcases List.mem_cons.1 hm with hm | hm
    · have : (j, p) = t0.1 := by rw [← hfst, ← hm]
      rw [← this] at p3
      exact p3
    · obtain ⟨a, _⟩ := hmem ((j, p), s) (by rw [hl]; exact List.mem_cons_of_mem _ hm)
      exact (mem_twoTicks a).2.2.1
  · rw [hl] at hsorted
    rw [List.pairwise_cons] at hsorted ⊢
    rw [hfst]
    exact hsorted
  · rw [hfst]
    by_cases h : t0.1.1 < 0
    · rw [if_pos (hsign.2 h)] at ht
      rw [if_neg (by omega), if_neg (by omega)] at p4
      rw [if_neg (by omega), if_neg (by omega), if_pos h]
      obtain ⟨n, e1, e2⟩ := p4
      refine ⟨n, ?_, e2⟩
      rw [← ht, e1]
      simp
    · rw [if_neg (fun hc => h (hsign.1 hc))] at ht
      rw [if_neg h, ← ht]
      exact p4
  · intro u hu
    exact (mem_twoTicks (hmem u (by rw [hl]; exact List.mem_cons_of_mem _ hu)).1).2.2.2

/-- **C93, counterexample.** If the axis begins above 1 km no label has a unit: every label is a bare number. -/
theorem C93_unit_counterexample (x0 x1 : ℝ) (h0 : 0 < x0) (ts : List ((ℤ × ℝ) × List Char)) (minor : ℝ)
    (h : hartmannBins x0 x1 = .ok (ts, minor)) : ∀ t ∈ ts, ∀ c ∈ t.2, isDig c = true := by
  have hpos := log10_two_pos
  have key : ∀ u ∈ twoTicks.filter (fun t => decide (x0 ≤ t.1.2 ∧ t.1.2 ≤ x1)), 0 < u.1.2 ∧ ∀ c ∈ u.2, isDig c = true := by
    intro u hu
    obtain ⟨a, b⟩ := List.mem_filter.1 hu
    have b : x0 ≤ u.1.2 ∧ u.1.2 ≤ x1 := by simpa using b
    obtain ⟨_, _, p3, p4⟩ := mem_twoTicks a
    have hu0 : 0 < u.1.2 := lt_of_lt_of_le h0 b.1
    refine ⟨hu0, ?_⟩
    have : u.1.1 ≠ 0 := by
      intro hc
      rw [p3, hc, log10_two_pow] at hu0
      simp at hu0
    rw [if_neg this, if_neg this] at p4
    obtain ⟨n, e, _⟩ := p4
    rw [e, List.nil_append, List.append_nil]
    exact fun c hc => fixDigits_isDig _ _ c hc
  rw [hartmannBins, zip_twoTicks] at h
  split at h
  · cases h
  · cases h
  · rename_i t0 t1 l hl
    rw [hl] at key
    have h2 := key t0 (by simp)
    rw [if_neg (not_lt.2 h2.1.le)] at h
    have h3 := (congrArg Prod.fst (Except.ok.inj h))
    simp only at h3
    intro t ht
    rw [← h3] at ht
    exact (key t ht).2

/-- such an axis: from about 3 km to 100 km -/
example : ∃ t l minor, hartmannBins 0.5 2 = .ok (t :: l, minor) := by
  have e2 : log10 ((2 : ℝ) ^ (2 : ℤ)) = 2 * log10 2 := log10_two_pow 2
  have e3 : log10 ((2 : ℝ) ^ ((2 : ℤ) + 1)) = 3 * log10 2 := by rw [log10_two_pow]; norm_num
  have a1 : (0.5 : ℝ) ≤ 2 * log10 2 := by
    have : (0.25 : ℝ) ≤ log10 2 := by
      rw [log10, Real.le_logb_iff_rpow_le (by norm_num) (by norm_num)]
      have h := Real.rpow_le_rpow (z := 0.25) (by norm_num) (show (10 : ℝ) ≤ 2 ^ (4 : ℕ) by norm_num) (by norm_num)
      rw [← Real.rpow_natCast, ← Real.rpow_mul (by norm_num)] at h
      norm_num at h
      norm_num
      exact h
    linarith
  have a2 : 3 * log10 2 ≤ (2 : ℝ) := by
    have : log10 2 ≤ 0.5 := by
      rw [log10, Real.logb_le_iff_le_rpow (by norm_num) (by norm_num)]
      have h := Real.rpow_le_rpow (z := 0.5) (by norm_num) (show (2 : ℝ) ^ (2 : ℕ) ≤ 10 by norm_num) (by norm_num)
      rw [← Real.rpow_natCast, ← Real.rpow_mul (by norm_num)] at h
      norm_num at h
      norm_num
      exact h
    linarith
  obtain ⟨t, l, m, h, _⟩ := C93_root2_partial 0.5 2 2 (by norm_num) (by rw [e2]; exact a1) (by rw [e3]; exact a2)
  exact ⟨t, l, m, h⟩

/-- **C93, counterexample.** An axis on which no two neighbouring powers of two lie cannot be drawn: there is an error. -/
theorem C93_few_counterexample (x0 x1 : ℝ) (h : ∀ k : ℤ, x0 ≤ log10 ((2 : ℝ) ^ k) → x1 < log10 ((2 : ℝ) ^ (k + 1))) :
    hartmannBins x0 x1 = .error .value ∨ hartmannBins x0 x1 = .error .index := by
  rw [hartmannBins, zip_twoTicks]
  split
  · exact Or.inl rfl
  · exact Or.inr rfl
  · exfalso
    rename_i t0 t1 l hl
    have hs : (twoTicks.filter (fun t => decide (x0 ≤ t.1.2 ∧ t.1.2 ≤ x1))).Pairwise (fun a b => a.1.1 < b.1.1) := by
      apply List.Pairwise.filter
      rw [twoTicks, List.pairwise_map]
      exact List.pairwise_lt_range.imp (by intro a b h; show (_ : ℤ) < _; simpa using h)
    have m0 : t0 ∈ twoTicks.filter (fun t => decide (x0 ≤ t.1.2 ∧ t.1.2 ≤ x1)) := by rw [hl]; simp
    have m1 : t1 ∈ twoTicks.filter (fun t => decide (x0 ≤ t.1.2 ∧ t.1.2 ≤ x1)) := by rw [hl]; simp
    obtain ⟨a0, b0⟩ := List.mem_filter.1 m0
    obtain ⟨a1, b1⟩ := List.mem_filter.1 m1
    have b0 : x0 ≤ t0.1.2 ∧ t0.1.2 ≤ x1 := by simpa using b0
    have b1 : x0 ≤ t1.1.2 ∧ t1.1.2 ≤ x1 := by simpa using b1
    rw [hl] at hs
    have hlt : t0.1.1 < t1.1.1 := (List.pairwise_cons.1 hs).1 t1 (by simp)
    have p3 := (mem_twoTicks a0).2.2.1
    have q3 := (mem_twoTicks a1).2.2.1
    have h2 := h t0.1.1 (by rw [← p3]; exact b0.1)
    rw [log10_two_pow] at h2 q3
    have h3 : ((t0.1.1 + 1 : ℤ) : ℝ) ≤ t1.1.1 := by exact_mod_cast hlt
    have := mul_le_mul_of_nonneg_right h3 log10_two_pos.le
    linarith [b1.2]

/-- such an axis: from 10^0.01 km to 10^0.02 km -/
example : ∀ k : ℤ, (0.01 : ℝ) ≤ log10 ((2 : ℝ) ^ k) → (0.02 : ℝ) < log10 ((2 : ℝ) ^ (k + 1)) := by
  intro k hk
  rw [log10_two_pow] at hk ⊢
  have hp := log10_two_pos
  have hk1 : (1 : ℤ) ≤ k := by
    by_contra hc
    have : k ≤ 0 := by omega
    have h2 : (k : ℝ) ≤ 0 := by exact_mod_cast this
    have := mul_nonpos_of_nonpos_of_nonneg h2 hp.le
    norm_num at hk
    linarith
  have hk2 : (1 : ℝ) ≤ k := by exact_mod_cast hk1
  have : (0.25 : ℝ) ≤ log10 2 := by
    rw [log10, Real.le_logb_iff_rpow_le (by norm_num) (by norm_num)]
    have h := Real.rpow_le_rpow (z := 0.25) (by norm_num) (show (10 : ℝ) ≤ 2 ^ (4 : ℕ) by norm_num) (by norm_num)
    rw [← Real.rpow_natCast, ← Real.rpow_mul (by norm_num)] at h
    norm_num at h
    norm_num
    exact h
  push_cast
  nlinarith

/-! ### axis titles -/

/-- **C94, title.** The title of a chronology or rate plot names the reference diameter if this is a whole number of km.  The full
property, for every diameter, is false (see the counterexample). -/
theorem C94_title_partial (rate : Bool) (n : ℕ) : ∃ t a b, chronologyTitle rate n = a ++ "N(>".toList ++ t ++ " km)".toList ++ b ∧
    decVal t = some (n : ℚ) := by
  have h := decVal_fixedStr 0 (n : ℚ) (by positivity)
  have e : roundEven ((n : ℚ) * 10 ^ 0) = n := by
    rw [pow_zero, mul_one]
    exact roundEven_near (by positivity) (by simp) (by simp)
  rw [e] at h
  simp only [pow_zero, div_one] at h
  cases rate
  · exact ⟨fixedStr 0 n, "Cumulative crater density ".toList, ", km$^{-2}$".toList, by simp [chronologyTitle], h⟩
  · exact ⟨fixedStr 0 n, "Crater formation rate ".toList, ", km$^{-2}$ Ga$^{-1}$".toList, by simp [chronologyTitle], h⟩

example : chronologyTitle false 10 = "Cumulative crater density N(>10 km), km$^{-2}$".toList := by decide +kernel

/-- **C94, counterexample.** With the reference diameter 0.5 km the title says 0 km, with 2.5 km it says 2 km. -/
theorem C94_title_counterexample : chronologyTitle false (1 / 2) = "Cumulative crater density N(>0 km), km$^{-2}$".toList ∧
    chronologyTitle true (5 / 2) = "Crater formation rate N(>2 km), km$^{-2}$ Ga$^{-1}$".toList := by decide +kernel

/-! ### bin boundaries -/

theorem overlay_nil (lo hi : ℝ) : ∀ (l : List ℝ) (i : ℕ), (∀ x ∈ l, hi ≤ x) → overlayFrom lo hi i l = .ok []
  | [], _, _ => rfl
  | b :: l, i, h => by
    rw [overlayFrom, if_neg (not_lt.2 (h b (by simp)))]
    exact overlay_nil lo hi l (i + 1) (fun x hx => h x (List.mem_cons_of_mem _ hx))

theorem overlay_ok (lo hi : ℝ) : ∀ (l : List ℝ) (i : ℕ), l.Pairwise (· < ·) → (∃ x ∈ l, hi ≤ x) →
    ∃ marks, overlayFrom lo hi i l = .ok marks ∧
      (∀ j (_ : j < l.length), j < marks.length ↔ l[j] < hi) ∧
      (∀ j (h : j < marks.length), ∃ h' : j + 1 < l.length, marks[j].colour = (i + j) % 3 ∧
        marks[j].shaded = (if (i + j) % 3 = 0 then none else some (l[j], l[j + 1])) ∧
        marks[j].label = if lo < l[j] then some l[j] else none)
  | [], _, _, h => by obtain ⟨x, hx, _⟩ := h; cases hx
  | b :: l, i, hp, h => by
    rw [List.pairwise_cons] at hp
    by_cases hb : b < hi
    · have hl : ∃ x ∈ l, hi ≤ x := by
        obtain ⟨x, hx, hxi⟩ := h
        rcases List.mem_cons.1 hx with rfl | hx
        · exact absurd hb (not_lt.2 hxi)
        · exact ⟨x, hx, hxi⟩
      obtain ⟨marks, h1, h2, h3⟩ := overlay_ok lo hi l (i + 1) hp.2 hl
      obtain ⟨b', l', rfl⟩ : ∃ b' l', l = b' :: l' := by
        cases l with
        | nil => obtain ⟨x, hx, _⟩ := hl; cases hx
        | cons b' l' => exact ⟨b', l', rfl⟩
      have hlen : marks.length < (b' :: l').length := by
        by_contra hc
        push Not at hc
        have hh : (b' :: l').length - 1 < marks.length := by simp at hc ⊢; omega
        obtain ⟨h', _⟩ := h3 _ hh
        simp at h'
      refine ⟨⟨i % 3, if i % 3 = 0 then none else some (b, b'), if lo < b then some b else none⟩ :: marks, ?_, ?_, ?_⟩
      · rw [overlayFrom, if_pos hb]
        by_cases hi3 : i % 3 = 0
        · simp only [hi3, ne_eq, not_true_eq_false, if_false, ok_bind, h1, if_true]
        · simp only [hi3, ne_eq, not_false_eq_true, if_true, ok_bind, h1, if_false]
      · intro j hj
        cases j with
        | zero => simpa using hb
        | succ j =>
          have := h2 j (by simpa using hj)
          simpa using this
      · intro j hj
        cases j with
        | zero => exact ⟨by simp, by simp, by simp, by simp⟩
        | succ j =>
          obtain ⟨h', e1, e2, e3⟩ := h3 j (by simpa using hj)
          have ea : i + 1 + j = i + (j + 1) := by omega
          rw [ea] at e1 e2
          exact ⟨by simpa using h', by simpa using e1, by simpa using e2, by simpa using e3⟩
    · refine ⟨[], ?_, ?_, ?_⟩
      · apply overlay_nil
        intro x hx
        rcases List.mem_cons.1 hx with rfl | hx
        · exact not_lt.1 hb
        · exact le_trans (not_lt.1 hb) (hp.1 x hx).le
      · intro j hj
        simp only [List.length_nil, Nat.not_lt_zero, false_iff, not_lt]
        cases j with
        | zero => exact not_lt.1 hb
        | succ j => exact le_trans (not_lt.1 hb) (hp.1 _ (List.getElem_mem (by simpa using hj))).le
      · intro j hj; simp at hj

/-- **C95, boundaries.** For every binning but 'none' and every axis with increasing limits the bin boundaries can be drawn: exactly the
boundaries of the binning within the axis are labelled; the bins are coloured in turn with three colours, and each bin but every third
is shaded from its lower to its upper boundary, with no boundary in between. -/
theorem C95_boundaries (b : Binning) (hb : b ≠ .none) (x0 x1 : ℝ) (hx : x0 < x1) : ∃ marks, binOverlay b x0 x1 = .ok marks ∧
    (∀ g, (∃ m ∈ marks, m.label = some g) ↔ (gridOf b 0).Edge g ∧ (10 : ℝ) ^ x0 < g ∧ g < (10 : ℝ) ^ x1) ∧
    (∀ i (h : i < marks.length), marks[i].colour = i % 3 ∧ (marks[i].shaded = none ↔ i % 3 = 0)) ∧
    (∀ m ∈ marks, ∀ lo hi, m.shaded = some (lo, hi) → (gridOf b 0).Edge lo ∧ (gridOf b 0).Edge hi ∧ lo < hi ∧ lo < (10 : ℝ) ^ x1 ∧
      ∀ g, (gridOf b 0).Edge g → ¬ (lo < g ∧ g < hi)) := by
  have hpos : ∀ x ∈ [(10 : ℝ) ^ x0, (10 : ℝ) ^ x1], 0 < x := by
    intro x hx
    simp only [List.mem_cons, List.not_mem_nil, or_false] at hx
    rcases hx with rfl | rfl <;> positivity
  obtain ⟨edges, h1, h2, h3, _, _⟩ := C01_bins_cover b hb [(10 : ℝ) ^ x0, (10 : ℝ) ^ x1] (by simp) hpos 0
  have hlt : (10 : ℝ) ^ x0 < (10 : ℝ) ^ x1 := Real.rpow_lt_rpow_of_exponent_lt (by norm_num) hx
  obtain ⟨i0, ⟨hi0, c1, _⟩, _⟩ := h3 _ (show (10 : ℝ) ^ x0 ∈ _ by simp)
  obtain ⟨i1, ⟨hi1, _, c2⟩, _⟩ := h3 _ (show (10 : ℝ) ^ x1 ∈ _ by simp)
  generalize hlo : (10 : ℝ) ^ x0 = lo at *
  generalize hhi : (10 : ℝ) ^ x1 = hi at *
  obtain ⟨marks, e1, e2, e3⟩ := overlay_ok lo hi edges 0 h2.increasing ⟨_, List.getElem_mem hi1, c2.le⟩
  have hinc : ∀ i j (hi : i < edges.length) (hj : j < edges.length), i < j → edges[i] < edges[j] := by
    intro i j hi hj hij
    exact List.pairwise_iff_getElem.1 h2.increasing i j hi hj hij
  refine ⟨marks, ?_, ?_, ?_, ?_⟩
  · rw [binOverlay, hlo, hhi, h1]; exact e1
  · intro g
    constructor
    · rintro ⟨m, hm, hg⟩
      obtain ⟨j, hj, rfl⟩ := List.mem_iff_getElem.1 hm
      obtain ⟨h', _, _, e⟩ := e3 j hj
      rw [e] at hg
      split at hg
      · rename_i hl
        cases hg
        exact ⟨h2.onGrid _ (List.getElem_mem _), hl, (e2 j (by omega)).1 hj⟩
      · cases hg
    · rintro ⟨hE, hg0, hg1⟩
      have hex : ∃ j, ∃ h : j < edges.length, g < edges[j] := ⟨i1 + 1, hi1, lt_trans hg1 c2⟩
      classical
      obtain ⟨hj, hgj⟩ := Nat.find_spec hex
      set j := Nat.find hex with hjd
      have hj0 : j ≠ 0 := by
        intro hc
        have : edges[j] ≤ edges[i0] := by
          rcases Nat.eq_zero_or_pos i0 with h | h
          · simp [hc, h]
          · have := hinc 0 i0 (by omega) (by omega) h
            simpa [hc] using this.le
        linarith
      obtain ⟨k, hk⟩ : ∃ k, j = k + 1 := ⟨j - 1, by omega⟩
      have hkl : k < edges.length := by omega
      have hkg : edges[k] ≤ g := by
        by_contra hc
        exact Nat.find_min hex (m := k) (by omega) ⟨hkl, not_le.1 hc⟩
      have heq : edges[k] = g := by
        by_contra hne
        have h := h2.noGap k (by omega) g hE (lt_of_le_of_ne hkg hne)
        have e : edges[k + 1]'(by omega) = edges[j] := getElem_congr_idx hk.symm
        linarith
      have hkm : k < marks.length := (e2 k hkl).2 (by rw [heq]; exact hg1)
      obtain ⟨h', _, _, e⟩ := e3 k hkm
      refine ⟨marks[k], List.getElem_mem _, ?_⟩
      rw [e, heq, if_pos hg0]
  · intro i h
    obtain ⟨h', a, c, _⟩ := e3 i h
    rw [Nat.zero_add] at a c
    refine ⟨a, ?_⟩
    rw [c]
    split
    · rename_i hz; simp [hz]
    · rename_i hz; simp [hz]
  · intro m hm l u hs
    obtain ⟨j, hj, rfl⟩ := List.mem_iff_getElem.1 hm
    obtain ⟨h', _, c, _⟩ := e3 j hj
    rw [c] at hs
    split at hs
    · cases hs
    · cases hs
      refine ⟨h2.onGrid _ (List.getElem_mem _), h2.onGrid _ (List.getElem_mem _), hinc _ _ _ _ (Nat.lt_succ_self j), (e2 j (by omega)).1 hj, ?_⟩
      rintro g hE ⟨g1, g2⟩
      have := h2.noGap j h' g hE g1
      linarith

example : ∃ marks, binOverlay .pseudoLog (-1) 0.5 = .ok marks ∧ ∃ m ∈ marks, m.label = some 1 := by
  obtain ⟨marks, h1, h2, _⟩ := C95_boundaries .pseudoLog (by decide) (-1) 0.5 (by norm_num)
  refine ⟨marks, h1, (h2 1).2 ⟨⟨0, 1, by simp [pseudoLogMantissas], by norm_num⟩, ?_, ?_⟩⟩
  · exact Real.rpow_lt_one_of_one_lt_of_neg (by norm_num) (by norm_num)
  · exact Real.one_lt_rpow (by norm_num) (by norm_num)

/-- **C95, none.** With the binning 'none' nothing is shaded or labelled. -/
theorem C95_none (x0 x1 : ℝ) (hx : x0 < x1) : ∃ marks, binOverlay .none x0 x1 = .ok marks ∧ ∀ m ∈ marks, m.shaded = none ∧ m.label = none := by
  have hlt : (10 : ℝ) ^ x0 < (10 : ℝ) ^ x1 := Real.rpow_lt_rpow_of_exponent_lt (by norm_num) hx
  obtain ⟨marks, e1, e2, e3⟩ := overlay_ok ((10 : ℝ) ^ x0) ((10 : ℝ) ^ x1) [(10 : ℝ) ^ x0, (10 : ℝ) ^ x1] 0 (by simpa using hlt)
    ⟨(10 : ℝ) ^ x1, by simp, le_rfl⟩
  refine ⟨marks, ?_, ?_⟩
  · rw [binOverlay, generateBins, if_pos rfl]; exact e1
  · intro m hm
    obtain ⟨j, hj, rfl⟩ := List.mem_iff_getElem.1 hm
    obtain ⟨h', _, c, d⟩ := e3 j hj
    have hj0 : j = 0 := by simp at h'; exact h'
    subst hj0
    exact ⟨by simpa using c, by simpa using d⟩

end Verif.Props
