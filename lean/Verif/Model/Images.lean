import Verif.Model.PlotSpace

/-!
Model of the colours of the three uncertainty plots (`/repo/src/craterstats/Craterplotset.py` `age_area_plot`, 948-975) and of the sizes of
symbols and text (`EstablishFontandScaling` 89-141 and `CreatePlotSpace` 187-191).

Assumed of matplotlib: `imshow` without `vmin` and `vmax` takes them from the image; a colour map of `n` listed colours divides the range
from `vmin` to `vmax` into `n` equal parts, each including its lower end, the last also its upper end; the colour bar shows the colour of
each value at the place of that value, and widens a range of a single value by a tenth of that value at both ends (0.1 if the value is 0).
Exact reals; a cell without a value (`nan`) is not drawn.
-/

namespace Verif.Images
open Verif.Py Verif.Cratercount Verif.PlotSpace

noncomputable section

/-- range of the colours of an image with these smallest and greatest values -/
def limits (lo hi : ℝ) : ℝ × ℝ :=
  if lo = hi then if lo = 0 then (-0.1, 0.1) else (lo - 0.1 * |lo|, hi + 0.1 * |hi|) else (lo, hi)

/-- number of the colour, of `n`, for a value -/
def colour (n : ℕ) (r : ℝ × ℝ) (v : ℝ) : ℕ :=
  let x := (v - r.1) / (r.2 - r.1) * n
  if x < 0 then 0 else if (n : ℝ) ≤ x then n - 1 else ⌊x⌋₊

/-! ### number of craters -/

/-- Craterplotset.py:949 `np.clip(kk, 0, 8)` -/
def clipped (ks : List ℕ) : List ℝ := ks.map (fun k : ℕ => ((min k 8 : ℕ) : ℝ))

/-- the range of the colours (Craterplotset.py:950, no `vmin` and `vmax`); numpy's minimum of no values is an error -/
def countRange (ks : List ℕ) : Except Exc (ℝ × ℝ) :=
  match clipped ks with
  | [] => .error .value
  | v :: l => .ok (limits (l.foldl min v) (l.foldl max v))

/-- Craterplotset.py:949-950: colour of a cell with `k` craters; `Set2_r` has eight colours -/
def countColour (r : ℝ × ℝ) (k : ℕ) : ℕ := colour 8 r ((min k 8 : ℕ) : ℝ)

/-- Craterplotset.py:951-952: positions of the labels '0', '1', …, '6', '7+' on the colour bar -/
def labelValue (l : ℕ) : ℝ := l + 0.5

/-- colour of the bar at the label -/
def labelColour (r : ℝ × ℝ) (l : ℕ) : ℕ := colour 8 r (labelValue l)

/-- the label is within the colour bar -/
def labelShown (r : ℝ × ℝ) (l : ℕ) : Prop := r.1 ≤ labelValue l ∧ labelValue l ≤ r.2

/-! ### ratio of measured to actual age -/

/-- Craterplotset.py:963-967: range of the colours, the same for all images -/
def ratioRange : ℝ × ℝ := (log10 (1 / 5), log10 5)

/-- Craterplotset.py:963-970: colour of a cell, `none` if it is not drawn; `Spectral_9` has nine colours -/
def ratioColour (ratio : ℝ) : Option ℕ :=
  let v := log10 ratio
  if ratioRange.1 < v ∧ v < ratioRange.2 then some (colour 9 ratioRange v) else none

/-- Craterplotset.py:971-972: ratios at which there are labels, and the labels -/
def ratioTicks : List (ℝ × ℚ) :=
  [(0.1, 0.1), (0.2, 0.2), (1 / 3, 0.33), (0.5, 0.5), (1 / 1.4, 0.7), (1, 1), (1.4, 1.4), (2, 2), (3, 3), (5, 5), (10, 10)]

/-! ### sizes of symbols and text -/

/-- constants.py:126-141: sizes of the symbols -/
def symbolSizes : List ℝ := [3, 3, 4.3, 3.5, 4.5, 3, 3.5, 3, 3.5, 2.5, 2.5, 3.8, 2.5, 3.5, 2.5]

/-- sizes and line widths of the symbols of a plot set -/
structure Symbols where
  sizes : List ℝ
  edge : Option ℝ

/-- Craterplotset.py:67 (constructor): a copy of the table -/
def newSymbols : Symbols := ⟨symbolSizes, none⟩

/-- Craterplotset.py:187-191, with `decades[0] * print_scale`, the width of the axes: every drawing changes the table of the plot set -/
def drawSymbols (s : Symbols) (width : ℝ) : Symbols :=
  let f := width / 7.5
  ⟨s.sizes.map (fun e => e * (0.8 * f)), some (0.5 * f)⟩

/-- `CreatePlotSpace` (143-191) as far as the symbols are concerned -/
def createPlotSpace (s : Symbols) (p : Pres) (xr yr : ℝ × ℝ) (ptSize : ℝ) (randomness : Bool) (dims : List ℝ) : Except Exc (Layout × Symbols) := do
  let l ← layout p xr yr ptSize randomness dims
  let k ← printScale p (axisDecades xr) (axisDecades yr) dims
  .ok (l, drawSymbols s (axisDecades xr * k))

/-- Craterplotset.py:114-121 -/
def fontScale : List (List Char × ℝ) :=
  [("Open Sans".toList, 0.89), ("Noto Sans".toList, 0.89), ("Myriad Pro".toList, 1), ("Verdana".toList, 0.83), ("DejaVu Sans".toList, 0.83),
   ("Tahoma".toList, 0.93), ("Times New Roman".toList, 0.99)]

/-- Craterplotset.py:122: size of the text in the figure -/
def scaledPtSize (font : List Char) (ptSize : ℝ) : Except Exc ℝ :=
  match fontScale.find? (fun e => e.1 == font) with
  | none => .error .key
  | some e => .ok (ptSize * e.2)

end

end Verif.Images
