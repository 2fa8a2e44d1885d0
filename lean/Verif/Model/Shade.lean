import Verif.Model.AgeArea
import Verif.Model.Format

/-!
Model of what `Craterplotset.age_area_plot` (`/repo/src/craterstats/Craterplotset.py:888-988`) draws over the cells of an uncertainty plot:
the shaded polygon, the two texts beside it and the caption of the colour scale.

Places are fractions of the axes' width (from the old end) and height.  Colours, sizes and the transparency are left out.
-/

namespace Verif.AgeArea

open Verif.Py Verif.Text

noncomputable section

/-- the truth value of `x_exceed`, `y_exceed` (Craterplotset.py:940-948): `None` and zero are false -/
def truthy : Option ℝ → Option ℝ
  | some v => if v = 0 then none else some v
  | none => none

/-- Craterplotset.py:919-949: the corners of the shaded polygon.  `x` is `x_exceed`, `none` without an equilibrium function. -/
def shadePolygon (x y : Option ℝ) : Option (List (ℝ × ℝ)) :=
  match truthy x, truthy y with
  | some x, some y => some [(0, 0), (x, 0), (x, y), (1, y), (1, 1), (0, 1)]
  | some x, none => some [(0, 0), (x, 0), (x, 1), (0, 1)]
  | none, some y => some [(0, y), (1, y), (1, 1), (0, 1)]
  | none, none => none

/-- Craterplotset.py:977-984: texts with their places; the first one ends at its place and stands above, the second runs upwards, to the left
of its place -/
def shadeTexts (x y : Option ℝ) : List (List Char × (ℝ × ℝ)) :=
  (match truthy y with
    | some y => if y < 0.98 then [("whole globe".toList, (0.82, y))] else []
    | none => []) ++
  (match truthy x with
    | some x => if x > 0.02 then [("saturation".toList, (x, 0.87))] else []
    | none => [])

/-- Craterplotset.py:917 `diameter_text`; the products with 1000 are exact here -/
def diameterText (dmin : ℚ) : List Char :=
  " ($d > ".toList ++ (if 1 ≤ dmin then gStr 2 dmin ++ "$ km".toList else gStr 2 (dmin * 1000) ++ "$ m)".toList)

/-- Craterplotset.py:951-971: the caption of the colour scale of the plots `k`, `err`, `age` -/
def scaleCaption (plot : List Char) (dmin : ℚ) : List Char :=
  if plot = "k".toList then "$k$".toList ++ diameterText dmin
  else if plot = "err".toList then "Measured uncertainty $\\sigma$, %".toList ++ diameterText dmin
  else if plot = "age".toList then "Measured/actual age".toList ++ diameterText dmin
  else []

end

end Verif.AgeArea
