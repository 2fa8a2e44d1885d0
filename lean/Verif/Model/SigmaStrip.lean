import Verif.Model.Plotting

/-!
Model of the strip of deviations above the data of a count plot: `/repo/src/craterstats/Craterplotset.py` 270-287 (`CreatePlotSpace`), with the
highest ordinate kept by `autoscale` (617, 624).  What is drawn in the strip is modelled in `SigmaPlot.lean`; exact reals.
-/

namespace Verif.Plotting

open Verif.Py Verif.Cratercount

noncomputable section

/-- a rectangle in the figure, as given to `fig.add_axes` -/
structure Box where
  left : ℝ
  bottom : ℝ
  width : ℝ
  height : ℝ

/-- Craterplotset.py:617, 624: `max_y`; nan (here `none`) if the first plot has no data point -/
def highestY (ranges : List (Option DataRange)) : Option ℝ :=
  match ranges with
  | [] => none
  | r :: rs => (pyMax (r.map (·.y1)) (rs.map (Option.map (·.y1)))).map log10

/-- `gm.mag` of an axis range (gm/maths/range.py:31-32): the length, whatever the order of the ends -/
def axisLength (r : ℝ × ℝ) : ℝ := max r.1 r.2 - min r.1 r.2

/-- Craterplotset.py:272-273.  `axes`: the axes of the plot within the figure (`normalised_position`), `offset`: the setting `ra_offset`. -/
def stripBox (axes : Box) (yr : ℝ × ℝ) (maxY offset : ℝ) : Box :=
  let y := (maxY + axisLength yr / 16 + offset / 20 - yr.1) / axisLength yr
  ⟨axes.left, axes.bottom + y * axes.height, axes.width, axes.height / 16⟩

/-- Craterplotset.py:595-658 and 270-273: the axis ranges of a plot and its strip, `none` without one.  `nSigma`: the condition of lines 271 and 621.  The place of the
strip is not a number if a plot without data points comes first. -/
def plotStrip (p : Pres) (ranges : List (Option DataRange)) (nSigma : Bool) (userX userY : Option (ℝ × ℝ)) (axes : Box) (offset : ℝ) :
    Except Exc ((ℝ × ℝ) × (ℝ × ℝ) × Option Box) := do
  let (xr, yr) ← autoscale p ranges nSigma userX userY
  if nSigma then
    match highestY ranges with
    | some m => .ok (xr, yr, some (stripBox axes yr m offset))
    | none => .error .nonFinite
  else .ok (xr, yr, none)

end

end Verif.Plotting
