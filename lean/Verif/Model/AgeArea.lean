import Verif.Model.Age
import Verif.Model.Plotting

/-!
Model of `Craterplotset.compute_age_area` (Craterplotset.py:804-886) and of the limits drawn by `age_area_plot`
(lines 888-946).

Simplifications: exact reals; the random number generator is a parameter; figure drawing is not modelled.
-/

namespace Verif.AgeArea
open Verif.Py Verif.Cratercount Verif.Chronology Verif.Production Verif.Craterpdf Verif.Plotting

noncomputable section

/-- Craterplotset.py:812-817: the numbers of cells along and across, for `n_samples` and the aspect ratio (height / width)
of the figure; `int` cuts off -/
def gridSize (n : ℕ) (aspect : ℝ) : ℕ × ℕ :=
  if 1 < aspect then (n, ⌊(n : ℝ) * aspect⌋₊) else (⌊(n : ℝ) / aspect⌋₊, n)

/-- Python's `round` of a non-negative number: to the nearest integer, halves to the even one -/
def pyRound (x : ℝ) : ℕ :=
  let f := ⌊x⌋₊
  if x - f < 1 / 2 then f
  else if 1 / 2 < x - f then f + 1
  else if f % 2 = 0 then f else f + 1

/-- Craterplotset.py:819: cells on the linear part of the time axis -/
def nLin (a : TimeAxis) (nsx : ℕ) : ℕ := pyRound ((nsx : ℝ) * a.xfracLinear)

/-- Craterplotset.py:819-827: the logarithms of the ages; `ns_log = nsx - ns_lin` -/
def logAges (a : TimeAxis) (nsx : ℕ) : List ℝ :=
  linspace (log10 a.tMin) (log10 a.tCrossover) (nsx - nLin a nsx) ++
    (linspace a.tCrossover a.tMax (nLin a nsx + 1)).tail.map log10

/-- Craterplotset.py:838: the ages, `10 ** log_age` -/
def ages (a : TimeAxis) (nsx : ℕ) : List ℝ := (logAges a nsx).map (fun e => (10 : ℝ) ^ e)

/-- Craterplotset.py:829-830: the logarithms of the areas -/
def logAreas (y0 y1 : ℝ) (nsy : ℕ) : List ℝ := linspace y0 y1 nsy

/-- Craterplotset.py:840-843: craters per area between the smallest diameter and 1000 km on a surface of this age -/
def density (pf : PFn) (c : Chron) (dmin logAge : ℝ) : Except Err ℝ := do
  let a ← c.a0 ((10 : ℝ) ^ logAge)
  let r0 ← pf.evaluate .cumulative dmin (some a)
  let r1 ← pf.evaluate .cumulative 1000 (some a)
  .ok (r0 - r1)

/-- Craterplotset.py:863: `np.random.poisson(lam)` below 1e5 (ValueError for a negative number), else `int(lam)` -/
def drawNumber (draw : ℝ → ℕ) (lam : ℝ) : Except Err ℕ :=
  if lam < 1e5 then if lam < 0 then .error .domain else .ok (draw lam) else .ok ⌊lam⌋₊

/-- the entries of `zz`, `kk`, `ee`, `lm` for one cell -/
structure Cell where
  err : ℝ
  k : ℕ
  ratio : ℝ
  lam : ℝ

/-- Craterplotset.py:856-875: one cell.  (`t[1]` is positive for the chronologies considered, so the `isnan` branches of
lines 872 and 874 concern numpy's non-finite values only, which are errors here.) -/
def cell (pf : PFn) (c : Chron) (simpson : Simpson) (draw : ℝ → ℕ) (dmin logAge logArea : ℝ) : Except Err Cell := do
  let C ← density pf c dmin logAge
  let area := (10 : ℝ) ^ logArea
  let lam := C * area
  let k ← drawNumber draw lam
  let pdf ← Craterpdf.init pf c simpson ⟨some [Real.sqrt (dmin * 1000)], [], area, none⟩ dmin 1000 (some (k : ℝ)) none false 2000
  match pdf.median1sigma with
  | [t0, t1, t2] => do
    let q ← fdiv t2 t1
    let r ← fdiv t0 ((10 : ℝ) ^ logAge)
    .ok { err := Real.sqrt q - 1, k := k, ratio := r, lam := lam }
  | _ => .error .index

/-- Craterplotset.py:845-875: the grid, one row per age -/
def grid (pf : PFn) (c : Chron) (simpson : Simpson) (draw : ℝ → ℕ) (dmin : ℝ) (ages areas : List ℝ) :
    Except Err (List (List Cell)) :=
  ages.mapM (fun x => areas.mapM (fun y => cell pf c simpson draw dmin x y))

/-- Craterplotset.py:374-376, 403, 418: where an age is on the time axis, as a fraction of its width from the old end: the
linear axis takes the first `xfrac_linear` of the width, from `t_max` to `t_crossover`, the logarithmic one the rest, to
`t_min`.  (For `t_max = t_crossover` the linear axis has no width; line 418 then gives it another right limit.) -/
def axisPos (a : TimeAxis) (t : ℝ) : ℝ :=
  if a.tCrossover < t then a.xfracLinear * ((a.tMax - t) / (a.tMax - a.tCrossover))
  else a.xfracLinear + (1 - a.xfracLinear) * ((log10 a.tCrossover - log10 t) / (log10 a.tCrossover - log10 a.tMin))

/-- Craterplotset.py:919-921: where the area of the whole body crosses the plot, as a fraction of its height -/
def wholeGlobe (y0 y1 maxArea : ℝ) : Option ℝ :=
  if searchsorted [y0, y1] (log10 maxArea) = 1 then some ((log10 maxArea - y0) / (max y0 y1 - min y0 y1))
  else none

/-- Craterplotset.py:924-926: the age at which the smallest craters reach the equilibrium density `ef` -/
def saturationAge (pf : PFn) (c : Chron) (dmin ef : ℝ) : Except Err ℝ := do
  let c0 ← pf.evaluate .cumulative dmin none
  let c1 ← pf.evaluate .cumulative 1 none
  let n ← fdiv (ef * c1) c0
  c.t none (some n)

/-- Craterplotset.py:928-938: where this age lies, as a fraction of the width from the old end -/
def saturationX (a : TimeAxis) (t : ℝ) : Option ℝ :=
  let i := searchsorted [a.tMin, a.tCrossover, a.tMax] t
  if i = 1 then
    some (a.xfracLinear + (1 - a.xfracLinear) * (log10 a.tCrossover - log10 t) / (log10 a.tCrossover - log10 a.tMin))
  else if i = 2 then some (a.xfracLinear * (a.tMax - t) / (a.tMax - a.tCrossover))
  else none

end

end Verif.AgeArea
