import Verif.Model.Chronology
import Verif.Model.Production

/-!
Model of the curves on chronology and rate plots (`/repo/src/craterstats/Craterplotset.py`: `draw` 481-482, 499-510).
The formatting of the reference diameter in the label is a parameter (`f'{d:g}'`).
-/

namespace Verif.ChronCurves
open Verif.Py Verif.Cratercount Verif.Chronology Verif.Production

noncomputable section

/-- a curve and its label in the legend -/
structure Curve where
  label : Option (List Char)
  t : List ℝ
  y : List ℝ

/-- Craterplotset.py:481-482: `N[0]/N[1]` -/
def refRatio (pf : Option PFn) (ref : ℝ) : Except Err ℝ :=
  match pf with
  | none => .ok (1 / 1)
  | some f => do
    let n0 ← f.evaluate .cumulative ref none
    let n1 ← f.evaluate .cumulative 1 none
    if n1 = 0 then .error .nonFinite else .ok (n0 / n1)

/-- Craterplotset.py:499-510 (without the epochs, see `chronology_oplot`) -/
def curves (g : ℝ → List Char) (cf : Chron) (pf : Option PFn) (rate : Bool) (ref : ℝ) : Except Err (List Curve) := do
  let ratio ← refRatio pf ref
  let ty ← cf.getplotdata rate true
  if ref ≠ 1 then
    .ok [⟨some ("N(>".toList ++ g ref ++ " km)".toList), ty.1, ty.2.map (fun v => v * ratio)⟩, ⟨some "N(>1 km)".toList, ty.1, ty.2⟩]
  else .ok [⟨none, ty.1, ty.2⟩]

end

end Verif.ChronCurves
