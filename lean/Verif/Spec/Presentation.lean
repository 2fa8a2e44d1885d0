import Verif.Model.Cratercount

/-!
Specification of what is plotted for one non-empty bin, as in the published definitions.  Uses the model only for
the record types (`Bin`, `Point`, `Presentation`).
-/

namespace Verif.Spec
open Verif.Cratercount

noncomputable section

/-- the diameter at which a bin is plotted -/
def plotDiameter (pr : Presentation) (x : Bin) : ℝ := if pr = .cumulative then x.dMin else x.dMean

/-- the number of craters behind a plotted value -/
def plotEvents (pr : Presentation) (x : Bin) : ℝ := if pr = .cumulative then x.ncumEvent else x.nEvent

/-- crater density of a bin per unit diameter and area -/
def density (area : ℝ) (x : Bin) : ℝ := x.n / (x.width * area)

/-- the bins plotted: non-empty, geometric mean strictly inside the range (from 0 with `showall`) -/
def selected (t : List Bin) (range : Option (EReal × EReal)) (showall : Bool) : List Bin :=
  match range with
  | some r => t.filter (fun x => decide (0 < x.n ∧ (if showall then (0 : EReal) else r.1) < (x.dMean : EReal) ∧
      (x.dMean : EReal) < r.2))
  | Option.none => t.filter (fun x => decide (0 < x.n))

/-- mean of `D^(k-1)` over the bin `[a/√β, a√β]` divided by its value at `a` -/
def biasFactor (beta k : ℝ) : ℝ :=
  if k = 0 then Real.log beta / (Real.sqrt beta - 1 / Real.sqrt beta)
  else (beta ^ (k / 2) - beta ^ (-(k / 2))) / (k * (Real.sqrt beta - 1 / Real.sqrt beta))

end

end Verif.Spec
