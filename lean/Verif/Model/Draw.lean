import Verif.Model.PlotSpace
import Verif.Model.Settings

/-!
Model of `Craterplotset.draw` (`/repo/src/craterstats/Craterplotset.py:470-529`): what is drawn and in what order, the text of the function
legend, and the titles of the axes (`CreatePlotSpace` 193-209).  The parts themselves are modelled elsewhere (epochs C112, C113, C120;
isochrons C123; counts C121; chronology curves C118).  An object which is `None` is `none`; functions and epoch systems are given by their
names.
-/

namespace Verif.Draw
open Verif.Py Verif.Text

/-- a part of the figure -/
inductive Layer
  | epochs (name : List Char)
  | chronology (diameter : ℚ)
  | equilibrium (name : List Char)
  | isochrons
  | count (i : ℕ)
  | saturation (name : List Char)
  deriving DecidableEq

/-- what is to be drawn -/
structure Job where
  presentation : List Char
  refDiameter : ℚ
  ep : Option (List Char)
  ef : Option (List Char)
  pf : Option (List Char)
  cf : Option (List Char)
  isochrons : Bool
  /-- the binning of each plot -/
  plots : List (List Char)

/-- Craterplotset.py:499, 201 -/
def onTime (p : List Char) : Bool := decide (p ∈ ["chronology", "rate"].map String.toList)

/-- Craterplotset.py:512 -/
def onDiameter (p : List Char) : Bool := decide (p ∈ ["cumulative", "differential", "R-plot", "Hartmann"].map String.toList)

/-- Craterplotset.py:527-529: the plots in reverse order, without those that have no bins where bins are needed -/
def countLayers (p : List Char) (plots : List (List Char)) : List Layer :=
  ((plots.zipIdx.reverse).filter (fun x => !(decide (p ∈ ["differential", "R-plot", "Hartmann"].map String.toList) &&
    decide (x.1 = "none".toList)))).map (fun x => .count x.2)

/-- Craterplotset.py:499-529, and 926-946, 981-984 for uncertainty plots (the shading beyond saturation, if it is within the plot), in order -/
def layers (j : Job) : List Layer :=
  (if onTime j.presentation then
      (match j.ep with | some n => [.epochs n] | none => []) ++
      (if j.refDiameter ≠ 1 then [.chronology j.refDiameter, .chronology 1] else [.chronology 1])
    else []) ++
  (if onDiameter j.presentation then
      (match j.ep with | some n => [.epochs n] | none => []) ++
      (match j.ef with | some n => [.equilibrium n] | none => []) ++
      (if j.isochrons then [.isochrons] else [])
    else []) ++
  (if j.presentation = "sequence".toList then (match j.ep with | some n => [.epochs n] | none => []) else []) ++
  (if onDiameter j.presentation || decide (j.presentation = "sequence".toList) then countLayers j.presentation j.plots else []) ++
  (if j.presentation = "uncertainty".toList then (match j.ef with | some n => [.saturation n] | none => []) else [])

/-- Craterplotset.py:486-488: a line of the legend -/
def entry (w : List Char) : Option (List Char) → List Char
  | some n => w ++ n ++ ['\n']
  | none => []

/-- Craterplotset.py:484-489: the text of the function legend; `None.name` is an AttributeError -/
def functionLegend (j : Job) : Except Exc (List Char) :=
  let t0 := entry "Epochs: ".toList j.ep
  let t1 := if j.presentation = "sequence".toList then [] else entry "EF: ".toList j.ef
  if !(onTime j.presentation && decide (j.refDiameter = 1)) || j.ep.isSome then
    match j.pf, j.cf with
    | some n, some m => .ok (t0 ++ t1 ++ entry "PF: ".toList (some n) ++ "CF: ".toList ++ m)
    | _, _ => .error .attribute
  else
    match j.cf with
    | some m => .ok (t0 ++ t1 ++ "CF: ".toList ++ m)
    | none => .error .attribute

/-- Craterplotset.py:199-209: titles of the axes; a presentation without an entry is a KeyError -/
def titles (j : Job) : Except Exc (List Char × List Char) :=
  let x := if onTime j.presentation then "Age, Ga".toList else "Diameter".toList
  let eq := if j.plots.any (fun b => decide (b ≠ "root-2".toList)) then " (equivalent)".toList else []
  if j.presentation = "cumulative".toList then .ok (x, "Cumulative crater density, km$^{-2}$".toList)
  else if j.presentation = "differential".toList then .ok (x, "Differential crater density, km$^{-3}$".toList)
  else if j.presentation = "R-plot".toList then .ok (x, "Relative crater density (R)".toList)
  else if j.presentation = "Hartmann".toList then .ok (x, "Craters per $√$2-bin".toList ++ eq ++ ", km$^{-2}$".toList)
  else if j.presentation = "chronology".toList then .ok (x, PlotSpace.chronologyTitle false j.refDiameter)
  else if j.presentation = "rate".toList then .ok (x, PlotSpace.chronologyTitle true j.refDiameter)
  else .error .key

/-- Craterplotset.py:476-529: titles (none for plots with a time axis of their own) and parts of the figure; `f`: the function legend is
asked for -/
def draw (j : Job) (f : Bool) : Except Exc (Option (List Char × List Char) × Option (List Char) × List Layer) := do
  let t ← (if j.presentation = "sequence".toList ∨ j.presentation = "uncertainty".toList then .ok none else (titles j).map some)
  let l ← (if f then (functionLegend j).map some else .ok none)
  .ok (t, l, layers j)

end Verif.Draw
