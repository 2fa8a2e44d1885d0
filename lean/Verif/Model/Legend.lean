import Verif.Py.Str
import Verif.Py.Exc
import Mathlib.Data.Nat.Notation

/-!
Model of the legend: `src/craterstats/Craterplot.py` `make_legend_label` (235-273) and the labels given to the lines drawn by
`overplot` (157-231), and `src/craterstats/Craterplotset.py` `draw` (527-551).

matplotlib's `get_legend_handles_labels` is modelled: the lines drawn, in the order of drawing, which have a non-empty label not
beginning with an underscore.  Error bars, isochrons and other additions have no label.
-/

namespace Verif.Legend
open Verif.Py

/-- what the legend shows of one plot: its kind, whether it is drawn in this presentation, and the texts of the parts -/
structure Series where
  /-- the type is one of c-fit, d-fit, poisson, b-poisson; otherwise it is data -/
  fit : Bool
  /-- Craterplotset.py:529, Craterplot.py:164: not hidden, with a count, and binned if the presentation requires it -/
  drawn : Bool
  name : List Char
  sourceName : List Char
  area : List Char
  perimeter : Option (List Char)
  craters : List Char
  range : List Char
  density : List Char
  age : List Char

/-- Craterplot.py:235-273 -/
def legendParts (sequence : Bool) (legend : List Char) (s : Series) : List (List Char) :=
  if s.fit then
    (if sequence then (if 'A' ∈ legend then [s.age] else []) ++ (if 'a' ∈ legend then [s.area] else []) else []) ++
    (if 'c' ∈ legend then [s.craters] else []) ++ (if 'r' ∈ legend then [s.range] else []) ++
    (if 'N' ∈ legend then [s.density] else [])
  else
    (if 'n' ∈ legend then [if s.name ≠ [] then s.name else s.sourceName] else []) ++
    (if 'a' ∈ legend then [s.area] else []) ++
    (if 'p' ∈ legend then (match s.perimeter with | some p => [p] | none => []) else [])

/-- Craterplot.py:229-230 -/
def labelOf (legend : List Char) (s : Series) : Option (List Char) :=
  let parts := legendParts false legend s
  if parts = [] then none else some (join ", ".toList parts)

/-- a line drawn: of which plot, and whether it is the curve of a fit or the data points -/
structure Handle where
  plot : ℕ
  curve : Bool
  deriving DecidableEq

/-- Craterplot.py:157-231: the lines drawn for a plot, with labels -/
def drawnLines (legend : List Char) (x : ℕ × Series) : List (Handle × Option (List Char)) :=
  if x.2.drawn then
    (if x.2.fit then [(⟨x.1, true⟩, some "fit".toList)] else []) ++ [(⟨x.1, false⟩, labelOf legend x.2)]
  else []

/-- Craterplotset.py:528-530: plots are drawn in reverse order, numbered in the order given -/
def allLines (legend : List Char) (plots : List Series) : List (Handle × Option (List Char)) :=
  (plots.mapIdx (fun i s => (i, s))).reverse.flatMap (drawnLines legend)

/-- matplotlib `get_legend_handles_labels` -/
def handlesLabels (lines : List (Handle × Option (List Char))) : List (Handle × List Char) :=
  lines.filterMap (fun x => match x.2 with
    | some (c :: l) => if c = '_' then none else some (x.1, c :: l)
    | _ => none)

/-- Craterplotset.py:542: `set(self.legend) & set('crN') != set()` -/
def fitCodes (legend : List Char) : Bool := legend.any (fun c => c = 'c' || c = 'r' || c = 'N')

/-- Craterplotset.py:534-548; `h[i+1]` after the last line is an IndexError -/
def aggregate (legend : List Char) : List (Handle × List Char) → Except Exc (List (List Handle × List Char))
  | [] => .ok []
  | [(h, e)] =>
    if e = "fit".toList then (if fitCodes legend then .error .index else .ok []) else .ok [([h], e)]
  | (h, e) :: (h', e') :: rest =>
    if e = "fit".toList then
      if fitCodes legend then do
        let r ← aggregate legend rest
        .ok (([h, h'], e') :: r)
      else aggregate legend rest
    else do
      let r ← aggregate legend ((h', e') :: rest)
      .ok (([h], e) :: r)

/-- Craterplotset.py:532-551: the entries of the legend from top to bottom -/
def legendEntries (legend : List Char) (plots : List Series) : Except Exc (List (List Handle × List Char)) := do
  let r ← aggregate legend (handlesLabels (allLines legend plots))
  .ok r.reverse

end Verif.Legend
