import Verif.Model.UserFunctions
import Verif.Model.CountFile
import Verif.Model.Production
import Verif.Model.Chronology

/-!
Model of the making of functions from their definitions: `src/craterstats/Chronologyfn.py` `__init__` (22-59) and
`src/craterstats/Productionfn.py` `__init__` (14-69).

Simplifications: exact numbers; a `range` or `yrange` which is not a list of two numbers, with which the function cannot be drawn, is an
error already here; `yrange` is not part of the result (it is used for the axes only).
-/

namespace Verif.Cli
open Verif.Py Verif.Text Verif.Rand Verif.Production Verif.Chronology

/-- what functions are made from: the list of functions, a text with definitions, or a file given by its contents -/
inductive FunctionSource
  | dict (v : TVal)
  | text (s : List Char)
  | file (content : List Char)

/-- Chronologyfn.py:30-37, Productionfn.py:19-26: the definitions; an entry without meaning is added to those of a text, so that there are
several.  A text of one line is the name of a file. -/
def sourceStructure (C : Classes) (kind : List Char) : FunctionSource → Except Exc TVal
  | .dict v => .ok v
  | .text s => readStructure C (s ++ '\n' :: (kind ++ "={\n name=\"null\"\n}".toList))
  | .file content => readStructure C (join ['\n'] (readTextfile C none false true false content))

/-- Chronologyfn.py:30-41, Productionfn.py:19-30: the definition of the given name -/
def definitionOf (C : Classes) (kind : List Char) (src : FunctionSource) (id : List Char) : Except Exc TVal := do
  let v ← sourceStructure C kind src
  lookupDef nameOf (sectionOf v kind) id

noncomputable section

/-- Chronologyfn.py:22-59.  Without `coefficients` the attribute `model` is missing (line 65). -/
def makeChronology (C : Classes) (src : FunctionSource) (id : List Char) : Except Exc Chron := do
  let e ← definitionOf C "chronology".toList src id
  if CountFile.has e "coefficients".toList then do
    let p ← Scc.floats e "coefficients".toList
    match Chronology.init (p.map (fun q : ℚ => (q : ℝ))) with
    | .ok c => .ok c
    | .error _ => .error .index
  else .error .attribute

/-- Productionfn.py:34-40: two numbers -/
def pairField (e : TVal) (k : List Char) : Except Exc (Option (ℝ × ℝ)) :=
  if CountFile.has e k then do
    match ← Scc.floats e k with
    | [a, b] => .ok (some ((a : ℝ), (b : ℝ)))
    | _ => .error .index
  else .ok none

/-- Productionfn.py:17 -/
def productionKind (equilibrium : Bool) : List Char := if equilibrium then "equilibrium".toList else "production".toList

/-- Productionfn.py:32 -/
def typeField (e : TVal) : Except Exc TVal :=
  if CountFile.has e "type".toList then tget e "type".toList else .ok (.str "polynomial".toList)

/-- Productionfn.py:42-69; a function of another type has no curves (`none`) -/
def makeByType (e type : TVal) (range : Option (ℝ × ℝ)) : Except Exc (Option PFn) :=
  if type = .str "polynomial".toList then do
    let a ← Scc.floats e "coefficients".toList
    .ok (some (initPoly (a.map (fun q : ℚ => (q : ℝ))) range))
  else if type = .str "tabular incremental root-2".toList then do
    let h ← Scc.floats e "H".toList
    let i ← tint (← tget e "index_1km".toList)
    match initTab (h.map (fun q : ℚ => (q : ℝ))) i with
    | .ok f => .ok (some f)
    | .error .index => .error .index
    | .error _ => .error .nonFinite
  else .ok none

/-- Productionfn.py:14-69 -/
def makeProduction (C : Classes) (src : FunctionSource) (id : List Char) (equilibrium : Bool) : Except Exc (Option PFn) := do
  let e ← definitionOf C (productionKind equilibrium) src id
  let type ← typeField e
  let range ← pairField e "range".toList
  let _ ← pairField e "yrange".toList
  makeByType e type range

end

end Verif.Cli
