import Verif.Model.Functions
import Verif.Model.Run
import Verif.Model.TableRow

/-!
Model of how the functions of a run are found: `construct_cps_dict` (cli.py:194-195, 213-217) looks for the chronology system in the list of functions
and makes its chronology and production function, which the plot set hands to the table of ages (Craterplotset.py:72-84, 655-735).
-/

namespace Verif.FunctionRun

open Verif.Py Verif.Text Verif.Rand Verif.Cli Verif.CountFile Verif.Cratercount Verif.Production Verif.Chronology Verif.FileAge Verif.PlotObject

/-- `e[k]` for a text; other values cannot be used as a name (simplification: an error already here) -/
def textField (e : TVal) (k : String) : Except Exc (List Char) := do
  match ← tget e k.toList with
  | .str s => .ok s
  | _ => .error .type

/-- the fields of a chronology system used at cli.py:194-195, 213-218.  Simplification: a system without one of them is an error even if it is not the one chosen. -/
def systemOf (e : TVal) : Except Exc System := do
  let name ← textField e "name"
  let cf ← textField e "cf"
  let pf ← textField e "pf"
  let body ← textField e "body"
  .ok ⟨name, cf, pf, body⟩

/-- cli.py:194, 213: `f['chronology_system']`; a single system is not a list but a dictionary, whose elements are its keys -/
def systemsOf (v : TVal) : Except Exc (List System) :=
  match sectionOf v "chronology_system".toList with
  | .many l => l.mapM systemOf
  | .single _ => .error .type
  | .absent => .error .key

noncomputable section

/-- cli.py:213-217; a production function of unknown type has no curves (Productionfn.py:42-69) -/
def systemFunctions (C : Classes) (v : TVal) (name : List Char) : Except Exc (Chron × PFn) := do
  let l ← systemsOf v
  match l.find? (fun s => s.name = name) with
  | none => .error .system
  | some s => do
    let c ← makeChronology C (.dict v) s.cf
    match ← makeProduction C (.dict v) s.pf false with
    | some f => .ok (c, f)
    | none => .error .attribute

/-- the attribute of a plot set as a number -/
def numberAttr (o : Attrs Opened) (k : String) : Except Exc ℝ :=
  match dictGet o k.toList with
  | some (.real q) => .ok (q : ℝ)
  | some (.num z) => .ok (z : ℝ)
  | some _ => .error .type
  | none => .error .attribute

/-- Craterplotset.py:655-735 for the plots of a run: the functions are those of the chronology system of the settings, the reference diameter and `mu` attributes
of the plot set.  `plotPF` gives the production function as `getplotdata` uses it. -/
def runTable (C : Classes) (v : TVal) (T : TableRow.Env) (plotPF : PFn → PF) (P : Prepared Opened (EReal × EReal)) : Except Exc (Option (List Char)) := do
  let name ← getStr P.settings "chronology_system"
  let f ← systemFunctions C v name
  let ref ← numberAttr P.set "ref_diameter"
  let mu ← numberAttr P.set "mu"
  TableRow.table { T with classes := C, chron := f.1, pf := f.2, plotPF := plotPF f.2, ref := ref, mu := decide (mu ≠ 0) } P.plots

end

end Verif.FunctionRun
