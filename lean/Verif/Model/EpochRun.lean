import Verif.Model.Epochs
import Verif.Model.FunctionRun

/-!
Model of the making of an epoch system from its definition, with all its parts (`src/craterstats/Epochs.py` `__init__` 17-44), and of the choice of the
epoch system and the equilibrium function of a command (`src/craterstats/cli.py:222-225`).

Simplifications: exact numbers; names of epochs and formatting codes which are not texts are an error already here.
-/

namespace Verif.EpochRun

open Verif.Py Verif.Text Verif.Rand Verif.Cli Verif.Epochs Verif.PlotObject
open Verif.CountFile Verif.Cratercount Verif.Chronology Verif.Production Verif.FileAge Verif.FunctionRun

noncomputable section

/-- Epochs.py:32-36, 42-44 -/
structure EpochSystem where
  name : List Char
  epoch : List (List Char)
  formatting : List (List Char)
  time : List ℝ

/-- the texts of a list -/
def textElems (v : TVal) : Except Exc (List (List Char)) := do
  (← telems v).mapM (fun x => match x with
    | .str s => .ok s
    | _ => .error .type)

/-- Epochs.py:17-44 -/
def makeEpochs (C : Classes) (src : FunctionSource) (id : List Char) (pf : PFn) (cf : CurveFit) (c : Chron) : Except Exc EpochSystem := do
  match ← definitionOf C "epochs".toList src id with
  | .dict d => do
    let epoch ← textElems (← tget (.dict d) "epoch".toList)
    let formatting ← textElems (← tget (.dict d) "formatting".toList)
    let r ← optField d "ref_diameter".toList tint
    let n ← optField d "density".toList tfloat
    let t ← optField d "time".toList tfloat
    let _ ← tget (.dict d) "reference".toList
    match times pf cf c ⟨r, n, t⟩ with
    | .ok time => .ok ⟨id, epoch, formatting, time⟩
    | .error _ => .error .nonFinite
  | _ => .error .type

/-- cli.py:222, 224: `k in c and c[k] not in (None,'')` -/
def optionalName (s : SDict) (k : String) : Option (List Char) :=
  match dictGet s k.toList with
  | some (.str n) => if n = [] then none else some n
  | _ => none

/-- cli.py:213-217, 224-225: the epoch system of a command, with the functions of its chronology system -/
def runEpochs (C : Classes) (v : TVal) (cf : CurveFit) (P : Prepared Opened (EReal × EReal)) : Except Exc (Option EpochSystem) := do
  let name ← getStr P.settings "chronology_system"
  let f ← systemFunctions C v name
  match optionalName P.settings "epochs" with
  | none => .ok none
  | some n => do .ok (some (← makeEpochs C (.dict v) n f.2 cf f.1))

/-- cli.py:222-223: the equilibrium function of a command; one of unknown type has no curves (Productionfn.py:42-69) -/
def runEquilibrium (C : Classes) (v : TVal) (P : Prepared Opened (EReal × EReal)) : Except Exc (Option PFn) :=
  match optionalName P.settings "equilibrium" with
  | none => .ok none
  | some n => do
    match ← makeProduction C (.dict v) n true with
    | some f => .ok (some f)
    | none => .error .attribute

end

end Verif.EpochRun
