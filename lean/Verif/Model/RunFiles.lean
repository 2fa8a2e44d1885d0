import Verif.Model.Output
import Verif.Model.Randomness
import Verif.Model.Run
import Verif.Model.Selection

/-!
Model of the end of `main` (`/repo/src/craterstats/cli.py:534-541`): from the options of a command to the files it writes.  Puts together
`Run` (the settings), `Output` (the files) and `Randomness` (the order of computing), and models how a randomness analysis gets its
number of trials and its measures (401-416).
-/

namespace Verif.Cli

open Verif.Py Verif.Rand Verif.Output Verif.Text

/-- what the writing of the files takes from outside: the order in which a set of texts is traversed, whether a plot has an age for the
table, the name of a count (Spatialcount.py:29, 39) and the place of earlier results beside it (Randomnessanalysis.py:440), the results of the
trials of an analysis, and the files of earlier results -/
structure OutEnv (α R D : Type) where
  order : List (List Char) → List (List Char)
  hasAges : Prepared α R → Bool
  raName : List Char → List Char
  raBeside : List Char → List Char
  compute : ℕ → List Char → ℕ → D
  found : List Char → Option (Results (List Char) D)

variable {α R D : Type}

/-- cli.py:405 `args.trials if args.trials else cps.trials` -/
def raTrials (args : Args) (c : SDict) : Except Exc ℤ :=
  let own : Except Exc ℤ := match dictGet c "trials".toList with
    | some (.num q) => .ok q.num
    | _ => .error .attribute
  match args "trials".toList with
  | some (.num q) => if q = 0 then own else .ok q.num
  | _ => own

/-- cli.py:406-410 -/
def raCheck (args : Args) : Except Exc Unit :=
  match args "measure".toList with
  | some (.str s) =>
    if s = [] then .ok ()
    else if (split ',' s).all (fun m => m ∈ ["m2cnd".toList, "sdaa".toList]) then .ok () else .error .system
  | _ => .ok ()

/-- a set of texts among the settings -/
def getSet (c : SDict) (k : String) : Except Exc (List (List Char)) :=
  match dictGet c k.toList with
  | some (.strs l) => .ok l
  | _ => .error .attribute

/-- cli.py:401-416, what goes wrong before the first measure.  An unknown measure (of `-measure ""`) is an error when it is evaluated, and a
negative number of trials gives no trials to take a mean of. -/
def raPrepare (args : Args) (c : SDict) : Except Exc ℕ := do
  let t ← raTrials args c
  raCheck args
  let ms ← getSet c "measure"
  if [] ∈ ms then .error .unbound else if t < 0 then .error .nonFinite else .ok t.toNat

/-- cli.py:447 the selection is `[0]` -/
def overviewOf (C : Classes) (args : Args) : Bool :=
  match args "select".toList with
  | some (.str s) => raDecodeSelection C (some s) == some [0]
  | _ => false

/-- cli.py:434-468, 534-541.  When the analysis stops with an error, the files written before are not modelled. -/
def writeRun (E : List Char → RunEnv α R) (O : OutEnv α R D) (st : CmdState) (P : Prepared α R) :
    Except Exc (St (Results (List Char) D)) := do
  let e := E st.cwd
  let args := argsOf e.set.classes st.ns
  let out ← getStr P.settings "out"
  let fs ← getSet P.settings "format"
  let ms ← getSet P.settings "measure"
  let p ← getStr P.settings "presentation"
  let ra := isSet st.ns "randomness_analysis"
  let src := csSource e.path (spaced st.ns "randomness_analysis")
  let t ← if ra && fs.any (fun f => f ∈ Output.imageFormats) then raPrepare args P.settings else .ok 0
  output e.set.classes (fun k found => (session (O.compute k) t (O.order ms) (found.getD [])).1) O.found
    ⟨out, O.order fs, if ra then some (O.raName src, O.raBeside src) else none, overviewOf e.set.classes args, O.order ms,
      p == "uncertainty".toList, O.hasAges P, isSet st.ns "input"⟩

end Verif.Cli
