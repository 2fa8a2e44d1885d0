import Verif.Model.Main
import Verif.Model.PlotObject

/-!
Model of `src/craterstats/cli.py` `main` (518-533): from the options of a command to the plot set and its plots.  The parts are modelled in
`Settings`, `PlotSpec`, `PlotDicts` and `PlotObject`; here they are put together.
-/

namespace Verif.Cli

open Verif.Py Verif.PlotObject

/-- the parsed options, `vars(args)`.  The default of `store_true` options is False instead of None; of these only `bins` is looked at in
`construct_cps_dict`, where False is the default setting as well (constants.py:60). -/
def argsOf (C : Classes) (ns : List (List Char × List (List (List Char)))) : Args := fun k =>
  match dictGet ns k with
  | some [values] => match optionValue C k values with
    | .ok v => some v
    | .error _ => none
  | _ => none

/-- what a run takes from outside; relative paths are those of the current directory.  `load` is `cst.Cratercount`, `floatText` the text of
a number, `palette` the names of the colours for a light and a dark background (Craterplotset.py:67) -/
structure RunEnv (α R : Type) where
  set : SetEnv
  path : List Char
  isabs : List Char → Bool
  load : List Char → Except Exc α
  floatText : ℚ → List Char
  fileOf : α → List Char
  decode : α → Val α → Val α → Val α → Except Exc R
  palette : Bool → List (List Char)

variable {α R : Type}

/-- cli.py:298, 419: the file of the command, if there is one -/
def inputFile (ns : List (List Char × List (List (List Char)))) : Option (List Char) :=
  if isSet ns "input" then some (spaced ns "input_filename") else none

/-- cli.py:243 `args.plot` -/
def plotSpecs (C : Classes) (ns : List (List Char × List (List (List Char)))) : Except Exc (Option (List (List (List Char × List Char)))) :=
  match dictGet ns "plot".toList with
  | none => .ok none
  | some l => (l.mapM (parsePlot C)).map some

/-- the settings of a plot set as attributes -/
def settingVal : SVal → Val α
  | .none => .none
  | .num q => .real q
  | .str s => .str s
  | .strs l => .strs l
  | .pair a b => .reals [a, b]

/-- the properties of a plot as attributes -/
def plotVal : PVal → Val α
  | .none => .none
  | .num z => .num z
  | .str s => .str s
  | .strs l => .strs l

/-- cli.py:529-530: a colour given by its number becomes that of the palette; Python counts negative numbers from the end, which do not
occur -/
def plotColour (palette : List (List Char)) (d : PDict) : Except Exc PDict :=
  match dictGet d "colour".toList with
  | some (.num z) => do .ok (dictSet d "colour".toList (.str (← pick palette z)))
  | _ => .ok d

/-- the text of a setting of a plot, empty if it is none -/
def plotText (d : PDict) (k : String) : List Char :=
  match dictGet d k.toList with
  | some (.str s) => s
  | _ => []

/-- cli.py:425 the text of `min_diameter` -/
def minText (E : RunEnv α R) (c : SDict) : List Char :=
  match dictGet c "min_diameter".toList with
  | some (.num q) => E.floatText q
  | _ => []

/-- the result: the settings, the attributes of the plot set, and of each plot with its range of diameters -/
structure Prepared (α R : Type) where
  settings : SDict
  set : Attrs α
  plots : List (Attrs α × R)

/-- cli.py:529-531 one plot -/
def makePlot (E : RunEnv α R) (dark : Bool) (x : PDict × α) : Except Exc (Attrs α × R) := do
  let d ← plotColour (E.palette dark) x.1
  create ⟨E.set.classes, E.load, E.fileOf, E.decode⟩ [d.map (fun y => (y.1, plotVal y.2)) ++ [("cratercount".toList, .count x.2)]] []

/-- cli.py:518-533 -/
def prepareRun (E : List Char → RunEnv α R) (st : CmdState) : Except Exc (Prepared α R) := do
  let e := E st.cwd
  let c ← constructSettings e.set (argsOf e.set.classes st.ns)
  let p ← getStr c "presentation"
  let specs ← plotSpecs e.set.classes st.ns
  let ds ← constructPlotDicts ⟨e.set.classes, e.set.lower, e.path, e.isabs, inputFile st.ns, p == "sequence".toList, e.load⟩ specs
  let c ← setDefaultName e.set (inputFile st.ns) (minText e c) (ds.map (fun x => plotText x.1 "source")) c
  let c ← legendStep c (ds.map (fun x => plotText x.1 "type"))
  let s ← createSet [c.map (fun y => (y.1, settingVal y.2))] []
  let plots ← ds.mapM (makePlot e s.2.2)
  .ok ⟨c, s.1, plots⟩

end Verif.Cli
