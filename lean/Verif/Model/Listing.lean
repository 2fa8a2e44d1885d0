import Verif.Model.FunctionRun
import Verif.Model.Main
import Verif.Model.PlotDicts

/-!
Model of what the options `-lcs`, `-lpc`, `-about` and `-v` write on the screen: `Functionslist.print` (src/craterstats/miscellaneous.py:95-102),
`list_symbols_and_colours` and `print_with_highlights` (src/craterstats/cli.py:470-481), chosen by `main` (cli.py:496-510).

Simplification: if a list cannot be printed to its end, the lines printed before the error are not part of the result.
-/

namespace Verif.Cli

open Verif.Py Verif.Text Verif.FunctionRun

/-- gm/string/bright.py:14 with colorama's `Style.BRIGHT` and `Style.RESET_ALL` -/
def bright (t : List Char) : List Char := "\x1b[1m".toList ++ (t ++ "\x1b[0m".toList)

/-- the texts printed one after the other with `print`, which ends each with a line end -/
def printAll (l : List (List Char)) : List Char := (l.map (fun t => t ++ ['\n'])).flatten

/-- miscellaneous.py:97, 99, 101 `[f'{e['name']}' for e in self.functions[kind]]`; the elements of a single definition are its keys, which have no `name` -/
def namesIn (v : TVal) (kind : String) : Except Exc (List (List Char)) :=
  match sectionOf v kind.toList with
  | .many l => l.mapM (fun e => textField e "name")
  | .single _ => .error .type
  | .absent => .error .key

/-- miscellaneous.py:95-102 -/
def printFunctions (v : TVal) : Except Exc (List Char) := do
  let systems ← namesIn v "chronology_system"
  let equilibria ← namesIn v "equilibrium"
  let epochs ← namesIn v "epochs"
  .ok (printAll [bright "\nChronology systems:".toList, join ['\n'] systems, bright "\nEquilibrium functions:".toList, join ['\n'] equilibria,
    bright "\nEpoch systems:".toList, join ['\n'] epochs])

/-- cli.py:477-481 -/
def printSymbols : List Char :=
  printAll [bright "\nPlot symbols:".toList, join ", ".toList (markers.map (fun e => e.2 ++ (" (".toList ++ (e.1 ++ [')'])))),
    bright "\nColours:".toList, join ", ".toList paletteNames]

/-- cli.py:470-475 -/
def printHighlights (lines : List (List Char)) : List Char :=
  printAll (lines.map (fun line => match line with
    | '*' :: t => bright t
    | line => line))

/-- cli.py:496-510: what is printed for a request; `about` are the lines of constants.py `ABOUT` -/
def requestOutput (v : TVal) (about : List (List Char)) : Event → Except Exc (List Char)
  | .listSystems => printFunctions v
  | .listColours => .ok printSymbols
  | .about => .ok (printHighlights about)
  | .version => .ok (printHighlights (about.take 5))
  | _ => .ok []

end Verif.Cli
