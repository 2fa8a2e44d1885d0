import Verif.Py.Regex
import Verif.Py.Str
import Verif.Py.Dict
import Verif.Py.Exc

/-! Model of `AppendPlotDict` (`/repo/src/craterstats/cli.py:19-31`). -/

namespace Verif.Cli

open Verif.Py

/-- cli.py:23: `,(?=\w+=)` -/
def reKeyComma (C : Classes) : Re := .seq (.lit ',') (.look (.seq (.some1 (.chr C.word)) (.lit '=')))

/-- cli.py:23-28: one item; unpacking anything but two parts raises, which is turned into an exit -/
def parseItem (kv : List Char) : Except Exc (List Char × List Char) :=
  match split '=' kv with
  | [k, v] => .ok (k, v)
  | _ => .error .system

/-- cli.py:20-28: the words after `-p` are joined by blanks; the result is a dictionary -/
def parsePlot (C : Classes) (values : List (List Char)) : Except Exc (List (List Char × List Char)) := do
  let items ← ((reKeyComma C).split (join [' '] values)).mapM parseItem
  .ok (items.foldl (fun d x => dictSet d x.1 x.2) [])

/-- cli.py:19-31: the dictionaries of successive `-p` options are collected in order -/
def appendPlot (C : Classes) (soFar : Option (List (List (List Char × List Char)))) (values : List (List Char)) :
    Except Exc (List (List (List Char × List Char))) := do
  let d ← parsePlot C values
  match soFar with
  | none => .ok [d]
  | some l => .ok (l ++ [d])

end Verif.Cli
