import Verif.Model.CommandLine
import Verif.Py.Decimal

/-!
Model of `src/craterstats/cli.py` `main` (483-548) and `demo` (363-376): what a command does, as a list of events.

The construction of the plots (cli.py:521-533) is a parameter giving the name of the output or an error; the effects of the single actions are
modelled elsewhere.
-/

namespace Verif.Cli

open Verif.Py

/-- what a command does -/
inductive Event
  | icon | userFunctions (path : List Char) | listSystems | listColours | about | version | merge (files : List Char) | demo
  | convert (format source : List Char)
  | figures (out : List Char)
  | saved (path content : List Char)
  deriving DecidableEq

/-- the attribute is set to something true: a flag, or a text which is not empty -/
def isSet (ns : List (List Char × List (List (List Char)))) (k : String) : Bool :=
  (dictGet ns k.toList).isSome && dictGet ns k.toList != some [[[]]]

/-- cli.py:35 `' '.join(values)` -/
def spaced (ns : List (List Char × List (List (List Char)))) (k : String) : List Char :=
  join [' '] (((dictGet ns k.toList).getD []).headD [])

/-- cli.py:538-540 the values of `--convert` -/
def convertEvent (ns : List (List Char × List (List (List Char)))) : Event :=
  match dictGet ns "convert".toList with
  | some [[a, b]] => .convert a b
  | _ => .convert [] []

/-- cli.py:485 `if not args0: args0=sys.argv[1:]` -/
def savedWords (argv : List (List Char)) (args0 : Option (List (List Char))) : List (List Char) :=
  match args0 with
  | some (w :: t) => w :: t
  | _ => argv

/-- cli.py:518-548: no request; `prepare` stands for cli.py:518-533 -/
def plotEvents (isdigit : Char → Bool) (prepare : CmdState → Except Exc (List Char)) (st : CmdState) (words : List (List Char)) :
    Except Exc (List Event) := do
  let out ← prepare st
  let cs ← csContent isdigit words
  if isSet st.ns "convert" then .ok [convertEvent st.ns]
  else .ok (.figures out :: if isSet st.ns "input" then [] else [.saved (out ++ ".cs".toList) cs])

/-- cli.py:487-548: the actions in the order in which `main` looks for them -/
def chooseEvents (isdigit : Char → Bool) (prepare : CmdState → Except Exc (List Char)) (st : CmdState) (words : List (List Char)) :
    Except Exc (List Event) :=
  if isSet st.ns "create_desktop_icon" then .ok [.icon]
  else if isSet st.ns "functions_user" then .ok [.userFunctions (spaced st.ns "functions_user")]
  else if isSet st.ns "lcs" then .ok [.listSystems]
  else if isSet st.ns "lpc" then .ok [.listColours]
  else if isSet st.ns "about" then .ok [.about]
  else if isSet st.ns "version" then .ok [.version]
  else if isSet st.ns "merge" then .ok [.merge (spaced st.ns "merge")]
  else if isSet st.ns "demo" then .ok [.demo]
  else plotEvents isdigit prepare st words

/-- cli.py:483-548 `main(args0)` in a process started with `argv` -/
def mainEvents (C : Classes) (isNeg : List Char → Bool) (isdigit : Char → Bool) (F : FileSys)
    (prepare : CmdState → Except Exc (List Char)) (depth : ℕ) (cwd : List Char) (argv : List (List Char))
    (args0 : Option (List (List Char))) : Except Exc (List Event) := do
  let st ← runCommand C isNeg F depth cwd (args0.getD argv)
  chooseEvents isdigit prepare st (savedWords argv args0)

/-- `f'{i:02d}'` -/
def pad2 (i : ℕ) : List Char := if i < 10 then '0' :: natStr i else natStr i

/-- cli.py:374 the arguments of the demonstration with number `i` -/
def demoWords (i : ℕ) (c : List Char) : Except Exc (List (List Char)) :=
  shlexSplit ("-o demo/".toList ++ pad2 i ++ "-demo ".toList ++ c)

end Verif.Cli
