import Verif.Model.Lookup
import Verif.Model.TextStructure

/-!
Model of the list of functions: `src/craterstats/miscellaneous.py` `Functionslist` (65-102) and its use by `main` (cli.py:491-494).

Files are given by a map from paths to contents (`none`: there is no such file, or it cannot be read).  Printing is not modelled.
-/

namespace Verif.Cli
open Verif.Py Verif.Text

/-- the files: the list of functions which comes with the program, and all others -/
structure Disk where
  builtin : List Char
  file : List Char → Option (List Char)

/-- `gm.read_textfile(f, ignore_hash=True, strip=';', as_string=True)` -/
def functionText (C : Classes) (file : List Char) : List Char := join ['\n'] (readTextfile C none false true true file)

/-- miscellaneous.py:69-79; `config` is the path of the file which holds the path of the list of the user, if the environment allows
one (82-88).  The message for an unreadable list names an undefined variable (`NameError`); a file without lines has no first one
(`IndexError`). -/
def loadFunctions (C : Classes) (config : Option (List Char)) (d : Disk) : Except Exc TVal :=
  let s := functionText C d.builtin
  match config with
  | none => readStructure C s
  | some c =>
    match d.file c with
    | none => readStructure C s
    | some content =>
      match readTextfile C none false true false content with
      | [] => .error .index
      | [] :: _ => readStructure C s
      | uf :: _ =>
        match d.file uf with
        | some u => readStructure C (s ++ functionText C u)
        | none => .error .name

/-- miscellaneous.py:90-94 with cli.py:491-494: the functions are loaded before the new path is stored.  Without configuration
file `open(None)` is a TypeError. -/
def setUserFunctions (C : Classes) (linesep : List Char) (config : Option (List Char)) (d : Disk) (path : List Char) :
    Except Exc Disk := do
  let _ ← loadFunctions C config d
  match config with
  | none => .error .type
  | some c =>
    .ok { d with file := fun f => if f = c then some (writeTextfile linesep false ["#path to functions_user.txt".toList, path]) else d.file f }

/-- the definitions of one kind (`functions['chronology']` etc.) -/
def sectionOf (v : TVal) (kind : List Char) : Sect TVal :=
  match v with
  | .dict d => match dictGet d kind with
    | some (.list l) => .many l
    | some x => .single x
    | none => .absent
  | _ => .absent

/-- `e['name']` -/
def nameOf (e : TVal) : Option (List Char) :=
  match e with
  | .dict d => match dictGet d "name".toList with
    | some (.str s) => some s
    | _ => none
  | _ => none

end Verif.Cli
