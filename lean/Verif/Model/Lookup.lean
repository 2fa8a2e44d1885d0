import Verif.Py.Exc
import Mathlib.Data.List.Basic

/-!
Model of the lookup of function definitions: `/repo/src/craterstats/Productionfn.py:28-30`, `Chronologyfn.py:39-41`,
`Epochs.py:28-30`.
-/

namespace Verif.Cli

open Verif.Py

/-- `src[key]` for a text structure: absent, one definition (a dictionary), or a list of definitions -/
inductive Sect (δ : Type)
  | absent
  | single (d : δ)
  | many (l : List δ)

variable {δ : Type}

/-- `next((e for e in l if e['name']==identifier), None)`; a definition without name is a KeyError -/
def scanDefs (name : δ → Option (List Char)) (id : List Char) : List δ → Except Exc (Option δ)
  | [] => .ok none
  | e :: l => match name e with
    | none => .error .key
    | some n => if n = id then .ok (some e) else scanDefs name id l

/-- Productionfn.py:28-30, Chronologyfn.py:39-41, Epochs.py:28-30.  Iterating over a single definition yields its keys,
so that `e['name']` is a TypeError; a definition has at least one key. -/
def lookupDef (name : δ → Option (List Char)) (s : Sect δ) (id : List Char) : Except Exc δ :=
  match s with
  | .absent => .error .key
  | .single _ => .error .type
  | .many l => do
    match ← scanDefs name id l with
    | some e => .ok e
    | none => .error .value

end Verif.Cli
