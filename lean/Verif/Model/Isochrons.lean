import Verif.Py.Str

/-! Model of the isochron list of `plot_isochrons` (`/repo/src/craterstats/Craterplotset.py:562-568`). -/

namespace Verif.Cli

open Verif.Py

variable {F : Type}

/-- one isochron to be drawn: age, label hidden, label above, label small -/
structure Isochron (F : Type) where
  age : F
  hide : Bool
  above : Bool
  small : Bool
  deriving DecidableEq

def isSuffix (c : Char) : Bool := c == 'a' || c == 's' || c == 'h'

/-- Craterplotset.py:564-568: one item; `parse` is `float` (`none` for a `ValueError`), `absF` is `abs` -/
def isochronItem (parse : List Char → Option F) (absF : F → F) (e : List Char) : Option (Isochron F) :=
  (parse (rstrip isSuffix e)).map (fun v => ⟨absF v, 'h' ∈ e, 'a' ∈ e, 's' ∈ e⟩)

/-- Craterplotset.py:562-568: the list; items which are not numbers are passed over -/
def parseIsochrons (parse : List Char → Option F) (absF : F → F) (s : List Char) : List (Isochron F) :=
  (split ',' s).filterMap (isochronItem parse absF)

end Verif.Cli
