import Verif.Py.Regex
import Mathlib.Data.List.Sort

/-! Model of `ra_decode_selection` (`/repo/src/craterstats/miscellaneous.py:227-234`). -/

namespace Verif.Text

open Verif.Py

/-- value of a string of decimal digits -/
def digitsVal (C : Classes) (ds : List Char) : ℕ := ds.foldl (fun n c => 10 * n + C.dval c) 0

/-- `int(s)` for a string of an optional sign and decimal digits (the pattern below hands over nothing else) -/
def intOf (C : Classes) (s : List Char) : ℤ :=
  match s with
  | '-' :: ds => -(digitsVal C ds : ℤ)
  | '+' :: ds => digitsVal C ds
  | ds => digitsVal C ds

/-- miscellaneous.py:233: `(?:^|,)\s*([+-]?\d+)\s*(?=,|$)` -/
def reSel (C : Classes) : Re :=
  .seq (.alt (.bol false) (.lit ',')) (.seq (.many (.chr C.space))
    (.seq (.grp 1 (.seq (.opt (.chr (fun c => c == '+' || c == '-'))) (.some1 (.chr C.digit))))
      (.seq (.many (.chr C.space)) (.look (.alt (.lit ',') (.eol false))))))

/-- miscellaneous.py:227-234; `s` is `None` if the option is absent.  `sorted` of integers. -/
def raDecodeSelection (C : Classes) (s : Option (List Char)) : Option (List ℤ) :=
  match s with
  | none => none
  | some [] => none
  | some l => some ((((reSel C).findAll l).map (fun m => intOf C ((m.2.group 1).getD []))).insertionSort (· ≤ ·))

end Verif.Text
