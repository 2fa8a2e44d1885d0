import Verif.Model.Scc

/-!
Model of `scientific_notation` and `percentile_sigfigs` (`/repo/src/craterstats/gm/string/`).  Numbers are rational; the arithmetic
before formatting and the comparison of the logarithm with integers are exact.
-/

namespace Verif.Text

open Verif.Py

/-- scientific_notation.py:21-25: the unit as text of the two notations; another unit is a KeyError -/
def notationUnit (unit : Option (List Char)) : Except Exc (List Char × List Char) :=
  match unit with
  | none => .ok ([], [])
  | some u =>
    if u = "km-2".toList then .ok ("$ km$^{-2}".toList, "<msup><mtext>&#8239;km</mtext><mtext>-2</mtext></msup>".toList)
    else if u = "km2".toList then .ok ("$ km$^{2}".toList, "<msup><mtext>&#8239;km</mtext><mtext>2</mtext></msup>".toList)
    else .error .key

/-- scientific_notation.py:27-34: the number shown and the power of ten.  `-2 < log10(abs(v)) < 4` is stated for `abs(v)`. A digit count
below 1 is rejected by the format specification. -/
def notationNumber (C : Classes) (v : ℚ) (sf : ℕ) (force : Bool) : Except Exc (List Char × ℤ) :=
  if v = 0 ∨ ((1 / 100 < |v| ∧ |v| < 10000) ∧ force = false) then do
    let st ← sigfigs C v sf
    .ok (st, 0)
  else if sf = 0 then .error .value
  else
    match split 'e' (sciStr (sf - 1) v) with
    | s0 :: s1 :: _ =>
      match intVal s1 with
      | some e => .ok (s0, e)
      | none => .error .value
    | _ => .error .index

/-- scientific_notation.py:8-51 -/
def scientificNotation (C : Classes) (v : ℚ) (e1 : Option ℚ) (e2 : ℚ) (sf : ℕ) (force mathML : Bool) (unit : Option (List Char)) :
    Except Exc (List Char) := do
  let u ← notationUnit unit
  let x ← notationNumber C v sf force
  let st ← match e1 with
    | none => .ok x.1
    | some e1 => do
      let e1s ← sigfigs C ((e1 - v) / (10 : ℚ) ^ x.2) (sf - 1)
      let e2s ← sigfigs C ((v - e2) / (10 : ℚ) ^ x.2) (sf - 1)
      if mathML then
        .ok ("<msubsup><mtext>".toList ++ x.1 ++ "</mtext><mtext>&#x2212;".toList ++ e2s ++ "</mtext><mtext>+".toList ++ e1s ++
          "</mtext></msubsup>".toList)
      else .ok (x.1 ++ ("^{+".toList ++ e1s ++ "}_{-".toList ++ e2s ++ "}".toList))
  if mathML then
    .ok ("<math xmlns=\"http://www.w3.org/1998/Math/MathML\">".toList ++ st ++
      (if x.2 = 0 then [] else "<mo>&#183;</mo><msup><mtext>10</mtext><mtext>".toList ++ intStr x.2 ++ "</mtext></msup>".toList) ++
      u.2 ++ "</math>".toList)
  else
    .ok ("$".toList ++ st ++ (if x.2 = 0 then [] else "\\cdot10^{".toList ++ intStr x.2 ++ "}".toList) ++ u.1 ++ "$".toList)

/-- `f"{q:.{k}f}"`: without decimals there is no point -/
def fixedStr (k : ℕ) (q : ℚ) : List Char :=
  if k = 0 then (if q < 0 then ['-'] else []) ++ natStr (roundEven |q|) else Scc.fixStr k q

/-- percentile_sigfigs.py:6-18.  A digit count of 0 is treated like 1 by the format `g`. -/
def percentileSigfigs (p : ℚ) (sf : ℕ) : List Char :=
  if p < 50 then gStr (sf - 1) p
  else
    let digits := (gStr (sf - 1) (100 - p)).length
    fixedStr (digits - 2) p

end Verif.Text
