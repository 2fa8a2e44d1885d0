import Verif.Py.Decimal
import Verif.Py.Regex
import Mathlib.Data.List.DropRight
import Verif.Py.Exc

/-!
Model of the number formatting in `/repo/src/craterstats/gm/string/` and of `str_age`
(`/repo/src/craterstats/miscellaneous.py:162-209`).  Numbers are rational (every double is); Python formats the exact value
of the double with rounding half to even.  Arithmetic before formatting (`age/1e-3`, `d*1000`) is exact here.
-/

namespace Verif.Text

open Verif.Py

/-- nearest integer, halves to even -/
def roundEven (q : ℚ) : ℕ :=
  let f := ⌊q⌋₊
  if q - f < 1 / 2 then f else if 1 / 2 < q - f then f + 1 else if f % 2 = 0 then f else f + 1

/-- digits and exponent of `f"{n:.{p}e}"`: the first component is the integer formed by the `p+1` digits -/
def sciRound (p : ℕ) (n : ℚ) : ℕ × ℤ :=
  if n = 0 then (0, 0) else
  let e := Int.log 10 |n|
  let m := roundEven (|n| * (10 : ℚ) ^ ((p : ℤ) - e))
  if m = 10 ^ (p + 1) then (10 ^ p, e + 1) else (m, e)

/-- exponent part: sign and at least two digits -/
def expStr (e : ℤ) : List Char :=
  (if e < 0 then '-' else '+') :: (if e.natAbs < 100 then fixDigits 2 e.natAbs else natStr e.natAbs)

/-- `d` or `d.ddd` -/
def mantStr (ds : List Char) : List Char :=
  match ds with
  | [] => []
  | [c] => [c]
  | c :: l => c :: '.' :: l

/-- `f"{n:.{p}e}"` -/
def sciStr (p : ℕ) (n : ℚ) : List Char :=
  (if n < 0 then ['-'] else []) ++ mantStr (fixDigits (p + 1) (sciRound p n).1) ++ 'e' :: expStr (sciRound p n).2

/-- sigfigs.py:13: `(?P<sign>-?)(?P<num>[\d\.]*)e(?P<exp>.*)` -/
def reSci (C : Classes) : Re :=
  .seq (.grp 1 (.opt (.lit '-'))) (.seq (.grp 2 (.many (.chr (fun c => C.digit c || c == '.'))))
    (.seq (.lit 'e') (.grp 3 (.many .dot))))

/-- sigfigs.py:7-29 for one number.  A digit count below 1 is rejected by the format specification.  `int` reads the
exponent. -/
def sigfigs (C : Classes) (n : ℚ) (digits : ℕ) : Except Exc (List Char) :=
  if digits = 0 then .error .value else
  match (reSci C).search (sciStr (digits - 1) n) with
  | none => .error .type
  | some (_, t) =>
    let sf := ((t.group 2).getD []).filter (· != '.')
    match intVal ((t.group 3).getD []) with
    | none => .error .value
    | some e =>
      let res :=
        if e < 0 then "0.".toList ++ List.replicate (e.natAbs - 1) '0' ++ sf
        else if e < (digits : ℤ) - 1 then sf.take (e + 1).toNat ++ '.' :: sf.drop (e + 1).toNat
        else if e < (digits : ℤ) - 1 then sf
        else sf ++ List.replicate (e - digits + 1).toNat '0'
      .ok ((t.group 1).getD [] ++ res)

/-- diameter_range.py:7-25; the upper limit is `none` if infinite -/
def diameterRange (C : Classes) (d0 : ℚ) (d1 : Option ℚ) (sf : ℕ) : Except Exc (List Char) :=
  match d1 with
  | none => .ok "unconstrained".toList
  | some d1 =>
    if 1 ≤ d1 then do
      .ok ((← sigfigs C d0 sf) ++ ['–'] ++ (← sigfigs C d1 sf) ++ " km".toList)
    else do
      .ok ((← sigfigs C (d0 * 1000) sf) ++ ['–'] ++ (← sigfigs C (d1 * 1000) sf) ++ " m".toList)

/-- `f'{v:g}'`, in general with precision `P + 1`: exponential notation outside `1e-4 .. 10^(P+1)`, trailing zeros removed -/
def gStr (P : ℕ) (v : ℚ) : List Char :=
  let m := (sciRound P v).1
  let e := (sciRound P v).2
  let ds := fixDigits (P + 1) m
  let zeros (l : List Char) : List Char := l.rdropWhile (· == '0')
  let body :=
    if -4 ≤ e ∧ e < (P : ℤ) + 1 then
      let x : List Char × List Char :=
        if e < 0 then (['0'], List.replicate (e.natAbs - 1) '0' ++ ds) else (ds.take (e + 1).toNat, ds.drop (e + 1).toNat)
      if zeros x.2 = [] then x.1 else x.1 ++ '.' :: zeros x.2
    else
      let x := (ds.take 1, zeros (ds.drop 1))
      (if x.2 = [] then x.1 else x.1 ++ '.' :: x.2) ++ 'e' :: expStr e
  (if v < 0 then ['-'] else []) ++ body

/-- miscellaneous.py:178-179: sizes (in Ga) and names of the units -/
def ageUnits : List (ℚ × List Char) :=
  [(1, "Ga".toList), (1 / 1000, "Ma".toList), (1 / 1000000, "ka".toList), (1 / 1000000000, "a".toList)]

/-- miscellaneous.py:181-184; a missing unit raises `StopIteration` (here `.value`) -/
def ageUnit (age : ℚ) (unit : Option (List Char)) : Except Exc (ℚ × List Char) :=
  match (match unit with
    | some u => ageUnits.find? (fun x => x.2 == u)
    | none => ageUnits.find? (fun x => decide (x.1 ≤ age) || x.2 == "a".toList)) with
  | some x => .ok x
  | none => .error .value

/-- miscellaneous.py:162-209 -/
def strAge (C : Classes) (age e1 e2 : ℚ) (sf : ℕ) (unit : Option (List Char)) (simple noError mu mathML : Bool) :
    Except Exc (List Char) := do
  let a ← ageUnit age unit
  let v := age / a.1
  let st ← if simple then (.ok (gStr 5 v)) else sigfigs C v sf
  let st ← if 0 < e1 && !noError then do
      let e1s ← sigfigs C (e1 / a.1) (sf - 1)
      let e2s ← sigfigs C (e2 / a.1) (sf - 1)
      if mathML then .ok ("<msubsup><mtext>".toList ++ st ++ "</mtext><mtext>&#x2212;".toList ++ e2s ++
        "</mtext><mtext>+".toList ++ e1s ++ "</mtext></msubsup>".toList)
      else .ok (st ++ "^{+".toList ++ e1s ++ "}_{-".toList ++ e2s ++ "}".toList)
    else .ok st
  if simple then .ok (st ++ ' ' :: a.2)
  else if mathML then .ok ("<math xmlns=\"http://www.w3.org/1998/Math/MathML\">".toList ++
    (if mu then "<mi>&#956;</mi>".toList else []) ++ st ++ "<mtext>&#8239;".toList ++ a.2 ++ "</mtext></math>".toList)
  else .ok ('$' :: (if mu then "𝜇".toList else []) ++ st ++ "$ ".toList ++ a.2)

end Verif.Text
