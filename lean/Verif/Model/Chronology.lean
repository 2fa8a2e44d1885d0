import Verif.Model.Cratercount
import Mathlib.Analysis.SpecialFunctions.Exp

/-!
Model of `src/craterstats/Chronologyfn.py`.

Simplifications: exact reals; only the `'coeff'` model exists in the code (the `n1_code` variant is commented out,
lines 46-56), a definition without `coefficients` raises `AttributeError` in line 59 and is not represented;
`10**a0` of an infinite `a0` is not represented.
-/

namespace Verif.Chronology
open Verif.Py Verif.Cratercount

noncomputable section

/-- Chronologyfn.py:43-45, 58-59: the attributes `p`, `ts`, `n1s` -/
structure Chron where
  p : List ℝ
  ts : List ℝ
  n1s : List ℝ

/-- Chronologyfn.py:14-15 `n1_coeff` for given `p[0], p[1], p[3]` -/
def n1Coeff (p0 p1 p3 t : ℝ) : ℝ := p0 * (Real.exp (p1 * t) - 1) + p3 * t

/-- Chronologyfn.py:17-18 `phi_coeff` -/
def phiCoeff (p0 p1 p3 t : ℝ) : ℝ := p1 * p0 * Real.exp (p1 * t) + p3

/-- Chronologyfn.py:14-18: the index expressions `p[0]`, `p[1]`, `p[3]` (IndexError for shorter lists) -/
def coeffs (p : List ℝ) : Except Err (ℝ × ℝ × ℝ) :=
  match p[0]?, p[1]?, p[3]? with
  | some a, some b, some c => .ok (a, b, c)
  | _, _, _ => .error .index

/-- Chronologyfn.py:22-59 `__init__`, from the list of coefficients on -/
def init (p : List ℝ) : Except Err Chron := do
  let (p0, p1, p3) ← coeffs p
  let ts := linspace 0 5 1000
  .ok { p := p, ts := ts, n1s := ts.map (n1Coeff p0 p1 p3) }

/-- Chronologyfn.py:64-67 `N1` -/
def Chron.N1 (c : Chron) (t : ℝ) : Except Err ℝ := do
  let (p0, p1, p3) ← coeffs c.p
  .ok (n1Coeff p0 p1 p3 t)

/-- Chronologyfn.py:69-70 `a0` (numpy: `log10` of a non-positive number is `-inf`/`nan`) -/
def Chron.a0 (c : Chron) (t : ℝ) : Except Err ℝ := do
  let n ← c.N1 t
  if 0 < n then .ok (log10 n) else .error .nonFinite

/-- Chronologyfn.py:72-75 `phi` -/
def Chron.phi (c : Chron) (t : ℝ) : Except Err ℝ := do
  let (p0, p1, p3) ← coeffs c.p
  .ok (phiCoeff p0 p1 p3 t)

/-- Chronologyfn.py:80-85 `t(a0=None, n1=None)`: a given `a0` takes precedence over `n1`; without any argument
`np.interp(None, ..)` raises TypeError (here `.domain`). -/
def Chron.t (c : Chron) (a0 n1 : Option ℝ) : Except Err ℝ :=
  match a0, n1 with
  | some a, _ => .ok (interp c.n1s c.ts ((10 : ℝ) ^ a))
  | none, some n => .ok (interp c.n1s c.ts n)
  | none, none => .error .domain

/-- Chronologyfn.py:87-91 `getplotdata` -/
def Chron.getplotdata (c : Chron) (phi linear : Bool) : Except Err (List ℝ × List ℝ) := do
  let t := if linear then linspace 0 5 1000 else (linspace (-9) (log10 5) 1000).map (fun x => (10 : ℝ) ^ x)
  let y ← t.mapM (fun x => if phi then c.phi x else c.N1 x)
  .ok (t, y)

end

end Verif.Chronology
