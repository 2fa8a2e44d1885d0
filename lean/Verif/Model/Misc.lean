import Verif.Py.Exc
import Verif.Model.Cratercount
import Mathlib.Analysis.SpecialFunctions.Trigonometric.Inverse
import Mathlib.Algebra.Order.Floor.Ring
import Mathlib.Data.Sign.Basic

/-!
Model of small numeric helpers: `src/craterstats/gm/maths/range.py`, `src/craterstats/gm/maths/scl.py`,
`src/craterstats/gm/misc/iterator_with_progress.py`, and from `src/craterstats/miscellaneous.py`
`fractional_crater_transform`, `n_sigma_scaling`.
-/

namespace Verif.Misc
open Verif.Py Verif.Cratercount

noncomputable section

/-! ### gm.range, gm.mag -/

/-- what `gm.range` returns: a pair, a number, the pair `(nan, nan)` or the number `nan` -/
inductive RangeResult
  | pair (mn mx : ℝ)
  | number (m : ℝ)
  | nanPair
  | nan

/-- `np.min` of a non-empty vector -/
def minOf : ℝ → List ℝ → ℝ := List.foldl min
/-- `np.max` of a non-empty vector -/
def maxOf : ℝ → List ℝ → ℝ := List.foldl max

/-- range.py:6-28.  Line 16 `return np.nan if magnitude else np.nan,np.nan` is parsed by Python as the pair
`((np.nan if magnitude else np.nan), np.nan)`. -/
def range (x : List ℝ) (magnitude outer : Bool) : RangeResult :=
  match x with
  | [] => .nanPair
  | a :: l =>
    let mn := minOf a l
    let mx := maxOf a l
    let mn := if outer then (⌊mn⌋ : ℝ) else mn
    let mx := if outer then (⌈mx⌉ : ℝ) else mx
    if magnitude then .number (mx - mn) else .pair mn mx

/-- range.py:31-32 -/
def mag (x : List ℝ) (outer : Bool) : RangeResult := range x true outer

/-! ### gm.scl -/

/-- `tname` argument -/
inductive TName
  | uint16 | int16 | byte | other
  deriving DecidableEq

/-- the element type a result array is converted to: a float type, or an integer type (truncation toward 0;
wrap-around of values not representable in the type is not modelled) -/
inductive DType
  | float | int
  deriving DecidableEq

/-- `np.array(out, dtype=...)` -/
def DType.cast : DType → ℝ → ℝ
  | .float, v => v
  | .int, v => if 0 ≤ v then (⌊v⌋ : ℝ) else (⌈v⌉ : ℝ)

/-- scl.py:7-51.  `xType` and `outType` are the Python types of `x[0]` and `out_range[0]`.  Single precision of
`np.float32` is not modelled, so `double` plays no role.  `mx = mn` gives nan: error.  The unbound variable `dtype`
(line 51, when a `tname` comes together with an `out_range`, or with an unknown name) is the error `unbound`. -/
def scl (x : List ℝ) (xType : DType) (inRange : Option (ℝ × ℝ)) (outRange : Option ((ℝ × ℝ) × DType))
    (tname : Option TName) : Except Exc (List ℝ) :=
  match x with
  | [] => .error .value
  | a :: l =>
    let dtype0 : Option DType :=
      match tname with
      | none => some (match outRange with | none => xType | some (_, t) => t)
      | some _ => none
    let mn := match inRange with | none => minOf a l | some r => r.1
    let mx := match inRange with | none => maxOf a l | some r => r.2
    let (dtype, out) : Option DType × (ℝ × ℝ) :=
      match outRange with
      | some (r, _) => (dtype0, r)
      | none =>
        match tname with
        | some .uint16 => (some .int, (0, 65536 - 0.01))
        | some .int16 => (some .int, (-32768, 32768 - 0.01))
        | some .byte => (some .int, (0, 256 - 0.00001))
        | _ => (dtype0, (0, 100 - 0.00001))
    if mx - mn = 0 then .error .nonFinite
    else
      let y := (a :: l).map (fun v => clip ((v - mn) / (mx - mn)) 0 1)
      let o := y.map (fun v => out.1 + v * (out.2 - out.1))
      match dtype with
      | none => .error .unbound
      | some t => .ok (o.map t.cast)

/-! ### fractional_crater_transform -/

/-- miscellaneous.py:50-53 -/
def areaFraction (lf : ℝ) : ℝ :=
  let d := 1 - 2 * lf
  let theta := 2 * Real.arccos d
  (1 / (2 * Real.pi)) * (theta - Real.sin theta)

/-- miscellaneous.py:46-48: `self.lf`, through `gm.scl` -/
def lfTable : Except Exc (List ℝ) :=
  scl ((List.range 100).map (fun i : ℕ => (i : ℝ))) .int none (some ((0, 1), .float)) none

/-- miscellaneous.py:46-57: construct the transform and apply `af2lf` -/
def af2lf (af : ℝ) : Except Exc ℝ := do
  let lf ← lfTable
  .ok (interp (lf.map areaFraction) lf af)

/-! ### n_sigma_scaling -/

/-- `np.sign` -/
def sign (v : ℝ) : ℝ := if 0 < v then 1 else if v < 0 then -1 else 0

/-- miscellaneous.py:236-240 -/
def nSigmaScaling (v : ℝ) : ℝ := |v| ^ (0.6 : ℝ) * sign v

/-! ### iterator_with_progress -/

/-- iterator_with_progress.py:18-23: what the consumer receives and what is put on the queue, interleaved, when the
iterator is consumed to the end -/
inductive Event (α : Type)
  | put (current : ℕ) (total : Option ℕ)
  | yield (i : ℕ) (item : α)

/-- iterator_with_progress.py:19-23 (the branch with a queue; the progressbar library of the other branch is not
modelled) -/
def iteratorWithProgress {α : Type} (enumerated : List (ℕ × α)) (total : Option ℕ) : List (Event α) :=
  enumerated.flatMap (fun p => [.put (p.1 + 1) total, .yield p.1 p.2])

end

end Verif.Misc
