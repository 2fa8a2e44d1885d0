import Verif.Model.Chronology
import Verif.Model.Production
import Verif.Model.RandomnessFile
import Mathlib.Data.List.Sort
import Mathlib.Data.Rat.Cast.Defs

/-!
Model of `src/craterstats/Epochs.py`: the boundary times of an epoch system (17-44), its formatting codes (49-58) and the
positions of its labels on a sequence plot (108-126).

Simplifications: exact numbers; `int` and `float` accept no white space or underscores; only the values used for the times are
checked to be present (a missing name, epoch, formatting or reference is a KeyError in the code).
-/

namespace Verif.Epochs
open Verif.Py Verif.Text Verif.Rand Verif.Cratercount Verif.Production Verif.Chronology

/-- Epochs.py:27-29: the definition with the given name; an entry without name is a KeyError, no entry a ValueError -/
def findEpochs (identifier : List Char) : List TVal → Except Exc TVal
  | [] => .error .value
  | e :: es => do if (← tget e "name".toList) = .str identifier then .ok e else findEpochs identifier es

/-- `[f(e) for e in definition[k]] if k in definition else None` -/
def optField {α : Type} (d : List (List Char × TVal)) (k : List Char) (f : TVal → Except Exc α) : Except Exc (Option (List α)) :=
  match dictGet d k with
  | some v => do .ok (some (← (← telems v).mapM f))
  | none => .ok none

/-- Epochs.py:34-36: the attributes `ref_diameter`, `density`, `time` -/
structure Defined where
  refDiameter : Option (List ℤ)
  density : Option (List ℚ)
  time : Option (List ℚ)
  deriving DecidableEq

/-- Epochs.py:25-36 for `src` a dictionary -/
def load (src : TVal) (identifier : List Char) : Except Exc Defined := do
  match ← findEpochs identifier (← telems (← tget src "epochs".toList)) with
  | .dict d => do
    let r ← optField d "ref_diameter".toList tint
    let n ← optField d "density".toList tfloat
    let t ← optField d "time".toList tfloat
    .ok ⟨r, n, t⟩
  | _ => .error .type

noncomputable section

/-- Epochs.py:43: `a0` of one boundary; only the best value of the fit is used -/
def boundaryA0 (pf : PFn) (cf : CurveFit) (x : ℤ × ℚ) : Except Err ℝ := do
  let r ← pf.fit cf .cumulative [⟨(x.1 : ℝ), (x.2 : ℝ) / 1e6, 0⟩]
  .ok r.best

/-- Epochs.py:42-44: the attribute `time`; `zip` of None is a TypeError (here `.domain`) -/
def times (pf : PFn) (cf : CurveFit) (c : Chron) (e : Defined) : Except Err (List ℝ) :=
  match e.time, e.refDiameter, e.density with
  | some t, _, _ => .ok (t.map (fun q : ℚ => (q : ℝ)))
  | none, some r, some n => do
    let a0 ← (r.zip n).mapM (boundaryA0 pf cf)
    let t ← a0.mapM (fun a => c.t (some a) none)
    .ok (0 :: t)
  | none, _, _ => .error .domain

/-- Epochs.py:116: the positions between which labels are put -/
def labelTimes (time : List ℝ) (tMin tMax : ℝ) : List ℝ := ((time ++ [tMin, tMax]).insertionSort (· ≤ ·)).drop 1

/-- Epochs.py:121-124: position of the label of one epoch on the linear (`log = false`) or logarithmic axis -/
def labelAt (t0 : List ℝ) (log : Bool) (i : ℕ) : Except Exc ℝ :=
  match t0[i]?, t0[i + 1]? with
  | some a, some b => .ok (if log then Real.sqrt (a * b) else (a + b) / 2)
  | _, _ => .error .index

/-- Epochs.py:118-126: positions of the labels of `n` epochs -/
def labelPositions (time : List ℝ) (tMin tMax : ℝ) (n : ℕ) (log : Bool) : Except Exc (List ℝ) :=
  (List.range n).mapM (labelAt (labelTimes time tMin tMax) log)

end

/-- Epochs.py:55: `int(re.search(r'\d?', e)[0])`: the first character, if it is a digit (`\d` of ASCII texts) -/
def colourOf (e : List Char) : Except Exc ℕ :=
  match e with
  | c :: _ => if isDig c then .ok (c.toNat - 48) else .error .value
  | [] => .error .value

/-- Epochs.py:54-58: label slant, and colour, offset and boundary of each epoch -/
def decodeFormatting (f : List (List Char)) : Except Exc (ℤ × List ℕ × List Bool × List Bool) :=
  match f with
  | [] => .error .index
  | s :: es => match intVal s with
    | none => .error .value
    | some slant => do
      let colour ← es.mapM colourOf
      .ok (slant, colour, es.map (fun e => e.contains 'r'), es.map (fun e => e.contains 'b'))

end Verif.Epochs
