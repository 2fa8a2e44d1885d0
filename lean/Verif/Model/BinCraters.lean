import Verif.Model.Cratercount
import Verif.Model.Format
import Verif.Py.Dict
import Verif.Py.Exc
import Mathlib.Analysis.SpecialFunctions.Log.Base
import Mathlib.Analysis.Real.Pi.Bounds

/-!
Model of the selection of craters by bin in `/repo/src/craterstats/Randomnessanalysis.py` (`get_bin_craters` 117-139,
`montecarlo_split` 141-160) and of the resolution of the search grid (`establish_hpx` 55-64).

Numbers are exact reals.  Formatting works on rationals: `ρ` gives the (rational) floating point number obtained for a real one.
-/

namespace Verif.Rand

open Verif.Py Verif.Cratercount Verif.Text

noncomputable section

/-- a crater of a spatial count: position, diameter, fraction -/
structure Placed (α : Type) where
  pos : α
  diam : ℝ
  fraction : ℝ

/-- diameter and fraction, as given to the binning (Randomnessanalysis.py:40-46) -/
def Placed.crater {α : Type} (c : Placed α) : Crater := (c.diam, c.fraction)

/-- Randomnessanalysis.py:119, 152: `f"{np.log2(b):.3g}"` -/
def binKey (ρ : ℝ → ℚ) (b : ℝ) : List Char := gStr 2 (ρ (Real.logb 2 b))

/-- Randomnessanalysis.py:122, 129: `bin_keys[i - 1]`, Python indexing: `i = 0` gives the last -/
def keyAt (keys : List (List Char)) (i : ℕ) : Except Exc (List Char) :=
  match pyIndex keys ((i : ℤ) - 1) with
  | some k => .ok k
  | none => .error .index

/-- Randomnessanalysis.py:117-126: `get_bin_craters(bin, Craterlist=True)` -/
def selectBin {α : Type} (ρ : ℝ → ℚ) (edges : List ℝ) (cs : List (Placed α)) (key : List Char) : Except Exc (List (Placed α)) := do
  let keys := edges.dropLast.map (binKey ρ)
  let l ← (cs.zip (reverseIndices edges (cs.map Placed.crater))).mapM (fun x => (keyAt keys x.2).map (fun k => (x.1, k)))
  .ok ((l.filter (fun x => decide (x.2 = key))).map Prod.fst)

/-- Randomnessanalysis.py:127-130: `get_bin_craters(bin)`, the craters used for the measurement; unpacking `zip(*[])` fails if there are
none -/
def measuredBin {α : Type} (ρ : ℝ → ℚ) (edges : List ℝ) (cs : List (Placed α)) (key : List Char) : Except Exc (List (Placed α)) := do
  let l ← selectBin ρ edges cs key
  if l = [] then .error .value else .ok l

/-- Randomnessanalysis.py:141-160 `montecarlo_split`: the trials by bin.  `run b n` are the results of the trials with `n` craters of
diameter `b` (`montecarlo_pp`). -/
def splitTrials {ρ' : Type} (ρ : ℝ → ℚ) (minCount : ℝ) (run : ℝ → ℝ → ρ') (t : List Bin) : List (List Char × ρ') :=
  (t.filter (fun x => decide (minCount ≤ x.nEvent))).foldl (fun d x => dictSet d (binKey ρ x.dMin) (run x.dMin x.nEvent)) []

/-- Python's `round`: to the nearest integer, halves to the even one -/
def roundInt (x : ℝ) : ℤ :=
  let f := ⌊x⌋
  if x - f < 1 / 2 then f
  else if 1 / 2 < x - f then f + 1
  else if f % 2 = 0 then f else f + 1

/-- Randomnessanalysis.py:59-62: the number of grid cells asked for, from the planetary radius, the counting area and the number of trials
(divisions by zero excepted) -/
def desiredCells (radius area : ℝ) (n : ℕ) : Except Exc ℝ :=
  if n = 0 then .error .value
  else if area = 0 then .error .value
  else .ok (4 * Real.pi * radius ^ 2 / (area / ((n : ℝ) / 10)))

/-- Randomnessanalysis.py:63: `nside`; `2**e` with a negative integer `e` is a fraction -/
def gridSide (radius area : ℝ) (n : ℕ) : Except Exc ℝ := do
  let x ← desiredCells radius area n
  .ok ((2 : ℝ) ^ roundInt (Real.logb 2 (Real.sqrt (x / 12))))

end

end Verif.Rand
