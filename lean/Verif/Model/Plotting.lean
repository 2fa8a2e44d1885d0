import Verif.Model.Misc
import Mathlib.Analysis.SpecialFunctions.Log.Base

/-!
Model of axis computations: `src/craterstats/gm/plotting/ticks.py`, and from `src/craterstats/Craterplotset.py`
`calculate_time_axis_params` and `autoscale`; from `src/craterstats/Craterplot.py` the row position in
`overplot_sequence_element`; from `src/craterstats/Randomnessanalysis.py` the panel grid of `plot_montecarlo_split`.
-/

namespace Verif.Plotting
open Verif.Py Verif.Misc Verif.Cratercount

noncomputable section

/-! ### gm.ticks -/

/-- ticks.py:33-34: `([1,2,5,10])[np.searchsorted([0,1,2,5], fraction)-1]` -/
def niceFraction (fraction : ℝ) : ℕ :=
  [1, 2, 5, 10].getD (searchsorted [0, 1, 2, 5] fraction - 1) 0

structure Ticks where
  nice : ℕ
  step : ℝ
  /-- index (in steps) of the first tick -/
  first : ℤ
  /-- index of the last tick -/
  last : ℤ

/-- ticks.py:37 -/
def Ticks.values (t : Ticks) : List ℝ :=
  (List.range (t.last - t.first + 1).toNat).map (fun i : ℕ => ((t.first : ℝ) + i) * t.step)

/-- ticks.py:30-38, one pass for a given multiplier -/
def ticksPass (r0 r1 : ℝ) (maxTicks : ℕ) (multiplier : ℝ) : Ticks :=
  let mag := r1 - r0
  let estimate := mag / (maxTicks * multiplier)
  let exponent := ⌊log10 estimate⌋
  let fraction := estimate / (10 : ℝ) ^ exponent
  let nice := niceFraction fraction
  let step := nice * (10 : ℝ) ^ exponent
  ⟨nice, step, ⌊r0 / step⌋, ⌈r1 / step⌉⟩

/-- ticks.py:29-41, `none` when the fuel runs out -/
def ticksLoop (r0 r1 : ℝ) (maxTicks : ℕ) : ℕ → ℝ → Option Ticks
  | 0, _ => none
  | fuel + 1, multiplier =>
    let t := ticksPass r0 r1 maxTicks multiplier
    if t.last - t.first + 1 ≤ maxTicks then some t else ticksLoop r0 r1 maxTicks fuel (multiplier * 0.9)

/-- ticks.py:21-22: `None` and `0` mean 5, at least 2 (integer limits only) -/
def maxTicksOf (maxTicks : Option ℕ) : ℕ :=
  max (match maxTicks with | none => 5 | some 0 => 5 | some n => n) 2

/-- ticks.py:10-41.  The outer `none` is a call which has not ended after `fuel` passes.  The data vector enters through
its range.  A zero range gives `log10(0)`: error. -/
def ticks (fuel : ℕ) (x : List ℝ) (maxTicks : Option ℕ) : Option (Except Exc Ticks) :=
  match Misc.range x false false with
  | .pair r0 r1 =>
    if r1 - r0 = 0 then some (.error .nonFinite)
    else (ticksLoop r0 r1 (maxTicksOf maxTicks) fuel 1).map .ok
  | _ => some (.error .nonFinite)

/-- ticks.py:43-48 -/
def minorTicks (t : Ticks) (maxMinor : ℕ) : Except Exc ℕ :=
  let choice : List ℝ := if t.nice = 2 then [1, 2, 4, 10] else [1, 2, 5, 10]
  let choiceN : List ℕ := if t.nice = 2 then [1, 2, 4, 10] else [1, 2, 5, 10]
  let b := (maxMinor : ℝ) / ((t.last - t.first : ℤ) : ℝ)
  match choiceN[searchsorted choice b]? with
  | none => .error .index
  | some c => .ok c

/-! ### time axis -/

structure TimeAxis where
  tMin : ℝ
  tMax : ℝ
  crossover : Bool
  tCrossover : ℝ
  xfracLinear : ℝ
  minorDiv : ℕ
  tickv : List ℝ

/-- Craterplotset.py:327-361 for a two-element `xrange`; figure dimensions (314-325) and label texts are not modelled
(line 352 `xticklabels[-1]` fails for an empty tick list: error `index`).  `none`: the tick loop did not end. -/
def timeAxis (fuel : ℕ) (xa xb : ℝ) : Option (Except Exc TimeAxis) :=
  let tMax := clip (max xa xb) 3 4.5
  let tMin0 := clip (min xa xb) 0 (tMax - 0.1)
  if tMin0 < 1 ∧ tMin0 ≠ 0 then
    let tMin := (10 : ℝ) ^ ⌊log10 tMin0⌋
    let tickv := [3, 3.5, 4].filter (fun e => decide (e ≤ tMax))
    let logTMin := log10 tMin
    let linUnits := max (tMax - 3) 0 / 0.7
    let logUnits := log10 3 - logTMin
    if tickv = [] then some (.error .index)
    else if linUnits + logUnits = 0 then some (.error .nonFinite)
    else some (.ok ⟨tMin, tMax, true, 3, linUnits / (linUnits + logUnits), 5, tickv⟩)
  else
    match ticks fuel [tMin0, tMax] (some 6) with
    | none => none
    | some (.error e) => some (.error e)
    | some (.ok t) =>
      match minorTicks t 12 with
      | .error e => some (.error e)
      | .ok minorDiv =>
        let tickv := t.values.filter (fun e => decide (tMin0 ≤ e ∧ e ≤ tMax))
        if tickv = [] then some (.error .index)
        else some (.ok ⟨tMin0, tMax, false, tMin0, 1 / (1 + 0), minorDiv, tickv⟩)

/-! ### autoscale -/

/-- the plot types with data axes, constants.py:11 -/
inductive Pres
  | cumulative | differential | rplot | hartmann
  deriving DecidableEq

/-- constants.py:19,21 -/
def defaultX : Pres → ℝ × ℝ
  | .cumulative => (-3, 2)
  | .differential => (-3, 2)
  | .rplot => (-2, 3)
  | .hartmann => (-3.15, 2.56)

/-- constants.py:20,22 -/
def defaultY : Pres → ℝ × ℝ
  | .cumulative => (-4, 1)
  | .differential => (-5, 5)
  | .rplot => (-4, 1)
  | .hartmann => (-8, 5)

/-- data range of one plot, Craterplot.py:276-286 -/
structure DataRange where
  x0 : ℝ
  x1 : ℝ
  y0 : ℝ
  y1 : ℝ

/-- Python `min`/`max` of a non-empty tuple in which `none` is nan: every comparison with nan is false, so a leading nan
stays and later ones are skipped -/
def pySelect (better : ℝ → ℝ → Bool) (first : Option ℝ) (rest : List (Option ℝ)) : Option ℝ :=
  rest.foldl (fun cur v => match cur, v with
    | some c, some v => if better v c then some v else some c
    | cur, _ => cur) first

def pyMin (first : Option ℝ) (rest : List (Option ℝ)) : Option ℝ := pySelect (fun v c => decide (v < c)) first rest
def pyMax (first : Option ℝ) (rest : List (Option ℝ)) : Option ℝ := pySelect (fun v c => decide (c < v)) first rest

/-- Craterplotset.py:632-655: the integer axis ranges are made square -/
def squareUp (p : Pres) (bigLeft bigBottom : Bool) (xr yr : ℝ × ℝ) : (ℝ × ℝ) × (ℝ × ℝ) :=
  let dx := xr.2 - xr.1
  let dy := yr.2 - yr.1
  match p with
  | .differential =>
    let yr := if ⌊dy⌋ % 2 = 1 then (if bigBottom then (yr.1, yr.2 + 1) else (yr.1 - 1, yr.2)) else yr
    let dy := yr.2 - yr.1
    let d := dy / 2 - dx
    let d0 := |d|
    if d < 0 then (xr, (yr.1 - d0, yr.2 + d0))
    else if 0 < d then
      let d2a : ℝ := ⌊d0 / 2⌋
      let d2b := d0 - d2a
      ((if bigLeft then (xr.1 - d2a, xr.2 + d2b) else (xr.1 - d2b, xr.2 + d2a)), yr)
    else (xr, yr)
  | _ =>
    let d := dy - dx
    let d0 := |d|
    let d2a : ℝ := ⌊d0 / 2⌋
    let d2b := d0 - d2a
    if d < 0 then (xr, if bigBottom then (yr.1 - d2a, yr.2 + d2b) else (yr.1 - d2b, yr.2 + d2a))
    else if 0 < d then ((if bigLeft then (xr.1 - d2b, xr.2 + d2a) else (xr.1 - d2a, xr.2 + d2b)), yr)
    else (xr, yr)

/-- Craterplotset.py:606-658.  `ranges`: data ranges of the plots for which `get_data_range` did not raise, `none` for a
plot without any data point (`gm.range` of an empty vector: four nans).  `nSigma`: the condition of line 621.  Without
any range line 612 unpacks the default *numbers*, of which `min` fails (TypeError).  The logarithm of a non-positive
number (`-inf`, nan) is an error. -/
def autoscale (p : Pres) (ranges : List (Option DataRange)) (nSigma : Bool) (userX userY : Option (ℝ × ℝ)) :
    Except Exc ((ℝ × ℝ) × (ℝ × ℝ)) :=
  match ranges with
  | [] => .error .type
  | r :: rs =>
    let col (f : DataRange → ℝ) (sel : Option ℝ → List (Option ℝ) → Option ℝ) := sel (r.map f) (rs.map (Option.map f))
    let auto : Except Exc ((ℝ × ℝ) × (ℝ × ℝ)) :=
      match col (·.x0) pyMin, col (·.x1) pyMax, col (·.y0) pyMin, col (·.y1) pyMax with
      | some x0, some x1, some y0, some y1 =>
        if 0 < x0 ∧ 0 < x1 ∧ 0 < y0 ∧ 0 < y1 then
          let my : ℝ := 0.3 * (if p = .differential then 2 else 1)
          let minX := log10 x0
          let maxX := log10 x1
          let minY := log10 y0
          let maxY := log10 y1
          let xr : ℝ × ℝ := (⌊minX - 0.3⌋, ⌈maxX + 0.8⌉)
          let yr : ℝ × ℝ := (⌊minY - my⌋, ⌈maxY + my⌉)
          let yr' : ℝ × ℝ := if nSigma then (yr.1, max yr.2 ⌈maxY + (yr.2 - yr.1) * 3 / 16⌉) else yr
          let maxY' := if nSigma then maxY + (yr'.2 - yr'.1) / 8 else maxY
          let bigLeft := decide (minX - xr.1 + 0.3 > xr.2 - maxX + 0.8)
          let bigBottom := decide (minY - yr'.1 > yr'.2 - maxY')
          .ok (squareUp p bigLeft bigBottom xr yr')
        else .error .nonFinite
      | _, _, _, _ => .ok (defaultX p, defaultY p)
    match auto with
    | .error e => .error e
    | .ok (xr, yr) => .ok (userX.getD xr, userY.getD yr)

/-! ### sequence rows -/

/-- Craterplot.py:309-314: height of the row of the `i`-th of the `n` visible age measurements, and half-widths `w0`
(violin) and `w` (bar) -/
def rowHeight (n i : ℕ) : ℝ := ((n : ℝ) - i) / (n + 1)
def rowHalfWidth (n : ℕ) : ℝ := 0.5 / (n + 1)

/-! ### panels -/

/-- Randomnessanalysis.py:320-324: the bins shown and whether the n-sigma panel is shown (Python lists: an empty
selection is falsy) -/
def panelSelection {β : Type} (bins : List β) (selection : Option (List ℤ)) : List β × Bool :=
  match selection with
  | some (s :: sel) =>
    (((s :: sel).filter (fun i : ℤ => decide (1 ≤ i ∧ i ≤ bins.length))).filterMap (fun i : ℤ => bins[(i - 1).toNat]?),
      decide ((0 : ℤ) ∈ s :: sel))
  | _ => (bins, true)

/-- Randomnessanalysis.py:325: `math.ceil(math.sqrt(...))` -/
def panelDim (nBins : ℕ) (nSigma : Bool) : ℕ := ⌈Real.sqrt ((nBins + nSigma.toNat : ℕ) : ℝ)⌉₊

/-- Randomnessanalysis.py:329-330: column and row (from the bottom) of panel `i`; Python integers -/
def panelCell (dim i : ℕ) : ℤ × ℤ := ((i : ℤ) % dim, (dim : ℤ) - 1 - (i : ℤ) / dim)

/-- Randomnessanalysis.py:339-343: panels drawn -/
def panels {β : Type} (bins : List β) (selection : Option (List ℤ)) : List (ℤ × ℤ) :=
  let (shown, nSigma) := panelSelection bins selection
  let dim := panelDim shown.length nSigma
  (List.range shown.length).map (panelCell dim) ++ (if nSigma then [panelCell dim (dim ^ 2 - 1)] else [])

end

end Verif.Plotting
