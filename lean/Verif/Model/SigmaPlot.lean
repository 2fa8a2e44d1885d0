import Verif.Model.RandomnessFile
import Verif.Model.Misc

/-!
Model of the panel of a count plot which shows the results of a randomness analysis: `read_ra_file`
(`/repo/src/craterstats/Cratercount.py:54-63`) and `oplot_n_sigma` (`/repo/src/craterstats/Craterplot.py:113-162`).
Of the drawing only the data are modelled: the extent of the bands and the points of the curves.  Colours, marker sizes, the white
background and the text positions are left out.
-/

namespace Verif.SigmaPlot

open Verif.Py Verif.Text Verif.Rand Verif.Misc

noncomputable section

/-- `sorted(set(keys) - {'bin'})` (Cratercount.py:59, Craterplot.py:114); the keys of a dictionary are different -/
def sortedKeys (ks : List (List Char)) : List (List Char) :=
  (ks.filter (fun k => decide (k ≠ "bin".toList))).insertionSort (fun a b => a ≤ b)

/-- Cratercount.py:54-63: `here` is the file in the directory of the run, `beside` the one in the directory of the count -/
def readRa (C : Classes) (here beside : Option (List Char)) : Except Exc (Option (TVal × List TVal)) :=
  match here <|> beside with
  | none => .ok none
  | some f => do
    let c ← readStructureFile C f
    let s ← tget c "n_sigma".toList
    let ks ← tkeys s
    let trials ← (sortedKeys ks).mapM (fun m => do
      let v ← tget c m
      tget v "n_trials".toList)
    .ok (some (s, trials))

/-- Craterplot.py:116: `np.log10(2 ** (float(e) + .25))` -/
def markerX (e : TVal) : Except Exc ℝ := do
  let q ← tfloat e
  .ok (Real.logb 10 ((2 : ℝ) ^ ((q : ℝ) + 0.25)))

/-- Craterplot.py:138: the height of one point; `none` is a gap (`None`, or nan for the text `nan`) -/
def markerY (m : List Char) (e : TVal) : Except Exc (Option ℝ) :=
  if e = .str "-".toList then .ok none
  else if e = .str "nan".toList then .ok none
  else do
    let q ← tfloat e
    .ok (some (nSigmaScaling q * (if m = "sdaa".toList then -1 else 1)))

/-- the panel: the extent of the bands and the curve of each measure -/
structure Panel where
  left : ℝ
  right : ℝ
  curves : List (List Char × List (ℝ × Option ℝ))

/-- Craterplot.py:114-139; `min` of an empty list is a ValueError; a measure without a line style is a KeyError -/
def panel (s : TVal) : Except Exc Panel := do
  let ks ← tkeys s
  let bins ← telems (← tget s "bin".toList)
  let x ← bins.mapM markerX
  match x with
  | [] => .error .value
  | a :: l => do
    let q := Real.logb 10 ((2 : ℝ) ^ (0.25 : ℝ))
    let curves ← (sortedKeys ks).mapM (fun m => do
      let es ← telems (← tget s m)
      let y ← es.mapM (markerY m)
      if m ∈ measureNames then Except.ok (m, x.zip y) else .error .key)
    .ok ⟨l.foldl min a - q, l.foldl max a + q, curves⟩

end

end Verif.SigmaPlot
