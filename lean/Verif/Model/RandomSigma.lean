import Verif.Model.SigmaPlot
import Verif.Model.PlotSpace

/-!
Model of the last panel of the figures of a randomness analysis: `plot_n_sigma` (`/repo/src/craterstats/Randomnessanalysis.py:346-400`)
and the minor ticks of `Hartmann_bins` (`/repo/src/craterstats/miscellaneous.py:223`).  The data given to matplotlib are modelled; colours,
sizes, the text with the number of trials and the axis title are left out.
-/

namespace Verif.RandomSigma

open Verif.Py Verif.Text Verif.Rand Verif.Misc Verif.Cratercount Verif.SigmaPlot Verif.PlotSpace

noncomputable section

/-- the entries of `stats` (Randomnessanalysis.py:175, 186) used here -/
structure Stat where
  m0 : ℝ
  mn : ℝ
  sd : ℝ

/-- what is drawn -/
structure Panel where
  points : List (ℝ × ℝ)
  xlim : ℝ × ℝ
  ylim : ℝ × ℝ
  bands : List (ℝ × ℝ)
  captions : List (ℝ × List Char)
  scale : List (ℝ × List Char)
  ticks : List (ℝ × List Char)
  minor : List ℝ

/-- Randomnessanalysis.py:364-366; numpy gives no finite number if `sd` is 0 -/
def height (measure : List Char) (s : Stat) : Except Exc ℝ :=
  if s.sd = 0 then .error .nonFinite
  else
    let y1 := nSigmaScaling ((s.m0 - s.mn) / s.sd)
    .ok (if measure = "sdaa".toList then -y1 else y1)

/-- miscellaneous.py:220-224: ticks with their names, and minor ticks; `first` is `xtickv[0]` -/
def binTicks (x0 x1 : ℝ) : Except Exc (List (ℝ × List Char) × List ℝ) := do
  let (ts, xminor) ← hartmannBins x0 x1
  let v := ts.map (fun t => t.1.2)
  let shifted := match v with
    | [] => []
    | first :: _ => (first - 2 * xminor) :: v
  .ok (ts.map (fun t => (t.1.2, t.2)), (shifted.map (fun e => e + xminor)).filter (fun e => decide (x0 ≤ e ∧ e ≤ x1)))

/-- Randomnessanalysis.py:363: `np.log10(2**(float(r)+.25))` -/
def centre (bin : List Char) : Except Exc ℝ := markerX (.str bin)

/-- Randomnessanalysis.py:367: the extent; `min` of an empty list is a ValueError -/
def extent (x : List ℝ) : Except Exc (ℝ × ℝ) :=
  match x with
  | [] => .error .value
  | a :: l => .ok (l.foldl min a - Real.logb 10 ((2 : ℝ) ^ (0.251 : ℝ)), l.foldl max a + Real.logb 10 ((2 : ℝ) ^ (0.251 : ℝ)))

/-- Randomnessanalysis.py:363-400; a measure without a line style is a KeyError (line 382) -/
def sigmaPanel (measure : List Char) (stats : List (List Char × Stat)) : Except Exc Panel := do
  let x ← stats.mapM (fun r => centre r.1)
  let y ← stats.mapM (fun r => height measure r.2)
  let xr ← extent x
  if measure ∈ measureNames then do
    let (ticks, minor) ← binTicks xr.1 xr.2
    .ok ⟨x.zip y, xr, (nSigmaScaling (-3), nSigmaScaling 3),
      [(nSigmaScaling (-3), nSigmaScaling 3), (nSigmaScaling (-2), nSigmaScaling 2), (nSigmaScaling (-1), nSigmaScaling 1)],
      [(nSigmaScaling (-6), "clustered".toList), (nSigmaScaling 7, "separated".toList)],
      [(nSigmaScaling (-3) - 0.08, " 3".toList), (nSigmaScaling (-1) - 0.08, " 1".toList), (nSigmaScaling 0 - 0.08, " 0".toList),
        (nSigmaScaling 1 - 0.08, " 1".toList), (nSigmaScaling 3 - 0.08, " 3".toList)],
      ticks, minor⟩
  else .error .key

end

end Verif.RandomSigma
