import Verif.Model.Plotting
import Verif.Model.Randomness
import Verif.Model.AgeArea

/-!
Model of `plot_histogram` (`/repo/src/craterstats/Randomnessanalysis.py` 189-252): the bars, their outline, the shaded part and the
ticks.  Exact reals; colours, line widths and texts are not modelled.
-/

namespace Verif.Rand

open Verif.Py

noncomputable section

/-- Randomnessanalysis.py:200: number of bars -/
def histBins (nTrials : ℕ) : ℕ := AgeArea.pyRound (Real.sqrt nTrials + 5)

/-- smallest and largest entry; of nothing `np.histogram` takes 0 and 1 -/
def extent (m : List ℝ) : ℝ × ℝ :=
  match m with
  | [] => (0, 1)
  | a :: l => (l.foldl min a, l.foldl max a)

/-- the boundaries computed by `np.histogram(m, bins=n)`: if all entries are equal the range is widened by 0.5 on each side -/
def histEdges (m : List ℝ) (n : ℕ) : List ℝ :=
  let r := extent m
  if r.1 = r.2 then linspace (r.1 - 1 / 2) (r.2 + 1 / 2) (n + 1) else linspace r.1 r.2 (n + 1)

/-- the counts computed by `np.histogram(m, bins=n)`: half-open bars, the last one closed -/
def histCounts (m : List ℝ) (n : ℕ) : List ℕ :=
  let e := histEdges m n
  (List.range n).map (fun i => m.countP (fun v => decide (e.getD i 0 ≤ v ∧ (v < e.getD (i + 1) 0 ∨ (i + 1 = n ∧ v = e.getD n 0)))))

/-- Randomnessanalysis.py:213: a boundary with the heights of the bars left and right of it -/
def histSides (m : List ℝ) (n : ℕ) : List (ℝ × ℝ × ℝ) :=
  let h := (histCounts m n).map (fun k : ℕ => (k : ℝ))
  (histEdges m n).zip (((0 : ℝ) :: h).zip (h ++ [0]))

/-- Randomnessanalysis.py:213: the points `(x0, y0)` of the outline -/
def histOutline (m : List ℝ) (n : ℕ) : List (ℝ × ℝ) := (histSides m n).flatMap (fun z => [(z.1, z.2.1), (z.1, z.2.2)])

/-- Randomnessanalysis.py:222-225: the points `(x1, y1)` of the top of the shaded part.  If no point of the outline lies between the
limits the unpacking fails (ValueError). -/
def histShade (m : List ℝ) (n : ℕ) (mn sd : ℝ) : Except Exc (List ℝ × List ℝ) :=
  let lo := mn - sd
  let hi := mn + sd
  let inner := (histOutline m n).filter (fun p => decide (lo < p.1 ∧ p.1 < hi))
  match inner, inner.getLast? with
  | p :: _, some q => .ok ([lo, lo] ++ inner.map Prod.fst ++ [hi, hi], [0, p.2] ++ inner.map Prod.snd ++ [q.2, 0])
  | _, _ => .error .value

/-- Randomnessanalysis.py:205-207: the limits of the x axis, for a histogram beside a map (`panel`) or alone -/
def histXRange (m : List ℝ) (n : ℕ) (m0 : ℝ) (panel : Bool) : ℝ × ℝ :=
  let e := histEdges m n
  let w := e.getD 1 0 - e.getD 0 0
  let r := extent (e ++ [m0])
  if panel then (r.1 - w, r.2 + w) else (r.1 - w - 0.6 * (r.2 + w - (r.1 - w)), r.2 + w)

/-- Randomnessanalysis.py:208: the upper limit of the y axis -/
def histTop (m : List ℝ) (n : ℕ) (panel : Bool) : ℝ :=
  (extent ((histCounts m n).map (fun k : ℕ => (k : ℝ)))).2 * (if panel then 1.1 else 1.5)

/-- Randomnessanalysis.py:234-236: the ticks; the unit is added to the last (IndexError if there is none).  `none` when the fuel of
the loop of `ticks` runs out. -/
def histTicks (fuel : ℕ) (x0 x1 : ℝ) : Option (Except Exc (List ℝ)) :=
  (Plotting.ticks fuel [x0, x1] (some 5)).map (fun r =>
    match r with
    | .ok t =>
      let l := t.values.filter (fun e => decide (x0 < e ∧ e < x1))
      if l = [] then .error .index else .ok l
    | .error _ => .error .nonFinite)

end

end Verif.Rand
