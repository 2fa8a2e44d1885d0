import Verif.Model.EpochPlot
import Verif.Model.Plotting

/-!
Model of the time axis of sequence and uncertainty plots (`/repo/src/craterstats/Craterplotset.py:365-468`
`create_time_axis_plotspace`, from the parameters of `calculate_time_axis_params` on) and of the epochs on sequence plots
(`/repo/src/craterstats/Epochs.py:101-131` `sequence_oplot`).

The two matplotlib axes are represented by their place on the page, their limits and their scale; the matplotlib calls of
`sequence_oplot` are recorded.  Line widths and colours of lines are not modelled.
-/

namespace Verif.SequencePlot
open Verif.Py Verif.Text Verif.Cratercount Verif.Plotting Verif.Epochs Verif.EpochPlot

noncomputable section

/-- one of the two axes: left edge and width in cm, the ages at its left and right ends, and its scale -/
structure Panel where
  left : ℝ
  width : ℝ
  old : ℝ
  young : ℝ
  log : Bool

/-- Craterplotset.py:374-376, 382, 418 -/
def linearPanel (xsize margin : ℝ) (a : TimeAxis) : Panel :=
  { left := margin, width := a.xfracLinear * (xsize - margin * 2), old := if a.tCrossover < a.tMax then a.tMax else a.tCrossover + 0.1,
    young := a.tCrossover, log := false }

/-- Craterplotset.py:377, 383, 401-403 (`10 ** log_t_min`) -/
def logPanel (xsize margin : ℝ) (a : TimeAxis) : Panel :=
  { left := margin + a.xfracLinear * (xsize - margin * 2), width := (1 - a.xfracLinear) * (xsize - margin * 2), old := a.tCrossover,
    young := (10 : ℝ) ^ log10 a.tMin, log := true }

/-- the axes with a scale: the logarithmic one is switched off without a crossover (Craterplotset.py:401, 415) -/
def timePanels (xsize margin : ℝ) (a : TimeAxis) : List Panel :=
  if a.crossover then [linearPanel xsize margin a, logPanel xsize margin a] else [linearPanel xsize margin a]

/-- where an age is on a matplotlib axis, in cm from the left edge of the page -/
def Panel.pos (p : Panel) (t : ℝ) : ℝ :=
  if p.log then p.left + p.width * ((log10 p.old - log10 t) / (log10 p.old - log10 p.young))
  else p.left + p.width * ((p.old - t) / (p.old - p.young))

/-! ### epochs -/

/-- Epochs.py:123 `re.split(' |-', e)` -/
def nameParts : List Char → List (List Char)
  | [] => [[]]
  | c :: s =>
    if c = ' ' ∨ c = '-' then [] :: nameParts s
    else match nameParts s with
      | w :: l => (c :: w) :: l
      | [] => [[c]]

/-- Epochs.py:123 `a[0]` -/
def firstLetter (w : List Char) : Except Err Char :=
  match w with
  | c :: _ => .ok c
  | [] => .error .index

/-- Epochs.py:123-124: the abbreviated name; `lower` is Python's `lower` of one character -/
def abbreviated (lower : Char → List Char) (e : List Char) : Except Err (List Char) := do
  let l ← (nameParts e).mapM firstLetter
  match l with
  | [x, y] => .ok (lower x ++ [y])
  | x :: _ => .ok [x]
  | [] => .error .index

/-- what is drawn on one of the axes -/
structure SequenceMarks where
  /-- filled areas over the whole height: ages and shade -/
  regions : List (ℝ × ℝ × List Char)
  /-- dividing lines over the whole height: age, and whether it is a marked boundary -/
  lines : List (ℝ × Bool)
  /-- abbreviated names and their ages -/
  names : List (ℝ × List Char)

/-- Epochs.py:113-114, one round -/
def seqRegion (grey : List (List Char)) (time : List ℝ) (colour : List ℕ) (i : ℕ) : Except Err (ℝ × ℝ × List Char) := do
  let t0 ← at? time (i + 1)
  let t1 ← at? time (i + 2)
  let g ← shade grey (← at? colour (i + 1))
  .ok (t0, t1, g)

/-- Epochs.py:116-118, one round -/
def seqLine (time : List ℝ) (boundary : List Bool) (i : ℕ) : Except Err (ℝ × Bool) := do
  let t ← at? time (i + 1)
  .ok (t, ← at? boundary i)

/-- Epochs.py:120 `sorted(self.time + [cps.t_min,cps.t_max])[1:]` -/
def limits (time : List ℝ) (a : TimeAxis) : List ℝ :=
  ((time ++ [a.tMin, a.tMax]).mergeSort (fun x y => decide (x ≤ y))).drop 1

/-- Epochs.py:122-130, one round; `log` on the second axis -/
def seqName (lower : Char → List Char) (log : Bool) (t0 : List ℝ) (epoch : List (List Char)) (i : ℕ) : Except Err (ℝ × List Char) := do
  let e ← at? epoch i
  let lbl ← abbreviated lower e
  let x ← at? t0 i
  let y ← at? t0 (i + 1)
  .ok (if log then Real.sqrt (x * y) else (x + y) / 2, lbl)

/-- Epochs.py:113-130 on one axis -/
def seqMarks (lower : Char → List Char) (grey : List (List Char)) (time : List ℝ) (epoch : List (List Char)) (a : TimeAxis)
    (colour : List ℕ) (boundary : List Bool) (log : Bool) : Except Err SequenceMarks := do
  let regions ← (List.range (time.length - 2)).mapM (seqRegion grey time colour)
  let lines ← (List.range (time.length - 1)).mapM (seqLine time boundary)
  let names ← (List.range epoch.length).mapM (seqName lower log (limits time a) epoch)
  .ok ⟨regions, lines, names⟩

/-- Epochs.py:101-131: the marks on the linear axis and, with a crossover, on the logarithmic one -/
def sequencePlot (lower : Char → List Char) (grey : List (List Char)) (time : List ℝ) (epoch formatting : List (List Char)) (a : TimeAxis) :
    Except Err (SequenceMarks × Option SequenceMarks) := do
  let d ← lift (decodeFormatting formatting)
  let m0 ← seqMarks lower grey time epoch a d.2.1 d.2.2.2 false
  if a.crossover then do
    let m1 ← seqMarks lower grey time epoch a d.2.1 d.2.2.2 true
    .ok (m0, some m1)
  else .ok (m0, none)

end

end Verif.SequencePlot
