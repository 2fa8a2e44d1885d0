import Verif.Model.Overplot
import Verif.Model.MiniPlot
import Verif.Model.Plotting
import Verif.Model.TextStructure

/-!
Model of the elements of sequence plots: `Craterplot.overplot_sequence_element` (`/repo/src/craterstats/Craterplot.py:291-335`), reached from
`Craterplotset.draw` (`/repo/src/craterstats/Craterplotset.py:526-529`) by `Craterplot.overplot` (Craterplot.py:172-176).

The matplotlib calls are recorded: bar or violin with the axes on which it is drawn, and the two texts.  Colours and line widths are not part
of this model.  The lines of the legend label (Craterplot.py:233-277, partly in Model/LegendText.lean) are data of the plot.
-/

namespace Verif.SequenceElement
open Verif.Py Verif.Cratercount Verif.Chronology Verif.Production Verif.Craterpdf Verif.Age Verif.Overplot Verif.MiniPlot Verif.Plotting
  Verif.Text

noncomputable section

/-- one plot of the set: its count as seen by `getplotdata` and by `Craterpdf`, its settings, its name and the lines of its label -/
structure SeqPlot where
  count : Option (Obj × Source)
  opts : Options
  name : List Char
  label : List (List Char)

/-- the drawn age: the box of a fitted age with its line (Craterplot.py:322-328; bounds which are not finite are `nan` or `inf` in numpy and
draw nothing), or a violin -/
inductive Bar where
  | box (lower upper : Except Err ℝ) (top bottom : ℝ) (line : ℝ)
  | violin (v : Violin)

/-- what one plot draws; `axes` are the indices of the time axes -/
structure SeqMark where
  axes : List ℕ
  bar : Bar
  /-- place and lines of the name; it ends there -/
  name : (ℝ × ℝ) × List (List Char)
  /-- place and lines of the label; it begins there -/
  label : Option ((ℝ × ℝ) × List (List Char))

/-- Craterplot.py:309: is the plot one of `seq`? -/
def isMeasurement (p : SeqPlot) : Bool :=
  match p.opts.kind with
  | .data => false
  | _ => !p.opts.hide

/-- Craterplot.py:309-311 (`n`, `i`); `k` is the place of the plot in the set, which stands for its identity.  The index error of an empty
list cannot occur, since the plot itself is a measurement. -/
def rowOf (plots : List SeqPlot) (k : ℕ) : ℕ × ℕ :=
  let seq := plots.zipIdx.filter (fun e => isMeasurement e.1)
  (seq.length, seq.findIdx (fun e => e.2 == k))

/-- `text.split(r'\n')`: split at every backslash followed by `n` -/
def splitEscaped : List Char → List (List Char)
  | [] => [[]]
  | '\\' :: 'n' :: l => [] :: splitEscaped l
  | c :: l =>
    match splitEscaped l with
    | [] => [[c]]
    | w :: ws => (c :: w) :: ws

/-- Craterplot.py:299-300: `getplotdata('differential', …, resurfacing=None)`.  Its values are not used (`n` and `n_event` are replaced by those of
`calculate_age` before the label is made), and values which are not finite do no harm in numpy; it bins the count and computes the bin range, which
may raise.  The correction for resurfacing which it computes (Cratercount.py:386: `None` is not 0) needs the same bin range and is not used. -/
def binCount (o : Obj) (p : Options) : Except Err Obj := do
  let o' ← o.ensure p.binning
  match o'.binning with
  | none => .error .attribute
  | some bn =>
    let _ ← binRangeOf bn o'.binned p.range false
    .ok o'

/-- exceptions of `violin_plot` -/
def liftExc {α : Type} (r : Except Exc α) : Except Err α :=
  match r with
  | .ok a => .ok a
  | .error _ => .error .nonFinite

/-- Craterplot.py:305-328: `calculate_age` and the drawn age; `none` for plots of type data -/
def barOf (cv : CurveFit) (simpson : Simpson) (s : Overplot.Set) (o : Obj) (src : Source) (p : Options) (n i : ℕ) :
    Except Err (Option Bar) :=
  match p.kind with
  | .data => .ok none
  | .poisson b => do
    let r ← poissonAge s.pf s.cf simpson src p.range b s.ref
    let v ← liftExc (violin r.pdf (rowHeight n i) (rowHalfWidth n))
    .ok (some (.violin v))
  | .fit k => do
    let r ← fitAge s.pf s.cf cv s.pfc o k p.binning p.range p.resurf s.ref
    .ok (some (.box r.tLower r.tUpper (rowHeight n i + 0.3 * rowHalfWidth n) (rowHeight n i - 0.3 * rowHalfWidth n) r.t))

/-- Craterplot.py:291-335 for the `k`-th plot -/
def element (cv : CurveFit) (simpson : Simpson) (s : Overplot.Set) (crossover : Bool) (plots : List SeqPlot) (k : ℕ) (o : Obj) (src : Source)
    (p : SeqPlot) : Except Err (Option SeqMark) := do
  let o' ← binCount o p.opts
  let r := rowOf plots k
  let bar ← barOf cv simpson s o' src p.opts r.1 r.2
  match bar with
  | none => .ok none
  | some bar =>
    .ok (some
      { axes := if crossover then [0, 1] else [0]
        bar := bar
        name := ((-0.007, rowHeight r.1 r.2), splitEscaped (stripQuotes p.name))
        label := if p.label = [] then none else some ((1.007, rowHeight r.1 r.2), p.label) })

/-- Craterplot.py:172-176 -/
def overplotSequence (cv : CurveFit) (simpson : Simpson) (s : Overplot.Set) (crossover : Bool) (plots : List SeqPlot) (k : ℕ) (p : SeqPlot) :
    Except Err (Option SeqMark) :=
  match p.count with
  | none => .ok none
  | some (o, src) => if p.opts.hide then .ok none else element cv simpson s crossover plots k o src p

/-- Craterplotset.py:526-529 for the presentation `sequence`: the marks in the order of drawing, each with the place of its plot in the set.
Every plot has its own count (Craterplot.py:62), so that no plot changes another. -/
def sequenceMarks (cv : CurveFit) (simpson : Simpson) (s : Overplot.Set) (crossover : Bool) (plots : List SeqPlot) :
    Except Err (List (ℕ × SeqMark)) := do
  let l ← plots.zipIdx.reverse.mapM (fun e => do
    let m ← overplotSequence cv simpson s crossover plots e.2 e.1
    .ok (m.map (fun m => (e.2, m))))
  .ok (l.filterMap id)

end

end Verif.SequenceElement
