import Verif.Model.Age
import Verif.Model.PlotSpace

/-!
Model of what `Craterplot.overplot` (`/repo/src/craterstats/Craterplot.py:165-231`) draws for one count on the count plots (cumulative,
differential, R and Hartmann plots; the sequence plot is in Model/MiniPlot.lean and Model/Plotting.lean).

The matplotlib calls are recorded: the points, the error bars, the isochron, the fitted curve and the age text with its place.  The
n-sigma panel (Model/SigmaPlot.lean), the small likelihood plot (Model/MiniPlot.lean), the legend label (Model/LegendText.lean), colours
and line widths are not part of this model.
-/

namespace Verif.Overplot
open Verif.Py Verif.Cratercount Verif.Chronology Verif.Production Verif.Craterpdf Verif.Age Verif.PlotSpace

noncomputable section

/-- `type` of a plot -/
inductive Kind where
  | data
  | fit (k : FitType)
  | poisson (buffered : Bool)

/-- the settings used here (Craterplot.py:20-37); `range` is the decoded range -/
structure Options where
  kind : Kind
  range : EReal × EReal
  binning : Binning
  hide : Bool
  errorBars : Bool
  isochron : Bool
  showAge : Bool
  ageLeft : Bool
  offset : ℝ × ℝ
  resurf : Bool
  showall : Bool

/-- the attributes `a0[0]` and `t` after `calculate_age` (Craterplot.py:69-97): age, lower and upper bound -/
structure AgeValues where
  a0 : ℝ
  t : ℝ
  lower : Except Err ℝ
  upper : Except Err ℝ

/-- the plot set: production, chronology and equilibrium function, reference diameter, presentation, limits of the axes -/
structure Set where
  pf : PFn
  pfc : PF
  cf : Chron
  ef : Option PFn
  ref : ℝ
  pr : Presentation
  xr : ℝ × ℝ
  yr : ℝ × ℝ

/-- the marks of one plot; positions in data coordinates, i.e. the decimal logarithm of the diameter and the density -/
structure CountMarks where
  points : List (ℝ × ℝ)
  /-- position and half length -/
  bars : List ((ℝ × ℝ) × ℝ)
  isochron : List (ℝ × ℝ)
  fit : List (ℝ × ℝ)
  /-- place in axes coordinates, age with errors upward and downward, whether the text ends there -/
  age : Option ((ℝ × ℝ) × (ℝ × Except Err ℝ × Except Err ℝ) × Bool)

/-- Craterplot.py:69-97 `calculate_age`, the attributes used here.  `t` has three elements (Model/Age.lean). -/
def ageValues (cv : CurveFit) (simpson : Simpson) (s : Set) (o : Obj) (src : Source) (p : Options) : Except Err (Option AgeValues) :=
  match p.kind with
  | .data => .ok none
  | .poisson b => do
    let r ← poissonAge s.pf s.cf simpson src p.range b s.ref
    match r.t, r.a0 with
    | [t, l, u], a :: _ => .ok (some ⟨a, t, .ok l, .ok u⟩)
    | _, _ => .error .index
  | .fit k => do
    let r ← fitAge s.pf s.cf cv s.pfc o k p.binning p.range p.resurf s.ref
    .ok (some ⟨r.a0.best, r.t, r.tLower, r.tUpper⟩)

/-- Craterplotset.py:248-250, 307-310: `data_to_axis` of an axis which is linear in x and logarithmic in y -/
def dataToAxis (xr yr : ℝ × ℝ) (q : ℝ × ℝ) : ℝ × ℝ :=
  ((q.1 - xr.1) / (xr.2 - xr.1), (log10 q.2 - yr.1) / (yr.2 - yr.1))

/-- Craterplot.py:205 -/
def textPlace (s : Set) (p : Options) (q : ℝ × ℝ) : ℝ × ℝ :=
  let xy := dataToAxis s.xr s.yr q
  let c : ℝ := 0.02 * (if p.ageLeft then -1 else 1)
  (xy.1 + c + p.offset.1 / (axisDecades s.xr * 20), xy.2 + c + p.offset.2 / (axisDecades s.xr * 20))

/-- the points of a curve as they are drawn: decimal logarithm of the diameter -/
def drawn (l : List (ℝ × ℝ)) : List (ℝ × ℝ) := l.map (fun q => (log10 q.1, q.2))

/-- Craterplot.py:201-207 -/
def ageText (s : Set) (p : Options) (v : AgeValues) (fit : List (ℝ × ℝ)) :
    Except Err (Option ((ℝ × ℝ) × (ℝ × Except Err ℝ × Except Err ℝ) × Bool)) :=
  if p.showAge then
    match fit with
    | [] => .error .index
    | q :: _ => .ok (some (textPlace s p q, (v.t, v.upper.map (fun u => u - v.t), v.lower.map (fun l => v.t - l)), p.ageLeft))
  else .ok none

/-- Craterplot.py:192-194 -/
def isoCurve (s : Set) (p : Options) (v : AgeValues) : Except Err (List (ℝ × ℝ)) :=
  if p.isochron then s.pf.getisochron s.pr v.a0 s.ef else .ok []

/-- Craterplot.py:189-207: isochron, fitted curve and text -/
def fitMarks (s : Set) (p : Options) (v : AgeValues) :
    Except Err (List (ℝ × ℝ) × List (ℝ × ℝ) × Option ((ℝ × ℝ) × (ℝ × Except Err ℝ × Except Err ℝ) × Bool)) := do
  let iso ← isoCurve s p v
  let (d, y) ← s.pf.getplotdata s.pr (some v.a0) (some (p.range.1 * ((0.99 : ℝ) : EReal), p.range.2 * ((1.01 : ℝ) : EReal)))
  let text ← ageText s p v ((drawn (d.zip y)))
  .ok (drawn iso, drawn (d.zip y), text)

/-- Craterplot.py:189: only with an age -/
def allFitMarks (s : Set) (p : Options) (v : Option AgeValues) :
    Except Err (List (ℝ × ℝ) × List (ℝ × ℝ) × Option ((ℝ × ℝ) × (ℝ × Except Err ℝ × Except Err ℝ) × Bool)) :=
  match v with
  | none => .ok ([], [], none)
  | some v => fitMarks s p v

/-- Craterplot.py:176-178: the arguments of `getplotdata` -/
def plotArgs (s : Set) (p : Options) : PlotArgs :=
  { pr := s.pr, binning := p.binning, range := some p.range,
    resurfacing := some (match p.kind with | .fit .cFit => if p.resurf then 1 else 0 | _ => 0),
    showall := p.showall, pf := some s.pfc }

/-- Craterplot.py:165-231; `none` if nothing is drawn.  `o` and `src` are the count as seen by `getplotdata` and by `Craterpdf`,
`none` without a count. -/
def overplot (cv : CurveFit) (simpson : Simpson) (s : Set) (count : Option (Obj × Source)) (p : Options) : Except Err (Option CountMarks) :=
  match count with
  | none => .ok none
  | some (o, src) =>
    if p.hide then .ok none
    else do
      let d ← (o.getplotdata (plotArgs s p)).2
      let v ← ageValues cv simpson s (o.getplotdata (plotArgs s p)).1 src p
      let m ← allFitMarks s p v
      .ok (some ⟨d.points.map (fun q => (log10 q.d, q.y)),
        if p.errorBars then d.points.map (fun q => ((log10 q.d, q.y), q.err)) else [], m.1, m.2.1, m.2.2⟩)

end

end Verif.Overplot
