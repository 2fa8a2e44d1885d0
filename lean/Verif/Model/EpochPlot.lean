import Verif.Model.Epochs
import Verif.Model.Format

/-!
Model of the epoch regions on crater count plots (`src/craterstats/Epochs.py:134-152` `oplot`) and on chronology and rate plots
(60-98 `chronology_oplot`).

The matplotlib calls are recorded: filled areas with their shade, lines, texts with their positions.  Line widths, text sizes and
colours of lines are not modelled.  `list[i]` beyond the end is an IndexError; the errors of `decode_formatting` are those of
`Verif.Epochs.decodeFormatting`.
-/

namespace Verif.EpochPlot
open Verif.Py Verif.Text Verif.Cratercount Verif.Production Verif.Chronology Verif.Epochs

noncomputable section

/-- an exception of the text functions among the errors of the numerical ones -/
def lift {α : Type} : Except Exc α → Except Err α
  | .ok x => .ok x
  | .error .index => .error .index
  | .error _ => .error .domain

/-- a list element, or IndexError -/
def at? {α : Type} (l : List α) (i : ℕ) : Except Err α :=
  match l[i]? with
  | some x => .ok x
  | none => .error .index

/-- `cps.grey[3-colour]` (Epochs.py:73, 148): `grey` is the list of five greys (constants.py:83), a negative index counts from its
end -/
def shade (grey : List (List Char)) (colour : ℕ) : Except Err (List Char) :=
  match pyIndex grey (3 - (colour : ℤ)) with
  | some g => .ok g
  | none => .error .index

/-- a filled area: the vertices of its outline and its shade -/
structure Region where
  outline : List (ℝ × ℝ)
  shade : List Char

/-- Epochs.py:146-149, 152: a curve as plotted, over the logarithm of the diameter (the diameters are powers of ten) -/
def logX (l : List (ℝ × ℝ)) : List (ℝ × ℝ) := l.map (fun p => (log10 p.1, p.2))

/-- Epochs.py:145-152, one round of the loop: the area between two isochrons, and the younger one as a line if it is a marked
boundary -/
def countRegion (grey : List (List Char)) (iso : List (List (ℝ × ℝ))) (colour : List ℕ) (boundary : List Bool) (i : ℕ) :
    Except Err (Region × Option (List (ℝ × ℝ))) := do
  let a ← at? iso i
  let b ← at? iso (i + 1)
  let g ← shade grey (← at? colour (i + 1))
  let m ← at? boundary i
  .ok (⟨logX (a ++ b.reverse), g⟩, if m then some (logX a) else none)

/-- Epochs.py:141-143 and the loop: the isochrons of the boundaries after the first, the area between each two following ones -/
def countPlot (grey : List (List Char)) (f : PFn) (c : Chron) (pr : Presentation) (ef : Option PFn) (time : List ℝ)
    (formatting : List (List Char)) : Except Err (List (Region × Option (List (ℝ × ℝ)))) := do
  let a0 ← (time.drop 1).mapM c.a0
  let iso ← a0.mapM (fun a => f.getisochron pr a ef)
  let (_, colour, _, boundary) ← lift (decodeFormatting formatting)
  (List.range (iso.length - 1)).mapM (countRegion grey iso colour boundary)

/-- what `chronology_oplot` draws -/
structure ChronologyMarks where
  /-- areas: ages and values of the upper edge, and the shade; the lower edge is at 1e-11 of the upper one -/
  regions : List (List (ℝ × ℝ) × List Char)
  /-- dividing lines: age, upper end, and whether it is a marked boundary; the lower end is at 1e-11 of the upper one -/
  lines : List (ℝ × ℝ × Bool)
  /-- names of the epochs with their positions -/
  names : List (ℝ × ℝ × List Char)
  /-- texts of the boundary times with their positions and whether they stand above -/
  times : List (ℝ × ℝ × List Char × Bool)

/-- Epochs.py:70-73, one round -/
def chronRegion (grey : List (List Char)) (pt py time : List ℝ) (colour : List ℕ) (i : ℕ) :
    Except Err (List (ℝ × ℝ) × List Char) := do
  let t0 ← at? time (i + 1)
  let t1 ← at? time (i + 2)
  let g ← shade grey (← at? colour (i + 1))
  .ok ((linspace t0 t1 100).map (fun t => (t, interp pt py t)), g)

/-- Epochs.py:75-78, one round -/
def chronLine (pt py time : List ℝ) (boundary : List Bool) (i : ℕ) : Except Err (ℝ × ℝ × Bool) := do
  let t ← at? time (i + 1)
  .ok (t, interp pt py t, ← at? boundary i)

/-- Epochs.py:83, 90: `self.cf.phi(t) if phi else self.cf.N1(t)` -/
def valueAt (c : Chron) (phi : Bool) (t : ℝ) : Except Err ℝ := if phi then c.phi t else c.N1 t

/-- Epochs.py:80-84, one round: `t0` is the list of boundaries and the left end of the axis -/
def chronName (c : Chron) (phi : Bool) (t0 : List ℝ) (epoch : List (List Char)) (i : ℕ) : Except Err (ℝ × ℝ × List Char) := do
  let a ← at? t0 i
  let b ← at? t0 (i + 1)
  let t := (a + b) / 2
  let y ← valueAt c phi t
  .ok (t - 0.03, y * 1.5, ← at? epoch i)

/-- Epochs.py:91-93, one round; `ρ` is the floating point number of a time, formatted with `0.3g` -/
def chronTime (ρ : ℝ → ℚ) (y : ℝ) (offset : List Bool) (time : List ℝ) (i : ℕ) :
    Except Err (Option (ℝ × ℝ × List Char × Bool)) := do
  let t ← at? time i
  if t ≠ 0 then do
    let o ← at? offset i
    .ok (some (t, y, ' ' :: gStr 2 (ρ t) ++ [' '], o))
  else .ok none

/-- Epochs.py:60-98; `left` is `cps.xrange[0]` -/
def chronologyPlot (ρ : ℝ → ℚ) (grey : List (List Char)) (c : Chron) (phi : Bool) (left : ℝ) (time : List ℝ)
    (epoch formatting : List (List Char)) : Except Err ChronologyMarks := do
  let (pt, py) ← c.getplotdata phi true
  let (_, colour, offset, boundary) ← lift (decodeFormatting formatting)
  let regions ← (List.range (time.length - 2)).mapM (chronRegion grey pt py time colour)
  let lines ← (List.range (time.length - 1)).mapM (chronLine pt py time boundary)
  let names ← (List.range epoch.length).mapM (chronName c phi (time ++ [left]) epoch)
  let t1 ← at? time 1
  let y ← valueAt c phi t1
  let times ← (List.range time.length).mapM (chronTime ρ (if phi then y * 0.7 else y / 2.5) offset time)
  .ok ⟨regions, lines, names, times.filterMap id⟩

end

end Verif.EpochPlot
