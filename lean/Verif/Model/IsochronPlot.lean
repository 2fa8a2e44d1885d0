import Verif.Model.Production
import Verif.Model.Chronology
import Verif.Model.Isochrons

/-!
Model of `plot_isochrons` (`/repo/src/craterstats/Craterplotset.py:556-593`) for a list of isochrons (Model/Isochrons.lean).  The
matplotlib calls are recorded: curves, and labels with place and direction.  Colours, sizes and the text of the age (C37) are left out.
An age of 0 makes `a0` infinite; numpy goes on with a curve at height 0, here it is an error.
-/

namespace Verif.IsochronPlot
open Verif.Py Verif.Cratercount Verif.Chronology Verif.Production Verif.Cli

noncomputable section

/-- the part of the plot set used here; `aspect` is `data_aspect` -/
structure Frame where
  pf : PFn
  cf : Chron
  ef : Option PFn
  pr : Presentation
  xr : ℝ × ℝ
  yr : ℝ × ℝ
  aspect : ℝ

/-- place (decimal logarithms of diameter and density), direction (rise and run given to `arctan2`), side -/
structure Label where
  age : ℝ
  x : ℝ
  y : ℝ
  rise : ℝ
  run : ℝ
  above : Bool
  small : Bool

structure Drawn where
  curve : List (ℝ × ℝ)
  label : Option Label

/-- Craterplotset.py:577: the abscissae of the points less than a tenth of a decade from a line below the upper end of the axis -/
def nearTop (s : Frame) (pts : List (ℝ × ℝ)) : List ℝ :=
  (pts.filter (fun q => decide (|q.2 - (s.yr.2 - 0.1 * s.aspect)| < 0.1))).map Prod.fst

/-- Craterplotset.py:579; `x0` is `d10[0]` -/
def nearLeft (s : Frame) (x0 : ℝ) (pts : List (ℝ × ℝ)) : List ℝ :=
  (pts.filter (fun q => decide (|q.1 - max (s.xr.1 + 0.15) x0| < 0.1))).map Prod.fst

/-- Craterplotset.py:577-579: the abscissae averaged for the label; `pts` are the decimal logarithms of the isochron -/
def labelPoints (s : Frame) (pts : List (ℝ × ℝ)) : Except Err (List ℝ) :=
  match nearTop s pts with
  | x :: xs =>
    if x < s.xr.1 then
      match pts with
      | [] => .error .index
      | p :: _ => .ok (nearLeft s p.1 pts)
    else .ok (x :: xs)
  | [] =>
    match pts with
    | [] => .error .index
    | p :: _ => .ok (nearLeft s p.1 pts)

/-- Craterplotset.py:581-593 -/
def labelOf (s : Frame) (a0 : ℝ) (i : Isochron ℝ) (xs : List ℝ) : Except Err (Option Label) :=
  match xs with
  | [] => .ok none
  | x :: rest =>
    if i.hide then .ok none
    else do
      let sx := (x :: rest).sum / (x :: rest).length
      let v ← s.pf.evaluate s.pr ((10 : ℝ) ^ sx) (some a0)
      let l ← log10E v
      let v' ← s.pf.evaluate s.pr ((10 : ℝ) ^ (sx + 0.3)) (some a0)
      let l' ← log10E v'
      .ok (some ⟨i.age, sx, l - 0.05, l' - (l - 0.05), 0.3 * s.aspect, i.above, i.small⟩)

/-- Craterplotset.py:570-593, one round of the loop -/
def drawIsochron (s : Frame) (i : Isochron ℝ) : Except Err Drawn := do
  let a0 ← s.cf.a0 i.age
  let iso ← s.pf.getisochron s.pr a0 s.ef
  let d ← iso.mapM (fun q => log10E q.1)
  let y ← iso.mapM (fun q => log10E q.2)
  let xs ← labelPoints s (d.zip y)
  let label ← labelOf s a0 i xs
  .ok ⟨d.zip (iso.map Prod.snd), label⟩

/-- Craterplotset.py:556-593 -/
def plotIsochrons (s : Frame) (l : List (Isochron ℝ)) : Except Err (List Drawn) := l.mapM (drawIsochron s)

end

end Verif.IsochronPlot
