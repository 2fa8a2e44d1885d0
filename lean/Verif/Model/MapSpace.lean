import Verif.Model.PlotSpace
import Verif.Model.MapPlot

/-!
Model of the figure of a map: `/repo/src/craterstats/Craterplotset.py` `create_map_plotspace` (990-1014), and the equal scale of both axes
(`/repo/src/craterstats/Spatialcount.py:413`: `ax.set_aspect('equal', adjustable='box')`, work of matplotlib).

Lengths are exact real numbers in cm.  Fonts, resolution and title are left out.
-/

namespace Verif.MapSpace

open Verif.Py Verif.PlotSpace

noncomputable section

/-- Craterplotset.py:997-1012.  A margin of zero, or a first number of zero, leads to a division by zero; other than one or two numbers cannot be
unpacked (ValueError). -/
def mapSpace (ptSize : ℝ) (dims : List ℝ) : Except Exc Layout := do
  let margin := ptSize * 0.2
  let size ← match dims with
    | [v] => .ok (5 * v + 2 * margin, 5 * v + 2 * margin)
    | [a, b] => if a = 0 then .error .nonFinite else .ok (a + 2 * margin, b + 2 * margin)
    | _ => .error .value
  if margin = 0 then .error .nonFinite
  else .ok { xsize := size.1, ysize := size.2, left := margin * 1, bottom := margin * 1,
             width := margin * (size.1 / margin - 2), height := margin * (size.2 / margin - 2) }

/-- matplotlib's `apply_aspect` for equal scales with `adjustable='box'` and the anchor in the middle: the axes are made narrower or lower -/
def equalAspect (xr yr : ℝ × ℝ) (l : Layout) : Layout :=
  let ratio := (yr.2 - yr.1) / (xr.2 - xr.1)
  let h := l.width * ratio
  let size := if h ≤ l.height then (l.width, h) else (l.height / ratio, l.height)
  { l with left := l.left + (l.width - size.1) / 2, bottom := l.bottom + (l.height - size.2) / 2, width := size.1, height := size.2 }

/-- where a place of the axes is on paper, from the lower left corner of the figure -/
def onPaper (xr yr : ℝ × ℝ) (l : Layout) (q : ℝ × ℝ) : ℝ × ℝ :=
  (l.left + (q.1 - xr.1) / (xr.2 - xr.1) * l.width, l.bottom + (q.2 - yr.1) / (yr.2 - yr.1) * l.height)

end

end Verif.MapSpace
