import Verif.Model.Misc
import Verif.Model.Rims
import Mathlib.Topology.Order.OrderClosed
import Mathlib.Topology.Instances.Real.Lemmas
import Mathlib.Topology.Constructions

/-!
Model of the maps of a count: the limits of the axes (`/repo/src/craterstats/Spatialcount.py`: `plot` 334-413), and the size and place of the
map beside the histogram in the panels of a randomness analysis (`/repo/src/craterstats/Randomnessanalysis.py`:
`get_plot_reduction_factor` 249-289, `plot_map_and_histogram` 291-316).

The projection (pyproj) is data of the model.  pyproj returns infinite coordinates for a place that is not visible; the limits of the axes
are infinite then, which matplotlib rejects (ValueError).  Grid lines, colours and texts are left out.
-/

namespace Verif.MapPlot

open Verif.Py Verif.Spatial Verif.Misc

noncomputable section

/-! ### limits of the axes -/

/-- PROJ's orthographic projection of a sphere (Spatialcount.py:346), degrees; `none` stands for infinite coordinates -/
def ortho (R lon0 lat0 : ℝ) (p : ℝ × ℝ) : Option (ℝ × ℝ) :=
  let d := (p.1 - lon0) * Real.pi / 180
  let b := p.2 * Real.pi / 180
  let b0 := lat0 * Real.pi / 180
  if 0 ≤ Real.sin b0 * Real.sin b + Real.cos b0 * Real.cos b * Real.cos d then
    some (R * (Real.cos b * Real.sin d), R * (Real.cos b0 * Real.sin b - Real.sin b0 * Real.cos b * Real.cos d))
  else none

/-- Spatialcount.py:359, 378; a place that cannot be projected leads to the ValueError of lines 409-410 -/
def projectRing (proj : ℝ × ℝ → Option (ℝ × ℝ)) (r : Ring) : Except Exc Ring :=
  r.mapM (fun p => match proj p with
    | some q => .ok q
    | none => .error .value)

/-- `gm.range` of numbers; of an empty list it is a pair of nan, which matplotlib rejects -/
def rangeE (v : List ℝ) : Except Exc (ℝ × ℝ) :=
  match range v false false with
  | .pair a b => .ok (a, b)
  | _ => .error .value

/-- Spatialcount.py:372-373 -/
def growArea (acc : Option (ℝ × ℝ)) (v : List ℝ) : Except Exc (Option (ℝ × ℝ)) :=
  match acc with
  | some r => do
    let q ← rangeE (v ++ [r.1, r.2])
    .ok (some q)
  | none => do
    let q ← rangeE v
    .ok (some q)

/-- Spatialcount.py:381-382; `list(None)` is a TypeError -/
def growRim (acc : Option (ℝ × ℝ)) (v : List ℝ) : Except Exc (Option (ℝ × ℝ)) :=
  match acc with
  | some r => do
    let q ← rangeE (v ++ [r.1, r.2])
    .ok (some q)
  | none => .error .type

/-- Spatialcount.py:384-385, 345, 372-373, 381-382, for one coordinate; `own` tells whether the map has the axes of the figure -/
def axisLimits (own : Bool) (areas rims : List (List ℝ)) : Except Exc (ℝ × ℝ) := do
  let a ← areas.foldlM growArea none
  let b ← rims.foldlM growRim a
  match b with
  | none => .error .type
  | some r =>
    let q ← rangeE [r.1, r.2]
    let m := (if own then 0.1 else 0.02) * (r.2 - r.1)
    .ok (q.1 - m, q.2 + m)

/-- Spatialcount.py:334-410: limits of both axes; `outlines` are the exteriors of the polygons, `rims` those of `find_rims` -/
def mapLimits (proj : ℝ × ℝ → Option (ℝ × ℝ)) (own : Bool) (outlines rims : List Ring) : Except Exc ((ℝ × ℝ) × (ℝ × ℝ)) := do
  let a ← outlines.mapM (projectRing proj)
  let r ← rims.mapM (projectRing proj)
  let x ← axisLimits own (a.map (fun l => l.map Prod.fst)) (r.map (fun l => l.map Prod.fst))
  let y ← axisLimits own (a.map (fun l => l.map Prod.snd)) (r.map (fun l => l.map Prod.snd))
  .ok (x, y)

/-! ### the size of the map -/

/-- a region of the plane with its bounds (`shp.bounds`) -/
structure Shape where
  pts : Set (ℝ × ℝ)
  x0 : ℝ
  y0 : ℝ
  x1 : ℝ
  y1 : ℝ

/-- `shp_aff.scale(s, xfact=f, yfact=f)`: about the middle of the bounds -/
def scale (f : ℝ) (s : Shape) : Shape :=
  let cx := (s.x0 + s.x1) / 2
  let cy := (s.y0 + s.y1) / 2
  ⟨(fun p : ℝ × ℝ => (cx + f * (p.1 - cx), cy + f * (p.2 - cy))) '' s.pts,
    cx + f * (s.x0 - cx), cy + f * (s.y0 - cy), cx + f * (s.x1 - cx), cy + f * (s.y1 - cy)⟩

/-- `shp_aff.translate` -/
def translate (dx dy : ℝ) (s : Shape) : Shape :=
  ⟨(fun p : ℝ × ℝ => (p.1 + dx, p.2 + dy)) '' s.pts, s.x0 + dx, s.y0 + dy, s.x1 + dx, s.y1 + dy⟩

/-- Randomnessanalysis.py:278-282 -/
def normalise (s : Shape) : Shape :=
  let mg := max (s.x1 - s.x0) (s.y1 - s.y0)
  let t := scale (1 / mg) s
  translate (-t.x0) (-t.y0) t

/-- Randomnessanalysis.py:283-284 (`hf = .3`) -/
def histBox : Set (ℝ × ℝ) := {p | 1 - 0.3 ≤ p.1 ∧ p.1 ≤ 1 ∧ 0 ≤ p.2 ∧ p.2 ≤ 0.3 * 0.5}

/-- shapely's `overlaps` for two areas: the interiors meet and neither covers the other -/
def overlaps (a b : Set (ℝ × ℝ)) : Prop := (interior a ∩ interior b).Nonempty ∧ ¬ a ⊆ b ∧ ¬ b ⊆ a

open Classical in
/-- Randomnessanalysis.py:285-287: the loop; `none` if it has not ended after so many rounds -/
def reduce (s : Shape) : ℕ → ℝ → Option ℝ
  | 0, _ => none
  | n + 1, f => if overlaps (scale f s).pts histBox then reduce s n (f * 0.98) else some f

/-- Randomnessanalysis.py:274-288 -/
def reductionFactor (s : Shape) (fuel : ℕ) : Option ℝ := reduce (normalise s) fuel 1

/-! ### the place of map and histogram in a panel -/

/-- Randomnessanalysis.py:302-306: the frame of the histogram in a panel with sides of length 1 (`offset = (0, .15)`) -/
def histFrame : Set (ℝ × ℝ) :=
  {p | 1 - 0.3 ≤ p.1 ∧ p.1 ≤ 1 ∧ (1 - 0.3 * 0.5) * 0.15 ≤ p.2 ∧ p.2 ≤ (1 - 0.3 * 0.5) * 0.15 + 0.3 * 0.5}

/-- Randomnessanalysis.py:305 and Spatialcount.py:384-385, 409-412: where a point of the normalised map is drawn in a panel with sides of
length 1, if no crater extends beyond the area: in a square of side `f` at the upper left, with a margin of 2% at each side, equal scale in
both directions and in the middle of the square -/
def drawnAt (f : ℝ) (s : Shape) (p : ℝ × ℝ) : ℝ × ℝ :=
  let k := f / 1.04
  (f / 2 + k * (p.1 - (s.x0 + s.x1) / 2), 1 - f / 2 + k * (p.2 - (s.y0 + s.y1) / 2))

end

end Verif.MapPlot
