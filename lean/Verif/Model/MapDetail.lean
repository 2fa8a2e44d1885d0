import Verif.Model.MapPlot
import Verif.Model.Measure
import Verif.Model.BinCraters

/-!
Model of what is drawn over the maps of a randomness analysis (`/repo/src/craterstats/Randomnessanalysis.py`: `oplot_neighbours` 66-76,
`oplot_voronoi` 78-114, called from `plot_map_and_histogram` 306-311).

Places are longitude and latitude in degrees.  The projection and the geodesic calculations (pyproj), and the cells (scipy, spherely) are data
of the model.  A place that cannot be projected has infinite coordinates (`none`), and matplotlib leaves out the lines that lead to it.
Line widths and colours are left out.
-/

namespace Verif.MapDetail

open Verif.Py Verif.Spatial Verif.Rand

noncomputable section

/-- `pyproj.Geod(a=1, f=0)` (Randomnessanalysis.py:93): `inv` gives the azimuth at the first place and the distance, `fwd` the place
reached -/
structure Geod where
  inv : ℝ × ℝ → ℝ × ℝ → ℝ × ℝ
  fwd : ℝ × ℝ → ℝ → ℝ → ℝ × ℝ

/-- a polygon of shapely: outer boundary and holes; each a closed ring, its last place being its first -/
structure Part where
  exterior : Ring
  interiors : List Ring

/-- the part of a Voronoi cell within the counting area (Randomnessanalysis.py:657) -/
inductive Cell where
  | polygon (p : Part)
  | multi (ps : List Part)

/-- Randomnessanalysis.py:89: `shape.geoms`, or the shape itself -/
def Cell.parts : Cell → List Part
  | .polygon p => [p]
  | .multi ps => ps

/-- Randomnessanalysis.py:91-92: `np.linspace(0, 1-1/ns, ns)` with `ns = 20` -/
def fractions : List ℝ := (List.range 20).map (fun j : ℕ => j * ((1 - 1 / 20) / 19))

/-- Randomnessanalysis.py:102-110: the places for the edge from `p` to `q`; line 97: `2 * math.pi / 1800` -/
def edgePlaces (G : Geod) (p q : ℝ × ℝ) : Ring :=
  let r := G.inv p q
  if r.2 > 2 * Real.pi / 1800 then fractions.map (fun f => G.fwd p r.1 (r.2 * f)) else [p]

/-- Randomnessanalysis.py:99-110 -/
def ringPlaces (G : Geod) (r : Ring) : Ring :=
  (List.range r.length).flatMap (fun i =>
    match r[i]?, r[(i + 1) % r.length]? with
    | some p, some q => edgePlaces G p q
    | _, _ => [])

/-- Randomnessanalysis.py:86-114: one outline for each polygon; line 113 takes the projected places for the outer boundary of a polygon without
holes, which is drawn -/
def oplotVoronoi (G : Geod) (proj : ℝ × ℝ → Option (ℝ × ℝ)) (cells : List Cell) : List (List (Option (ℝ × ℝ))) :=
  (cells.flatMap Cell.parts).map (fun p => (ringPlaces G p.exterior).map proj)

/-- Randomnessanalysis.py:73-76: a line for each crater -/
def oplotNeighbours (proj : ℝ × ℝ → Option (ℝ × ℝ)) (craters neighbours : List (ℝ × ℝ)) : List (Option (ℝ × ℝ) × Option (ℝ × ℝ)) :=
  (craters.zip neighbours).map (fun x => (proj x.1, proj x.2))

variable {ι : Type} [DecidableEq ι]

/-- Randomnessanalysis.py:306-310 with 176-177, 472-473: the lines on the map of the craters of a bin.  `none`: the search of the neighbours
does not end.  Creating a point and taking its coordinates may change its longitude by a whole turn, which makes no difference to the
projection: it is left out. -/
def neighbourLines (S : Sphere (ℝ × ℝ) ι) (proj : ℝ × ℝ → Option (ℝ × ℝ)) (ρ : ℝ → ℚ) (fuel : ℕ) (edges : List ℝ) (cs : List (Placed (ℝ × ℝ)))
    (key : List Char) : Option (Except Exc (List (Option (ℝ × ℝ) × Option (ℝ × ℝ)))) :=
  match measuredBin ρ edges cs key with
  | .error e => some (.error e)
  | .ok l =>
    let pts := l.map Placed.pos
    (kthMeasure S (fileCraters S pts) 2 fuel pts (pts.map S.cell)).map (fun r => do
      let x ← r
      let craters ← selectBin ρ edges cs key
      .ok (oplotNeighbours proj (craters.map Placed.pos) x.2))

end

end Verif.MapDetail
