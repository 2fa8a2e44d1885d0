import Verif.Model.Misc
import Verif.Model.Randomness
import Mathlib.Analysis.SpecialFunctions.Trigonometric.Inverse

/-!
Model of the geometry in `/repo/src/craterstats/Spatialcount.py` (`readSHPfiles` 154-188: diameters and fractions of craters drawn as
polygons; `find_enclosing_polygon` 190-204) and of `random_points_pp` in Randomnessanalysis.py 540-546.

Areas and the relations between polygons are computed by spherely: they are data of the model.  Exact reals; angles in degrees.
-/

namespace Verif.Spatial

open Verif.Py

noncomputable section

/-! ### craters drawn as polygons -/

/-- what the libraries report about one crater polygon: its area, whether it is covered by the counting area, the area of the
intersection with it, and the centroid -/
structure CraterShape where
  area : ℝ
  covered : Bool
  inter : ℝ
  lon : ℝ
  lat : ℝ

/-- Spatialcount.py:163: `2 * rc * math.acos(1 - c_area / (2 * math.pi * rc ** 2))`; outside [-1, 1] `math.acos` raises ValueError -/
def sphericalDiameter (rc area : ℝ) : Except Exc ℝ :=
  let z := 1 - area / (2 * Real.pi * rc ^ 2)
  if -1 ≤ z ∧ z ≤ 1 then .ok (2 * rc * Real.arccos z) else .error .value

/-- Spatialcount.py:171-176 (a crater polygon without area which is not covered: division by zero) -/
def fractionOf (s : CraterShape) : Except Exc ℝ :=
  if s.covered then .ok 1
  else if s.area = 0 then .error .nonFinite
  else Misc.af2lf (s.inter / s.area)

/-- a crater as stored: diameter, fraction, longitude, latitude -/
structure Stored where
  diam : ℝ
  fraction : ℝ
  lon : ℝ
  lat : ℝ

/-- Spatialcount.py:158-177, one crater -/
def storeOne (rc : ℝ) (s : CraterShape) : Except Exc Stored := do
  let d ← sphericalDiameter rc s.area
  let f ← fractionOf s
  .ok ⟨d, f, s.lon, s.lat⟩

/-- Spatialcount.py:139-140, 153-183: the craters kept -/
def readShapes (rc ra : ℝ) (l : List CraterShape) : Except Exc (List Stored) :=
  if rc ≠ ra then .error .value
  else do
    let r ← l.mapM (storeOne rc)
    .ok (r.filter (fun c => decide (c.fraction > 0)))

/-! ### range from which random points are drawn -/

/-- limits of longitude and latitude -/
structure Box where
  x0 : ℝ
  x1 : ℝ
  y0 : ℝ
  y1 : ℝ

/-- Spatialcount.py:190-202: `bounds` are the limits of the coordinates of the vertices -/
def enclosing (bounds : Box) (coversNorth coversSouth : Bool) : Box :=
  let b := bounds
  let b := if coversNorth then ⟨-180, 180, bounds.y0, 90⟩ else b
  if coversSouth then ⟨-180, 180, -90, bounds.y1⟩ else b

/-- shapely's `bounds` of a polygon given by its vertices (at least one) -/
def boundsOf (v : ℝ × ℝ) (l : List (ℝ × ℝ)) : Box :=
  ⟨(l.map Prod.fst).foldl min v.1, (l.map Prod.fst).foldl max v.1, (l.map Prod.snd).foldl min v.2, (l.map Prod.snd).foldl max v.2⟩

def radians (d : ℝ) : ℝ := d * Real.pi / 180
def degrees (r : ℝ) : ℝ := r * 180 / Real.pi

/-- `np.random.uniform(a, b)` made from a random number `r` in [0, 1) -/
def uniform (a b r : ℝ) : ℝ := a + (b - a) * r

/-- Randomnessanalysis.py:542-545, one point (longitude, latitude) -/
def randomPoint (b : Box) (rx ry : ℝ) : ℝ × ℝ :=
  (uniform b.x0 b.x1 rx, degrees (Real.arcsin (uniform (Real.sin (radians b.y0)) (Real.sin (radians b.y1)) ry)))

/-- Randomnessanalysis.py:560: size of a batch -/
def batchSize (n count : ℤ) (hitRate : ℝ) : ℕ := (⌊1.2 * ((n - count : ℤ) : ℝ) / hitRate⌋ + 10).toNat

/-- Randomnessanalysis.py:559-561: batch number `i`; `rnd i j` is the pair of random numbers for its point `j` -/
def drawBatch (b : Box) (n : ℤ) (hitRate : ℝ) (rnd : ℕ → ℕ → ℝ × ℝ) (i : ℕ) (count : ℤ) : List (ℝ × ℝ) :=
  (List.range (batchSize n count hitRate)).map (fun j => randomPoint b (rnd i j).1 (rnd i j).2)

end

end Verif.Spatial
