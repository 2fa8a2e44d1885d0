import Verif.Model.Spatial
import Verif.Model.BinCraters
import Verif.Model.Settings
import Verif.Model.Filename
import Verif.Py.Decimal

/-!
Model of the writing of spatial counts as shapefiles (`/repo/src/craterstats/Spatialcount.py`: `find_rims` 286-313, `polygon_to_pts`
315-331, `writeSHPfiles` 254-284) and of the name of the file with the counting area (28-40).

pyproj's transformations are data of the model: one pair of functions per origin.  Exact reals; the points of a shapefile are
stored as they are.  The texts of the projection (`.prj`) and of the symbols (`.qml`) are left out.
-/

namespace Verif.Spatial

open Verif.Py Verif.Text

noncomputable section

/-- longitude and latitude of the origin of a projection -/
abbrev Origin := ℤ × ℤ

/-- Spatialcount.py:303 (`grid = 5`) -/
def originOf (x y : ℝ) : Origin := (Rand.roundInt (x / 5) * 5, Rand.roundInt (y / 5) * 5)

/-- Spatialcount.py:305-308: the two transformers of an origin, from (longitude, latitude) to metres and back -/
structure Projection where
  fwd : ℝ × ℝ → ℝ × ℝ
  inv : ℝ × ℝ → ℝ × ℝ

/-- a crater: diameter in km, longitude, latitude -/
structure Place where
  diam : ℝ
  lon : ℝ
  lat : ℝ

abbrev Ring := List (ℝ × ℝ)

/-- Spatialcount.py:292-293: the points of the unit circle -/
def circle (ns : ℕ) : Ring :=
  (List.range (ns + 1)).map (fun i : ℕ => (Real.cos (2 * Real.pi * i / ns), Real.sin (2 * Real.pi * i / ns)))

/-- the transformers made so far (`t_dict`; the entries `(origin, 'inverse')` are kept with those of `origin`) -/
abbrev Cache := List (Origin × Projection)

/-- Spatialcount.py:304-308 -/
def remember (make : Origin → Projection) (t : Cache) (o : Origin) : Cache :=
  match dictGet t o with
  | some _ => t
  | none => dictSet t o (make o)

/-- Spatialcount.py:302-312, one crater -/
def rimStep (make : Origin → Projection) (ns : ℕ) (st : Cache × List Ring) (c : Place) : Except Exc (Cache × List Ring) :=
  let o := originOf c.lon c.lat
  let t := remember make st.1 o
  match dictGet t o with
  | none => .error .key
  | some P =>
    let q := P.fwd (c.lon, c.lat)
    let r := c.diam * 1000 / 2
    .ok (t, st.2 ++ [(circle ns).map (fun e => P.inv (q.1 + e.1 * r, q.2 + e.2 * r))])

/-- Spatialcount.py:286-313 `find_rims`; with `ns = 0` the angles are divided by zero -/
def findRims (make : Origin → Projection) (ns : ℕ) (l : List Place) : Except Exc (List Ring) :=
  if ns = 0 then .error .value
  else do
    let r ← l.foldlM (rimStep make ns) ([], [])
    .ok r.2

/-- the counting area as the geometry library reports it: a polygon (its outline and its holes) or several of them -/
inductive Geom
  | polygon (outline : Ring) (holes : List Ring)
  | multi (parts : List (Ring × List Ring))

/-- Spatialcount.py:315-331 `polygon_to_pts` for the counting area (no list): of several polygons `get_exterior_ring` is None -/
def polygonToPts : Geom → Except Exc (List (List Ring))
  | .polygon outline holes => .ok [outline :: holes]
  | .multi _ => .error .attribute

/-- a record of the crater file, with its outline -/
structure CraterRecord where
  diam : ℝ
  lon : ℝ
  lat : ℝ
  rim : Ring

/-- what is in the two files afterwards (`none`: not written) and the error in which the writing ended -/
structure ShapeFiles where
  craters : Option (List CraterRecord)
  areas : Option (List (List Char × List Ring))
  failed : Option Exc

/-- Spatialcount.py:281: `Area_1`, `Area_2`, … -/
def areaName (i : ℕ) : List Char := "Area_".toList ++ natStr (i + 1)

/-- Spatialcount.py:254-284 `writeSHPfiles` -/
def writeShp (make : Origin → Projection) (craters : List Place) (area : Geom) : ShapeFiles :=
  match findRims make 100 craters with
  | .error e => ⟨none, none, some e⟩
  | .ok rims =>
    let c := some (List.zipWith (fun (p : Place) r => ⟨p.diam, p.lon, p.lat, r⟩) craters rims)
    match polygonToPts area with
    | .error e => ⟨c, none, some e⟩
    | .ok l => ⟨c, some (l.mapIdx (fun i p => (areaName i, p))), none⟩

end

/-- Spatialcount.py:35 `re.sub(r'CRATER', 'AREA', …)`: all occurrences, from left to right -/
def craterToArea : ℕ → List Char → List Char
  | 0, s => s
  | n + 1, s =>
    if "CRATER".toList <+: s then "AREA".toList ++ craterToArea n (s.drop 6)
    else match s with
      | [] => []
      | c :: t => c :: craterToArea n t

/-- Spatialcount.py:33-38: the file of the counting area of a crater file in shapefile format (`given`: the second argument; an
empty one counts as none) -/
def areaFile (C : Classes) (file : List Char) (given : Option (List Char)) : Except Exc (List Char) :=
  match given with
  | some (c :: s) => .ok (c :: s)
  | _ => do
    let n ← filename C file ['n'] none none 4
    filename C file ['p', '1', 'e'] (some (craterToArea (n.length + 1) n)) none 4

end Verif.Spatial
