import Verif.Model.RandomnessFile

/-!
Model of the spatial crater count file: `/repo/src/craterstats/Spatialcount.py` `writeSCCfile` (208-251) and `readSCCfile` (58-109).

Numbers are exact rationals.  The areas of an outline are lists of rings of points; whether one ring lies within another is decided by
the geometry library and is a parameter.  The construction of polygons from rings is assumed to succeed; area and perimeter of the
result, and the ranges of its coordinates, are computed by the library and are not modelled.
-/

namespace Verif.Scc

open Verif.Py Verif.Text Verif.Rand

/-- longitude and latitude -/
abbrev Pt := ℚ × ℚ

/-- `f"{q:.{p}f}"` for `0 < p` -/
def fixStr (p : ℕ) (q : ℚ) : List Char :=
  let m := roundEven (|q| * 10 ^ p)
  (if q < 0 then ['-'] else []) ++ natStr (m / 10 ^ p) ++ '.' :: fixDigits p (m % 10 ^ p)

/-- a shape of a shapefile: all points, and where the rings begin -/
structure Shape where
  points : List Pt
  parts : List ℕ

/-- a crater: diameter, fraction, longitude, latitude -/
structure Crater where
  diam : ℚ
  fraction : ℚ
  lon : ℚ
  lat : ℚ
  deriving DecidableEq

/-- what has been read from a pair of shapefiles -/
structure Source where
  /-- the shapes of the areas -/
  sa : List Shape
  craters : List Crater
  radius : ℚ
  area : ℚ
  perimeter : ℚ
  /-- the two comment lines with time and name of the files (without `# `) -/
  notes : List Char × List Char

def extTag : List Char := "ext".toList
def intTag : List Char := "int".toList

/-- Spatialcount.py:214-218: the entries of one shape from its ring `j` on, the next ring having the number `i` -/
def shapeEntries (ends : List ℕ) : ℕ → ℕ → ℕ → List (ℕ × List Char)
  | 0, _, _ => []
  | n + 1, j, i => List.replicate (ends.getD (j + 1) 0 - ends.getD j 0) (i, if j = 0 then extTag else intTag) ++
      shapeEntries ends n (j + 1) (i + 1)

/-- Spatialcount.py:209-218: ring number and tag of each point -/
def entries : List Shape → ℕ → List (ℕ × List Char)
  | [], _ => []
  | s :: l, i => shapeEntries (s.parts ++ [s.points.length]) s.parts.length 0 i ++ entries l (i + s.parts.length)

/-- Spatialcount.py:219-220 -/
def boundaryRow (i : ℕ) (x : (ℕ × List Char) × Pt) : List Char :=
  join ['\t'] [ljust 5 (natStr i), ljust 5 (natStr x.1.1), ljust 4 x.1.2, rjust 23 (fixStr 15 x.2.1), rjust 23 (fixStr 15 x.2.2)]

/-- Spatialcount.py:219-220 -/
def boundaryTable (sa : List Shape) : List (List Char) :=
  (List.zip (entries sa 1) (sa.flatMap Shape.points)).mapIdx (fun i x => boundaryRow (i + 1) x)

/-- Spatialcount.py:222-223 -/
def craterRow (c : Crater) : List Char :=
  join ['\t'] [ljust 12 (gStr 6 c.diam), rjust 9 (gStr 2 c.fraction), rjust 23 (fixStr 15 c.lon), rjust 23 (fixStr 15 c.lat), ['1']]

/-- Spatialcount.py:222-247: the lines; `sub_area[-1]` of an outline without points is an IndexError -/
def sccLines (version : List Char) (S : Source) : Except Exc (List (List Char)) :=
  match (entries S.sa 1).getLast? with
  | none => .error .index
  | some l =>
    let s2 := [['#'], "# Extra lines for OpenCraterTool compatibility:".toList,
        "a-axis radius = ".toList ++ gStr 5 S.radius ++ " <km>".toList] ++
      (List.range l.1).map (fun i => "# Area_name ".toList ++ natStr (i + 1) ++ " = NULL".toList) ++ [['#']]
    .ok (["# Spatial crater count".toList, "craterstats_version = ".toList ++ version, ['#'], "# Derived from:".toList,
        "# ".toList ++ S.notes.1, "# ".toList ++ S.notes.2, ['#'],
        "a_axis_radius = ".toList ++ gStr 5 S.radius ++ " <km>".toList,
        "Total_area = ".toList ++ gStr 5 S.area ++ " <km2>".toList,
        "Total_perimeter = ".toList ++ gStr 5 S.perimeter ++ " <km>".toList, ['#']] ++ s2 ++
      ["unit_boundary = {vertex, sub_area, tag, lon, lat".toList] ++ boundaryTable S.sa ++
      [['}'], "crater = {diam, fraction, lon, lat, topo_scale_factor".toList] ++ S.craters.map craterRow ++ [['}']])

/-- the file written -/
def writeScc (linesep version : List Char) (S : Source) : Except Exc (List Char) := do
  .ok (writeTextfile linesep false (← sccLines version S))

/-- Spatialcount.py:60 `a[-_]axis radius` at the start of a text -/
def isAxis : List Char → Bool
  | c :: d :: t => c == 'a' && (d == '-' || d == '_') && "axis radius".toList.isPrefixOf t
  | _ => false

/-- Spatialcount.py:60 `re.sub`; the first argument is the number of characters still to be skipped -/
def subAxis : ℕ → List Char → List Char
  | _, [] => []
  | n + 1, _ :: l => subAxis n l
  | 0, c :: l => if isAxis (c :: l) then "oct_a_axis_radius".toList ++ subAxis 12 l else c :: subAxis 0 l

/-- Spatialcount.py:85 `[pt for pt, _ in groupby(pts)]` -/
def dedupRuns {α : Type} [DecidableEq α] : List α → List α
  | [] => []
  | [a] => [a]
  | a :: b :: l => if a = b then dedupRuns (b :: l) else a :: dedupRuns (b :: l)

/-- what is read -/
structure Spatial where
  craters : List Crater
  radius : ℚ
  /-- shell and holes of each polygon -/
  polygons : List (List Pt × List (List Pt))
  deriving DecidableEq

/-- `[float(e) for e in v[k]]` -/
def floats (v : TVal) (k : List Char) : Except Exc (List ℚ) := do (← telems (← tget v k)).mapM tfloat

/-- `l[e]` -/
def pick {α : Type} (l : List α) (e : ℕ) : Except Exc α :=
  match l[e]? with
  | some x => .ok x
  | none => .error .index

/-- Spatialcount.py:63-72; `c` has the key `fraction` only if there is such a definition outside the tables -/
def readCraters (c : TVal) : Except Exc (List Crater) := do
  let crater ← tget c "crater".toList
  let diam ← floats crater "diam".toList
  let frac ← match c with
    | .dict d => if (dictGet d "fraction".toList).isSome then floats crater "fraction".toList else .ok (diam.map (fun _ => 1))
    | _ => .error .type
  let lon ← floats crater "lon".toList
  let lat ← floats crater "lat".toList
  let q := (diam.zipIdx.insertionSort (fun a b => a.1 ≤ b.1)).map Prod.snd
  q.mapM (fun e => do .ok ⟨← pick diam e, ← pick frac e, ← pick lon e, ← pick lat e⟩)

/-- Spatialcount.py:74-75 -/
def readRadius (c : TVal) : Except Exc ℚ := do
  let v ← match c with
    | .dict d => match dictGet d "a_axis_radius".toList, dictGet d "oct_a_axis_radius".toList with
      | some v, _ => .ok v
      | none, some v => .ok v
      | none, none => .error .key
    | _ => .error .type
  match v with
  | .str s => tfloat (.str ((split ' ' s).headD []))
  | _ => .error .attribute

/-- order of pairs -/
def ringLe (a b : ℤ × Bool) : Prop := a.1 < b.1 ∨ a.1 = b.1 ∧ (a.2 = true → b.2 = true)

instance (a b : ℤ × Bool) : Decidable (ringLe a b) := by unfold ringLe; infer_instance

/-- Spatialcount.py:78: numbers of the rings, with `True` for interior ones -/
def ringNumbers (sub tag : List TVal) : Except Exc (List (ℤ × Bool)) := do
  let l ← (List.zip sub tag).mapM (fun x => do .ok ((← tint x.1), decide (x.2 = .str intTag)))
  .ok (l.dedup.insertionSort ringLe)

/-- Spatialcount.py:82-83: the points of one ring -/
def ringPoints (lon lat sub : List TVal) (i : ℤ) : Except Exc (List Pt) := do
  let l ← (List.zip lon (List.zip lat sub)).mapM (fun x => do
    if (← tint x.2.2) = i then .ok [((← tfloat x.1), (← tfloat x.2.1))] else .ok [])
  .ok (dedupRuns l.flatten)

/-- `z[i:]` -/
def sliceFrom {α : Type} (z : List α) (i : ℤ) : List α := z.drop (if i < 0 then ((z.length : ℤ) + i).toNat else i.toNat)

/-- Spatialcount.py:77-104 -/
def readPolygons (within : List Pt → List Pt → Bool) (c : TVal) : Except Exc (List (List Pt × List (List Pt))) := do
  let b ← tget c "unit_boundary".toList
  let sub ← telems (← tget b "sub_area".toList)
  let tag ← telems (← tget b "tag".toList)
  let z ← ringNumbers sub tag
  let lon ← telems (← tget b "lon".toList)
  let lat ← telems (← tget b "lat".toList)
  let d ← z.mapM (fun x => do .ok (x.1, ← ringPoints lon lat sub x.1))
  -- lines 88-93: the ranges are only begun by ring 1
  if (z.head?.map Prod.fst).getD 1 ≠ 1 then .error .unbound else
  let ring (i : ℤ) : List Pt := ((d.find? (fun x => x.1 = i)).map Prod.snd).getD []
  .ok ((z.filter (fun x => !x.2)).map (fun x =>
    (ring x.1, ((sliceFrom z x.1).filter (fun y => within (ring y.1) (ring x.1))).map (fun y => ring y.1))))

/-- Spatialcount.py:58-104 -/
def readScc (C : Classes) (within : List Pt → List Pt → Bool) (file : List Char) : Except Exc Spatial := do
  let s := subAxis 0 (join ['\n'] (readTextfile C none false true true file))
  let c ← readStructure C s
  let craters ← readCraters c
  let radius ← readRadius c
  let polygons ← readPolygons within c
  .ok ⟨craters, radius, polygons⟩

end Verif.Scc
