import Verif.Model.Scc
import Verif.Model.Reading

/-!
Model of the crater count files as texts: `/repo/src/craterstats/Cratercount.py` `__init__` (17-48), the text stage of `ReadStatFile`
(96-121), `ReadDiamFile` (123-148) and `ReadSCCfile` (169-184), `WriteStatFile` (197-229), and the file written by
`/repo/src/craterstats/miscellaneous.py` `merge_cratercounts` (146-156).

Numbers in texts are exact rationals; what is read is handed to the models of the readers over real numbers (`Model/Reading.lean`,
`Model/Cratercount.lean`).  The reading of shapefiles is a parameter.  The randomness file, which `__init__` reads as well if there is
one (line 30), is not part of this model.
-/

namespace Verif.CountFile

open Verif.Py Verif.Text Verif.Rand

/-- `s.split()`; `space` is the class of white space -/
def words (space : Char → Bool) : List Char → List (List Char)
  | [] => []
  | c :: l =>
    if space c then words space l
    else match l with
      | [] => [[c]]
      | d :: _ => if space d then [c] :: words space l else match words space l with
        | [] => [[c]]
        | h :: t => (c :: h) :: t

/-- Cratercount.py:177, 181 `float(re.findall(r'\s*[\d\.]*', v)[0])`.  The expression matches at the start of every text, so that this
is the first match; `float` ignores the white space. -/
def leadNumber (C : Classes) (v : TVal) : Except Exc ℚ :=
  match v with
  | .str s => tfloat (.str ((s.dropWhile C.space).takeWhile (fun c => C.digit c || c == '.')))
  | _ => .error .type

/-- `k in c` for a dictionary -/
def has (c : TVal) (k : List Char) : Bool :=
  match c with
  | .dict d => (dictGet d k).isSome
  | _ => false

/-- the part of a .scc file that is used -/
structure SccFields where
  diam : List ℚ
  fraction : Option (List ℚ)
  area : ℚ
  perimeter : Option ℚ

/-- Cratercount.py:178-181 -/
def sccPerimeter (C : Classes) (s : TVal) : Except Exc (Option ℚ) := do
  let p ← if has s "Perimeter".toList then do
      match ← tget s "Perimeter".toList with
      | .str t => match words C.space t with
        | [] => .error .index
        | w :: _ => do .ok (some (← tfloat (.str w)))
      | _ => .error .attribute
    else .ok none
  if has s "Total_perimeter".toList then do .ok (some (← leadNumber C (← tget s "Total_perimeter".toList))) else .ok p

/-- Cratercount.py:169-181 -/
def sccFields (C : Classes) (s : TVal) : Except Exc SccFields := do
  let c ← tget s "crater".toList
  let diam ← Scc.floats c "diam".toList
  let frac ← if has c "fraction".toList then do .ok (some (← Scc.floats c "fraction".toList)) else .ok none
  let area ← leadNumber C (← tget s "Total_area".toList)
  let per ← sccPerimeter C s
  .ok ⟨diam, frac, area, per⟩

/-- the part of a .diam file that is used -/
structure DiamFields where
  diameter : List ℚ
  referenceArea : Option (List ℚ)
  fraction : Option (List ℚ)
  area : Option ℚ

/-- Cratercount.py:123-135 -/
def diamFields (s : TVal) : Except Exc DiamFields := do
  let c ← tget s "crater".toList
  let diam ← Scc.floats c "diameter".toList
  if has c "reference_area".toList then do
    .ok ⟨diam, some (← Scc.floats c "reference_area".toList), none, none⟩
  else do
    let area ← tfloat (← tget s "area".toList)
    let frac ← if has c "fraction".toList then do .ok (some (← Scc.floats c "fraction".toList)) else .ok none
    .ok ⟨diam, none, frac, some area⟩

/-- one row of a .stat file as far as it is used: diameter, number, cumulative number and density, event number -/
structure StatFields where
  diam : ℚ
  n : ℚ
  ncum : ℚ
  ncumDensity : ℚ
  nEvent : ℚ
  deriving DecidableEq

/-- `float(e[k])` -/
def column (e : List (List Char)) (k : ℕ) : Except Exc ℚ :=
  match e[k]? with
  | some t => tfloat (.str t)
  | none => .error .index

/-- Cratercount.py:96-118: the rows; the number of columns is that of the first -/
def statFields (C : Classes) (file : List Char) : Except Exc (List StatFields) :=
  let t := (readTextfile C none true true false file).map (words C.space)
  match t with
  | [] => .error .index
  | r :: _ => t.mapM (fun e => do
    let d ← column e 0
    let n ← column e 1
    let c ← column e 4
    let p ← column e 5
    let v ← if r.length = 7 then .ok n else column e 10
    .ok ⟨d, n, c, p, v⟩)

/-- a row of a table to be written: what is read again as numbers, the six columns which are not as texts -/
structure StatLine where
  dMin : ℚ
  n : ℚ
  ncum : ℚ
  nEvent : ℚ
  /-- columns 3 and 4, 7 to 10 -/
  other : List (List Char)

/-- `f"{v:.3E}"` -/
def sciUpper (p : ℕ) (v : ℚ) : List Char := (sciStr p v).map (fun c => if c = 'e' then 'E' else c)

/-- Cratercount.py:215-225; the columns not read again are given as texts, with the widths of the code -/
def statLine (area : ℚ) (r : StatLine) : List Char :=
  ljust 7 (gStr 4 r.dMin) ++ rjust 11 (gStr 4 r.n) ++ rjust 13 (r.other.getD 0 []) ++ rjust 12 (r.other.getD 1 []) ++
    rjust 11 (gStr 4 r.ncum) ++ rjust 13 (sciUpper 3 (r.ncum / area)) ++ rjust 12 (r.other.getD 2 []) ++ rjust 12 (r.other.getD 3 []) ++
    rjust 12 (r.other.getD 4 []) ++ rjust 12 (r.other.getD 5 []) ++ rjust 12 (gStr 4 r.nEvent)

/-- Cratercount.py:208, 228 -/
def dashes (n : ℕ) : List Char := '#' :: List.replicate n '-'

/-- Cratercount.py:203-229 -/
def statLines (source binning : List Char) (area : ℚ) (rows : List StatLine) : List (List Char) :=
  ["# Craterstats3 exported stat file".toList, dashes 32, ['#'], "# Source: ".toList ++ source, "# Binning: ".toList ++ binning, ['#'],
    "# Total area = ".toList ++ gStr 5 area, ['#'],
    "#  D_min       F(D)       N_inc       Error        C(D)       N_cum       Error      D_mean      N_diff       Error     N_event".toList,
    ['#'], dashes 126] ++
  (rows.filter (fun r => decide (0 < r.n))).map (statLine area) ++ [dashes 126]

/-- Cratercount.py:197-229 -/
def statText (linesep source binning : List Char) (area : ℚ) (rows : List StatLine) : List Char :=
  writeTextfile linesep false (statLines source binning area rows)

/-- miscellaneous.py:146-154; `repr` is the text of a number in an f-string without format -/
def mergedLines (repr : ℚ → List Char) (names : List (List Char)) (a p : ℚ) (cs : List (ℚ × ℚ)) : List (List Char) :=
  ["# Merged crater diameter file".toList, "#----------------------------".toList, ['#']] ++ names.map (fun f => "# ".toList ++ f) ++
  [['#'], "area = ".toList ++ repr a, "perimeter = ".toList ++ repr p, ['#'], "crater = {diameter, fraction".toList] ++
  cs.map (fun x => ljust 12 (gStr 5 x.1) ++ "  ".toList ++ gStr 5 x.2) ++ [['}']]

/-- miscellaneous.py:156 -/
def mergedText (linesep : List Char) (repr : ℚ → List Char) (names : List (List Char)) (a p : ℚ) (cs : List (ℚ × ℚ)) : List Char :=
  writeTextfile linesep false (mergedLines repr names a p cs)

noncomputable section

def reals (l : List ℚ) : List ℝ := l.map (fun q : ℚ => (q : ℝ))

def SccFields.toFile (f : SccFields) : Reading.SccFile :=
  ⟨reals f.diam, f.fraction.map reals, (f.area : ℝ), f.perimeter.map (fun q : ℚ => (q : ℝ))⟩

def DiamFields.toFile (f : DiamFields) : Reading.DiamFile :=
  ⟨reals f.diameter, f.referenceArea.map reals, f.fraction.map reals, f.area.map (fun q : ℚ => (q : ℝ))⟩

def StatFields.toRow (f : StatFields) : Cratercount.StatRow := ⟨f.diam, f.n, f.ncum, f.ncumDensity, f.nEvent⟩

/-- what a file gives: a list of craters, or a table of bins -/
inductive Opened
  | craters (c : Reading.Count)
  | table (area : ℝ) (bins : List Cratercount.Bin)

/-- Cratercount.py:32-48: dispatch on the extension; every exception of a reader ends the program -/
def openCount (C : Classes) (shp : Except Exc Reading.Count) (ext file : List Char) : Except Exc Opened :=
  if ext = ".stat".toList then
    match statFields C file with
    | .ok rows => match Cratercount.readStat (rows.map StatFields.toRow) with
      | .ok (a, t) => .ok (.table a t)
      | .error _ => .error .system
    | .error _ => .error .system
  else if ext = ".diam".toList then
    match (readStructureFile C file >>= diamFields) with
    | .ok f => match Reading.readDiam f.toFile with
      | .ok c => .ok (.craters c)
      | .error _ => .error .system
    | .error _ => .error .system
  else if ext = ".scc".toList then
    match (readStructureFile C file >>= sccFields C) with
    | .ok f => match Reading.readScc f.toFile with
      | .ok c => .ok (.craters c)
      | .error _ => .error .system
    | .error _ => .error .system
  else if ext = ".shp".toList then
    match shp with
    | .ok c => .ok (.craters c)
    | .error _ => .error .system
  else .error .system

end

end Verif.CountFile
