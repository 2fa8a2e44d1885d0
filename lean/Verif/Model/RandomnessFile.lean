import Verif.Model.Randomness
import Verif.Model.TextStructure
import Verif.Model.Format
import Verif.Py.Exc
import Mathlib.Data.List.Sort

/-!
Model of the randomness file of `/repo/src/craterstats/Randomnessanalysis.py`: `write` (404-436) and `read` (438-451).
Numbers are exact; values which are not finite occur only as `nan` of the number of standard deviations.
-/

namespace Verif.Rand

open Verif.Py Verif.Text

/-- `f"{s:<n}"` -/
def ljust (n : ℕ) (s : List Char) : List Char := s ++ List.replicate (n - s.length) ' '

/-- `f"{s:>n}"` (numbers: `f"{x:n…}"`) -/
def rjust (n : ℕ) (s : List Char) : List Char := List.replicate (n - s.length) ' ' ++ s

/-- one entry of `self.montecarlo`: the number of trials, the results by bin, and the number of standard deviations of each
bin (`none` is nan); `calculate_stats` (171-186) gives `stats` the same keys as `trials` -/
structure Measured where
  n : ℕ
  trials : List (List Char × List ℚ)
  sigma : List Char → Option ℚ

/-- Randomnessanalysis.py:28 -/
def measureNames : List (List Char) := ["m2cnd".toList, "sdaa".toList]

/-- Randomnessanalysis.py:411: names of the bins of all measures, sorted as numbers.  The order of equal numbers is that of
first occurrence; in Python it depends on the order of the set. -/
def allBins (A : List (List Char × Measured)) : List (List Char) :=
  (A.flatMap (fun m => m.2.trials.map Prod.fst)).dedup.insertionSort (fun a b => (decVal a).getD 0 ≤ (decVal b).getD 0)

/-- Randomnessanalysis.py:416 -/
def sigmaStr (x : Option ℚ) : List Char := rjust 9 (match x with | some v => gStr 3 v | none => "nan".toList)

/-- Randomnessanalysis.py:413-418 -/
def sigmaRow (A : List (List Char × Measured)) (bin : List Char) : List Char :=
  ljust 12 bin ++ A.flatMap (fun m => '\t' ::
    if bin ∈ m.2.trials.map Prod.fst then sigmaStr (m.2.sigma bin) else rjust 9 ['-'])

/-- Randomnessanalysis.py:420-421 -/
def sigmaLines (A : List (List Char × Measured)) : List (List Char) :=
  ['#'] :: ("n_sigma = {bin".toList ++ A.flatMap (fun m => ", ".toList ++ m.1)) :: (allBins A).map (sigmaRow A) ++ [['}']]

/-- Randomnessanalysis.py:427: one row; `v[t]` beyond the end is an IndexError -/
def trialRow (m : Measured) (t : ℕ) : Except Exc (List Char) := do
  let vs ← m.trials.mapM (fun b => match b.2[t]? with | some v => Except.ok (ljust 12 (gStr 6 v)) | none => .error .index)
  .ok (join ['\t'] (ljust 12 (natStr t) :: vs))

/-- Randomnessanalysis.py:425-434 -/
def measureLines (x : List Char × Measured) : Except Exc (List (List Char)) := do
  let rows ← (List.range x.2.n).mapM (trialRow x.2)
  .ok ([['#'], x.1 ++ " = {".toList, "n_trials = ".toList ++ natStr x.2.n,
    "trials  = {index, ".toList ++ join ", ".toList (x.2.trials.map Prod.fst)] ++ rows ++ [['}'], ['}']])

/-- Randomnessanalysis.py:404-436: the lines written.  `float` of the name of a bin may be a ValueError. -/
def raLines (version filename : List Char) (A : List (List Char × Measured)) : Except Exc (List (List Char)) :=
  if (allBins A).all (fun b => (decVal b).isSome) then do
    let blocks ← A.mapM measureLines
    .ok (["# Randomness analysis".toList, "version = ".toList ++ version, "source = \"".toList ++ filename ++ ['"']] ++
      sigmaLines A ++ blocks.flatten)
  else .error .value

/-- the file written, with the system's line ending -/
def raWrite (linesep version filename : List Char) (A : List (List Char × Measured)) : Except Exc (List Char) := do
  .ok (writeTextfile linesep false (← raLines version filename A))

/-- indexing by a text: `c[k]` -/
def tget (c : TVal) (k : List Char) : Except Exc TVal :=
  match c with
  | .dict d => match dictGet d k with
    | some v => .ok v
    | none => .error .key
  | _ => .error .type

/-- `int(v)`; white space and underscores are not accepted -/
def tint (v : TVal) : Except Exc ℤ :=
  match v with
  | .str s => match intVal s with
    | some z => .ok z
    | none => .error .value
  | _ => .error .type

/-- `float(v)`; white space and underscores are not accepted -/
def tfloat (v : TVal) : Except Exc ℚ :=
  match v with
  | .str s => match decVal s with
    | some z => .ok z
    | none => .error .value
  | _ => .error .type

/-- `for e in v` -/
def telems (v : TVal) : Except Exc (List TVal) :=
  match v with
  | .list l => .ok l
  | .dict d => .ok (d.map (fun x => .str x.1))
  | .str s => .ok (s.map (fun c => .str [c]))
  | .none => .error .type

/-- `v.keys()` -/
def tkeys (v : TVal) : Except Exc (List (List Char)) :=
  match v with
  | .dict d => .ok (d.map Prod.fst)
  | _ => .error .attribute

/-- what is read of one measure: number of trials and results by bin -/
abbrev ReadMeasure := ℤ × List (List Char × List ℚ)

/-- Randomnessanalysis.py:446-451 -/
def readMeasure (v : TVal) : Except Exc ReadMeasure := do
  let n ← tint (← tget v "n_trials".toList)
  let t ← tget v "trials".toList
  let bins ← tkeys t
  let cols ← (bins.drop 1).mapM (fun b => do
    let l ← telems (← tget t b)
    let vs ← l.mapM tfloat
    Except.ok (b, vs))
  .ok (n, cols)

/-- Randomnessanalysis.py:444-451; `name in c` is a TypeError if nothing was read -/
def readMeasures (c : TVal) : List (List Char) → Except Exc (List (List Char × ReadMeasure))
  | [] => .ok []
  | name :: names =>
    match c with
    | .dict d =>
      match dictGet d name with
      | some v => do
        let m ← readMeasure v
        let rest ← readMeasures c names
        .ok ((name, m) :: rest)
      | none => readMeasures c names
    | _ => .error .type

/-- Randomnessanalysis.py:438-451; `file` is the first existing of the two locations, if there is one -/
def raRead (C : Classes) (file : Option (List Char)) : Except Exc (List (List Char × ReadMeasure)) :=
  match file with
  | none => .ok []
  | some f => do readMeasures (← readStructureFile C f) measureNames

end Verif.Rand
