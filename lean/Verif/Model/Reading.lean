import Verif.Model.Cratercount

/-!
Model of the crater file readers `ReadDiamFile`, `ReadSCCfile` (src/craterstats/Cratercount.py:123-148, 169-184) and
of `merge_cratercounts` (src/craterstats/miscellaneous.py:106-157).

Simplifications: the text structure is already parsed (the parser is modelled in `Model/TextStructure.lean`), numbers
are exact reals; the printing precision of the merged file (`{:<12g}`) is not modelled.  The messages
`self.errormsg` (lines 138-141) are only stored and change nothing.
-/

namespace Verif.Reading
open Verif.Cratercount

noncomputable section

/-- the part of a .diam text structure that `ReadDiamFile` uses -/
structure DiamFile where
  diameter : List ℝ
  referenceArea : Option (List ℝ)
  fraction : Option (List ℝ)
  area : Option ℝ

/-- what a reader puts into the `Cratercount` object -/
structure Count where
  craters : List Crater
  area : ℝ
  perimeter : Option ℝ
  prebinned : Bool
  buffered : Bool

/-- Cratercount.py:133 `[area/float(e) for e in c['reference_area']]` with `area = 1.`; Python raises on zero -/
def reciprocals (l : List ℝ) : Except Err (List ℝ) := l.mapM (fun e => fdiv 1 e)

/-- Cratercount.py:123-148.  `min(frac)` raises on an empty list; `zip` stops at the shorter list;
`sorted(..., reverse=True)` sorts the pairs in descending order. -/
def readDiam (f : DiamFile) : Except Err Count := do
  let (area, buffered, frac) ←
    match f.referenceArea with
    | some r => do
      let w ← reciprocals r
      .ok ((1 : ℝ), true, w)
    | Option.none =>
      match f.area with
      | Option.none => .error .attribute
      | some a => .ok (a, false, f.fraction.getD (f.diameter.map fun _ => 1))
  if frac = [] then .error .emptyInput
  else
    let l := (List.zip f.diameter frac).mergeSort (fun p q => craterLe q p)
    if l = [] then .error .emptyInput
    else .ok { craters := l, area := area, perimeter := Option.none, prebinned := false, buffered := buffered }

/-- the part of a .scc text structure that `ReadSCCfile` uses -/
structure SccFile where
  diam : List ℝ
  fraction : Option (List ℝ)
  totalArea : ℝ
  perimeter : Option ℝ

/-- Cratercount.py:182-183 `diam[e]`, `frac[e]` for one sorted index -/
def sccPick (frac : List ℝ) (p : ℝ × ℕ) : Except Err Crater :=
  match frac[p.2]? with
  | some w => .ok (p.1, w)
  | Option.none => .error .index

/-- Cratercount.py:169-184: stable ascending sort of the indices by diameter, then `frac[e]` (IndexError if the
fraction column is shorter) -/
def readScc (f : SccFile) : Except Err Count := do
  let frac := f.fraction.getD (f.diam.map fun _ => 1)
  let q := (f.diam.zipIdx).mergeSort (fun p q => decide (p.1 ≤ q.1))
  let craters ← q.mapM (sccPick frac)
  .ok { craters := craters, area := f.totalArea, perimeter := f.perimeter, prebinned := false, buffered := false }

/-- miscellaneous.py:127-147: the accumulation loop; `p += None` is a TypeError -/
def mergeLoop : List Count → List Crater → ℝ → ℝ → Except Err (List Crater × ℝ × ℝ)
  | [], cs, a, p => .ok (cs, a, p)
  | c :: l, cs, a, p =>
    if c.prebinned then .error .invalidBinning
    else match c.perimeter with
      | Option.none => .error .attribute
      | some per => mergeLoop l (cs ++ c.craters) (a + c.area) (p + per)

/-- miscellaneous.py:106-157: fewer than two files are refused; otherwise the content of the written .diam file -/
def mergeCounts (l : List Count) : Except Err (List Crater × ℝ × ℝ) :=
  if l.length < 2 then .error .emptyInput else mergeLoop l [] 0 0

end

end Verif.Reading
