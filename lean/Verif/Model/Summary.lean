import Verif.Py.Str
import Verif.Py.Exc
import Verif.Py.Decimal
import Mathlib.Data.List.Sort

/-!
Model of the summary table: `src/craterstats/Craterplotset.py` `create_summary_table` (660-743).

The texts of formatted numbers are given (their formats are modelled in `Verif.Model.Format`); modelled here are the choice of
rows, their order and rank, the columns and the errors.  The computation of the ages (`calculate_age`) is modelled elsewhere.
-/

namespace Verif.Summary
open Verif.Py

/-- the attributes of one plot used by the table -/
structure Plot where
  /-- the type is data: no row -/
  data : Bool
  /-- the type is c-fit or d-fit (otherwise poisson or b-poisson) -/
  fit : Bool
  type : List Char
  name : List Char
  sourceName : List Char
  source : List Char
  binning : List Char
  area : List Char
  /-- `resurf == 1` -/
  resurf1 : Bool
  resurf : List Char
  n : List Char
  nEvent : List Char
  /-- lower and upper limit, and the text of `gm.diameter_range` -/
  range : List Char × List Char × List Char
  /-- the same for the range of the bins used; absent for Poisson ages (Craterplotset.py:669 `getattr(cp, k, None)`) -/
  binRange : Option (List Char × List Char × List Char)
  /-- `t[0]` -/
  age : ℚ
  ageText : List Char × List Char × List Char
  a0Text : List Char × List Char × List Char
  densityText : List Char × List Char × List Char
  mathML : List Char × List Char
  latex : List Char × List Char

/-- Craterplotset.py:665-673 -/
def ageRows (plots : List Plot) : List Plot := plots.filter (fun p => !p.data)

/-- Craterplotset.py:677-678: the order given by `sorted(s, key=…, reverse=True)`, which keeps the order of equal ages -/
def ageOrder (rows : List Plot) : List ℕ :=
  (List.range rows.length).insertionSort (fun i j => (rows[j]?.map Plot.age).getD 0 ≤ (rows[i]?.map Plot.age).getD 0)

/-- Craterplotset.py:677-678: `sort_order` of a row -/
def sortOrder (rows : List Plot) (i : ℕ) : ℕ := (ageOrder rows).idxOf i

/-- Craterplotset.py:682-699: the columns -/
inductive Col
  | name | area | binning | range | binRange | type | resurf | n | nEvent | sortOrder | t | a0 | nd | source | blank | rangeText
  | mathML | latex

/-- Craterplotset.py:682-699; `d` is the last row -/
def columns (d : Plot) : List Col :=
  [.name, .area, .binning, if d.fit && !d.resurf1 then .binRange else .range, .type, .resurf, .n, .nEvent, .sortOrder, .t, .a0, .nd,
    .source, .blank, .rangeText, .mathML, .latex]

/-- Craterplotset.py:701-706 with `lbl` for `N(d_ref)` -/
def Col.header (lbl : List Char) : Col → List (List Char)
  | .name => ["Name".toList]
  | .area => ["Area".toList]
  | .binning => ["Binning".toList]
  | .range | .binRange => ["d_min".toList, "d_max".toList]
  | .type => ["Method".toList]
  | .resurf => ["Resurf".toList]
  | .n => ["N".toList]
  | .nEvent => ["N_event".toList]
  | .sortOrder => ["Sort_order".toList]
  | .t => ["Age".toList, "Age-".toList, "Age+".toList]
  | .a0 => ["a0".toList, "a0-".toList, "a0+".toList]
  | .nd => [lbl, lbl ++ ['-'], lbl ++ ['+']]
  | .source => ["Source".toList]
  | .blank => [" ".toList]
  | .rangeText => ["Range".toList]
  | .mathML => ["Age".toList, lbl]
  | .latex => ["Age".toList, lbl]

def three (x : List Char × List Char × List Char) : List Char := join [','] [x.1, x.2.1, x.2.2]

/-- Craterplotset.py:712-733: the text of one column; iterating over a missing range is a TypeError.  `ranged` is the column of the
range, by which `txt_range` is set. -/
def Col.value (d : Plot) (rank : ℕ) (ranged : Col) : Col → Except Exc (List Char)
  | .name => .ok (if d.name = [] then d.sourceName else d.name)
  | .area => .ok d.area
  | .binning => .ok d.binning
  | .range => .ok (join [','] [d.range.1, d.range.2.1])
  | .binRange => match d.binRange with
    | some r => .ok (join [','] [r.1, r.2.1])
    | none => .error .type
  | .type => .ok d.type
  | .resurf => .ok d.resurf
  | .n => .ok d.n
  | .nEvent => .ok d.nEvent
  | .sortOrder => .ok (natStr rank)
  | .t => .ok (three d.ageText)
  | .a0 => .ok (three d.a0Text)
  | .nd => .ok (three d.densityText)
  | .source => .ok d.source
  | .blank => .ok [' ']
  | .rangeText => match ranged, d.binRange with
    | .binRange, some r => .ok r.2.2
    | .binRange, none => .error .type
    | _, _ => .ok d.range.2.2
  | .mathML => .ok (d.mathML.1 ++ ',' :: d.mathML.2)
  | .latex => .ok (d.latex.1 ++ ',' :: d.latex.2)

/-- Craterplotset.py:710-734: one row -/
def rowText (cols : List Col) (d : Plot) (rank : ℕ) : Except Exc (List Char) := do
  let ln ← cols.mapM (Col.value d rank (cols.getD 3 .range))
  .ok (join [','] ln ++ ",\" \"".toList)

/-- Craterplotset.py:736-737 -/
def captions : List (List Char) :=
  [",,,,,,,,,,,,,,,,,,,,Formatted values [paste MathML into Word using CTRL-SHIFT-V]".toList, ",,,,,,,,,,,,,,,,,,,,,MathML,,Latex,".toList]

/-- Craterplotset.py:660-738: the text of the table, `none` without ages -/
def summaryTable (lbl : List Char) (plots : List Plot) : Except Exc (Option (List Char)) :=
  let s := ageRows plots
  match s.getLast? with
  | none => .ok none
  | some d => do
    let cols := columns d
    let rows ← s.mapIdx (fun i p => (i, p)) |>.mapM (fun x => rowText cols x.2 (sortOrder s x.1))
    .ok (some (join ['\n'] (captions ++ [join [','] (cols.flatMap (Col.header lbl))] ++ rows)))

end Verif.Summary
