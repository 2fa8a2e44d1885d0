import Verif.Model.Craterpdf
import Verif.Model.Plotting
import Verif.Model.Format
import Verif.Py.Str

/-!
Model of the drawing of an age likelihood: `Craterpdf.plot` with linear axis, `Craterpdf.offset`, `Craterpdf.violin_plot`
(`src/craterstats/Craterpdf.py:124-234`) and the position of the small plot beside the age text (`src/craterstats/Craterplot.py:206-227`).
The logarithmic axis of `Craterpdf.plot` is not modelled: its only call passes `logscale=False` (Craterplot.py:227).
-/

namespace Verif.MiniPlot
open Verif.Py Verif.Text Verif.Plotting Verif.Craterpdf Verif.Misc

noncomputable section

open Classical in
/-- the number handed to the text formatting; formatting is modelled for rational numbers only -/
def ratOf (x : ℝ) : ℚ := if h : ∃ q : ℚ, (q : ℝ) = x then h.choose else 0

/-- Craterpdf.py:166: `[f'{e:g}' for e in xt_units]`, one label -/
def ageLabel (f last e : ℝ) : List Char := gStr 5 (ratOf (f / last * e))

/-- Craterpdf.py:162-167 -/
def ageLabels (C : Classes) (xt : List ℝ) : Except Exc (List (List Char)) :=
  match xt.getLast? with
  | none => .error .index
  | some last => do
    let maxText ← strAge C (ratOf last) 0 0 3 none true false false false
    match split ' ' maxText with
    | a :: u :: _ =>
      match decVal a with
      | none => .error .value
      | some f =>
        if last = 0 then .error .nonFinite
        else .ok (xt.dropLast.map (ageLabel f last) ++ ["      ".toList ++ ageLabel f last last ++ ' ' :: u])
    | _ => .error .index

/-- ticks and labels of the time axis -/
structure AgeScale where
  ticks : List ℝ
  labels : List (List Char)

/-- Craterpdf.py:137, 156-167 with `t_range=None`.  The outer `none` is a tick loop which does not end within `fuel` passes. -/
def ageScale (fuel : ℕ) (C : Classes) (p : Pdf) (maxTicks : ℕ) : Option (Except Exc AgeScale) :=
  let maxT := maxOf (p.t 0.003) ((gaussianPercentiles 1 ++ [0.997]).map p.t)
  match ticks fuel [0, maxT] (some maxTicks) with
  | none => none
  | some (.error e) => some (.error e)
  | some (.ok t) => some (do
    let labels ← ageLabels C t.values
    .ok ⟨t.values, labels⟩)

/-- Craterpdf.py:202-203: the ends of the samples above half the maximum -/
def halfEdges (p : Pdf) : Except Exc (ℝ × ℝ) :=
  match p.pdf with
  | [] => .error .value
  | a :: l =>
    match ((List.zip p.ts p.pdf).filter (fun x => decide (maxOf a l / 2 < x.2))).map Prod.fst with
    | [] => .error .index
    | e :: es => .ok (e, (e :: es).getLast (List.cons_ne_nil e es))

/-- Craterpdf.py:193-206 `offset` -/
def offset (fuel : ℕ) (p : Pdf) (left : Bool) : Option (Except Exc ℝ) :=
  match ticks fuel [0, p.t 0.997] (some 3) with
  | none => none
  | some (.error e) => some (.error e)
  | some (.ok t) => some (do
    let edges ← halfEdges p
    match t.values with
    | [] => .error .value
    | v :: vs =>
      let m := maxOf v vs
      if m = 0 then .error .nonFinite
      else .ok (if left then (1 - edges.2 / m) - 0.1 else -(edges.1 / m) + 0.1))

/-- Craterplot.py:217-220: left edge of the small plot, in axes coordinates; `x` is the anchor of the age text (its right end if
`left`), `f * w` the length of the text and `box` the width of the plot -/
def boxLeft (left : Bool) (x f w box offset : ℝ) : ℝ :=
  let dx := if left then -(f * w + 0.03) + (-1 + offset) * box else f * w + 0.03 + offset * box
  x + dx

/-- `l[i:j]` with possibly negative indices -/
def pySlice {α : Type} (l : List α) (i j : ℤ) : List α :=
  let norm (k : ℤ) : ℕ := (if k < 0 then k + l.length else k).toNat
  (l.take (norm j)).drop (norm i)

/-- the three zones of a violin, each a list of (age, upper edge, lower edge) -/
structure Violin where
  whole : List (ℝ × ℝ × ℝ)
  sigma : List (ℝ × ℝ × ℝ)
  median : List (ℝ × ℝ × ℝ)

/-- Craterpdf.py:208-234 `violin_plot` at height `y` with half height `w0` -/
def violin (p : Pdf) (y w0 : ℝ) : Except Exc Violin :=
  match p.pdf with
  | [] => .error .value
  | a :: l =>
    if maxOf a l = 0 then .error .nonFinite
    else
      let w := 0.9 * w0 / maxOf a l
      let idx (q : ℝ) : ℤ := (searchsorted p.ts (p.t q) : ℤ) - 1
      let shape := List.zipWith (fun t v => (t, y + w * v, y - w * v)) p.ts p.pdf
      .ok ⟨pySlice shape (idx 0.0001) (idx 0.9999), pySlice shape (idx 0.16) (idx 0.84),
        pySlice shape (idx 0.5) (idx 0.5 + 1)⟩

end

end Verif.MiniPlot
