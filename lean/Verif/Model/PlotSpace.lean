import Verif.Model.Notation
import Verif.Model.Cratercount
import Verif.Py.Exc

/-!
Model of the layout of a plot: `/repo/src/craterstats/Craterplotset.py` `CreatePlotSpace` (143-308) and `calculate_time_axis_params`
(312-323), and `Hartmann_bins` (`/repo/src/craterstats/miscellaneous.py:212-224`).  Lengths are exact real numbers in cm; fonts and
the drawing itself are not modelled.
-/

namespace Verif.PlotSpace

open Verif.Py Verif.Text Verif.Cratercount

/-- the presentations drawn by `CreatePlotSpace` (Craterplotset.py:200-207) -/
inductive Pres
  | cumulative | differential | rplot | hartmann | chronology | rate
  deriving DecidableEq

/-- Craterplotset.py:165: `[float(e) for e in print_dimensions.split('x')]` -/
def dimensions (s : List Char) : Except Exc (List ℚ) :=
  (split 'x' s).mapM (fun e => match decVal e with | some v => .ok v | none => .error .value)

noncomputable section

/-- Craterplotset.py:156-157: the length of an axis in decades (in Ga for the time axis), at least 1 -/
def axisDecades (r : ℝ × ℝ) : ℝ := max (max r.1 r.2 - min r.1 r.2) 1

/-- Craterplotset.py:159-163 -/
def dataAspect (p : Pres) (d0 d1 : ℝ) : ℝ :=
  if p = .differential then 2 else if p = .hartmann ∨ p = .chronology ∨ p = .rate then d1 / d0 else 1

/-- Craterplotset.py:167-171, cm per decade; three or more numbers cannot be multiplied by an array of two -/
def printScale (p : Pres) (d0 d1 : ℝ) (dims : List ℝ) : Except Exc ℝ :=
  match dims with
  | [] => .error .index
  | [v] => .ok (max v 1)
  | a :: b :: l =>
    if p = .hartmann then .ok (a / d0)
    else if l = [] then .ok (min (max a 1 / d0) (max (b * dataAspect p d0 d1) 1 / d1))
    else .error .value

/-- figure size and the position of the axes within the figure (left, bottom, width, height), in cm -/
structure Layout where
  xsize : ℝ
  ysize : ℝ
  left : ℝ
  bottom : ℝ
  width : ℝ
  height : ℝ

/-- Craterplotset.py:150-185.  `randomness`: the setting of that name, which reserves room above the axes. -/
def layout (p : Pres) (xr yr : ℝ × ℝ) (ptSize : ℝ) (randomness : Bool) (dims : List ℝ) : Except Exc Layout := do
  let d0 := axisDecades xr
  let d1 := axisDecades yr
  let s ← printScale p d0 d1 dims
  let rp : ℝ := if randomness && decide (p ≠ .chronology ∧ p ≠ .rate) then 1 else 0
  let margin := ptSize * 0.2
  let xsize := d0 * s + 2 * margin
  let ysize :=
    if p = .hartmann then xsize + s * rp
    else if p = .chronology ∨ p = .rate then xsize
    else (rp + d1 / dataAspect p d0 d1) * s + 2 * margin
  .ok { xsize := xsize, ysize := ysize, left := margin * 1, bottom := margin * 1,
        width := margin * (xsize / margin - 2), height := margin * (ysize / margin - 2 - rp) }

/-- Craterplotset.py:312-321: size of the axes of plots with a time axis (sequence and uncertainty), without margins -/
def timeAxisSize (dims : List ℝ) : Except Exc (ℝ × ℝ) :=
  match dims with
  | [v] => .ok (5 * v, 5 * v)
  | [a, b] => .ok (a, b)
  | _ => .error .value

end

/-! ### ticks and titles -/

/-- Craterplotset.py:222: `np.arange(np.ceil(x0), np.floor(x1)+1)` -/
def decadeTicks (x0 x1 : ℤ) : List ℤ := (List.range (x1 + 1 - x0).toNat).map (fun i : ℕ => x0 + (i : ℤ))

/-- Craterplotset.py:223: the label of a decade (`0g` is the format `g`) -/
def decadeLabel (e : ℤ) : List Char :=
  if 0 ≤ e then gStr 5 ((10 : ℚ) ^ e) ++ "$\\,$km".toList else gStr 5 ((10 : ℚ) ^ (e + 3)) ++ "$\\,$m".toList

/-- Craterplotset.py:222-224 with the style 'natural': positions (decimal logarithms) and labels -/
noncomputable def naturalTicks (x0 x1 : ℝ) : List (ℤ × List Char) := (decadeTicks ⌈x0⌉ ⌊x1⌋).map (fun e => (e, decadeLabel e))

/-- miscellaneous.py:217-219: the labels belonging to the powers of two from -10 to 10 -/
def hartmannLabels : List (List Char) :=
  ([1, 2, 4, 8, 16, 31, 63, 125, 250, 500] : List ℕ).map natStr ++ ["  ".toList ++ natStr 1 ++ "km".toList] ++
    ([2, 4, 8, 16, 32, 64, 128, 256, 512, 1024] : List ℕ).map natStr

/-- miscellaneous.py:216: the powers of two as decimal logarithms, with their exponents -/
noncomputable def hartmannValues : List (ℤ × ℝ) := (List.range 21).map (fun i : ℕ => ((i : ℤ) - 10, log10 ((2 : ℝ) ^ ((i : ℤ) - 10))))

/-- miscellaneous.py:212-224: tick positions with their exponents, labels, and the distance of the minor ticks.  Without any tick the
unpacking fails (ValueError), with only one the second is missing (IndexError). -/
noncomputable def hartmannBins (x0 x1 : ℝ) : Except Exc (List ((ℤ × ℝ) × List Char) × ℝ) :=
  match (hartmannValues.zip hartmannLabels).filter (fun t => decide (x0 ≤ t.1.2 ∧ t.1.2 ≤ x1)) with
  | [] => .error .value
  | [_] => .error .index
  | t0 :: t1 :: l =>
    let t0' := if t0.1.2 < 0 then (t0.1, t0.2 ++ "m".toList) else t0
    .ok (t0' :: t1 :: l, (t1.1.2 - t0.1.2) / 2)

/-- Craterplotset.py:205-206: the axis title of chronology and rate plots -/
def chronologyTitle (rate : Bool) (refDiameter : ℚ) : List Char :=
  if rate then "Crater formation rate N(>".toList ++ fixedStr 0 refDiameter ++ " km), km$^{-2}$ Ga$^{-1}$".toList
  else "Cumulative crater density N(>".toList ++ fixedStr 0 refDiameter ++ " km), km$^{-2}$".toList

/-! ### bin boundaries -/

/-- what is drawn for one bin boundary: a shaded bin and a label -/
structure Mark where
  colour : ℕ
  shaded : Option (ℝ × ℝ)
  label : Option ℝ

noncomputable section

/-- Craterplotset.py:297-305 for the boundaries from number `i` on -/
def overlayFrom (lo hi : ℝ) : ℕ → List ℝ → Except Exc (List Mark)
  | _, [] => .ok []
  | i, b :: l => do
    if b < hi then
      let sh ← if i % 3 ≠ 0 then
          match l with
          | [] => .error .index
          | b' :: _ => .ok (some (b, b'))
        else .ok none
      let rest ← overlayFrom lo hi (i + 1) l
      .ok (⟨i % 3, sh, if lo < b then some b else none⟩ :: rest)
    else overlayFrom lo hi (i + 1) l

/-- Craterplotset.py:293-305 for a plot with the given binning, if the limits of the axis are an array (as after autoscaling) -/
def binOverlay (b : Binning) (x0 x1 : ℝ) : Except Exc (List Mark) :=
  match generateBins b [(10 : ℝ) ^ x0, (10 : ℝ) ^ x1] 0 true with
  | .error _ => .error .value
  | .ok bins => overlayFrom ((10 : ℝ) ^ x0) ((10 : ℝ) ^ x1) 0 bins

end

end Verif.PlotSpace
