import Verif.Model.Cratercount
import Verif.Model.Format
import Verif.Model.Notation

/-!
Model of two texts of the legend: `src/craterstats/Craterplot.py` `make_legend_label`, lines 246-259: the number of craters and
the diameter range of a fit.

Numbers are exact reals.  Formatting works on rationals: `ρ` gives the (rational) floating point number obtained for a real one.
-/

namespace Verif.LegendText
open Verif.Py Verif.Text Verif.Cratercount

noncomputable section

/-- Craterplot.py:246-254.  `whole`: is `n_event` a numpy integer?  It is for counts binned here (`np.histogram` without weights,
Cratercount.py:281-300), but not for `.stat` files, whose columns are read with `float` (Cratercount.py:106-115); the format `d`
is not defined for floats (`ValueError`). -/
def cratersItem (ρ : ℝ → ℚ) (buffered bPoisson whole : Bool) (n nEvent : ℝ) : Except Exc (List Char) := do
  let s ← if buffered then .ok (fixedStr 1 (ρ nEvent))
    else if |nEvent - n| < 0.001 then .ok (gStr 5 (ρ n))
    else if whole then .ok (fixedStr 1 (ρ n) ++ " (of ".toList ++ intStr ⌊nEvent⌋ ++ [')'])
    else .error .value
  .ok (s ++ " craters".toList ++ (if buffered || bPoisson then " (buffered)".toList else []))

/-- `gm.range` of a pair of limits -/
def sortedPair (r : EReal × EReal) : EReal × EReal := (min r.1 r.2, max r.1 r.2)

/-- Craterplot.py:258 `gm.range(generate_bins(binning, range, expand=False))`.  For binning 'none' these are the limits themselves;
otherwise `generate_bins` takes the decimal logarithm of the limits and needs finite positive numbers (`int(floor(inf))` raises).
No boundaries: `gm.range` of an empty list is `nan`, which `sigfigs` cannot format. -/
def fitRange (bn : Binning) (r : EReal × EReal) : Except Err (EReal × EReal) :=
  if bn = .none then .ok (sortedPair r)
  else if r.1 = ⊤ ∨ r.1 = ⊥ ∨ r.2 = ⊤ ∨ r.2 = ⊥ then .error .domain
  else do
    let edges ← generateBins bn [r.1.toReal, r.2.toReal] 0 false
    match rangeOf edges with
    | some x => .ok ((x.1 : EReal), (x.2 : EReal))
    | Option.none => .error .nonFinite

/-- Craterplot.py:259 with diameter_range.py:7-25; the errors of the formatting cannot occur for two figures -/
def rangeText (C : Classes) (ρ : ℝ → ℚ) (r : EReal × EReal) : Except Err (List Char) :=
  match diameterRange C (ρ r.1.toReal) (if r.2 = ⊤ ∨ r.2 = ⊥ then Option.none else some (ρ r.2.toReal)) 2 with
  | .ok s => .ok s
  | .error _ => .error .nonFinite

/-- Craterplot.py:255-259; `poisson`: the type is poisson or b-poisson -/
def rangeItem (C : Classes) (ρ : ℝ → ℚ) (prebinned poisson : Bool) (bn : Binning) (r : EReal × EReal) : Except Err (List Char) := do
  let r ← if !prebinned && poisson then .ok r else fitRange bn r
  rangeText C ρ r

end

end Verif.LegendText
