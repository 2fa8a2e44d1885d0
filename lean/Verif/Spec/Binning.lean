import Mathlib.Analysis.SpecialFunctions.Pow.Real
import Mathlib.Data.List.Basic

/-!
Specification of the named binnings, independent of the model: which numbers are bin boundaries, and what it
means for a list of boundaries to be a gap-free stretch of the grid that covers a set of diameters.
-/

namespace Verif.Spec

/-- the published mantissas of the pseudo-log binning (18 steps per decade) -/
noncomputable def pseudoLogMantissas : List ℝ :=
  [1, 11 / 10, 12 / 10, 13 / 10, 14 / 10, 15 / 10, 17 / 10, 2, 25 / 10, 3, 35 / 10, 4, 45 / 10, 5, 6, 7, 8, 9]

/-- a boundary grid: either mantissas times powers of ten, or a geometric progression `ratio ^ (j - offset)` -/
inductive Grid
  | pseudoLog
  | geometric (ratio offset : ℝ)

/-- `x` is a boundary of the grid -/
def Grid.Edge : Grid → ℝ → Prop
  | .pseudoLog, x => ∃ (e : ℤ), ∃ m ∈ pseudoLogMantissas, x = m * (10 : ℝ) ^ e
  | .geometric ratio offset, x => ∃ j : ℤ, x = ratio ^ ((j : ℝ) - offset)

/-- `edges` is a strictly increasing stretch of the grid without gaps -/
structure Stretch (G : Grid) (edges : List ℝ) : Prop where
  increasing : edges.Pairwise (· < ·)
  onGrid : ∀ x ∈ edges, G.Edge x
  noGap : ∀ (i : ℕ) (h : i + 1 < edges.length), ∀ x, G.Edge x → edges[i] < x → edges[i + 1] ≤ x

/-- `x` is in the half-open bin number `i` -/
def InBin (edges : List ℝ) (i : ℕ) (x : ℝ) : Prop :=
  ∃ h : i + 1 < edges.length, edges[i] ≤ x ∧ x < edges[i + 1]

/-- every diameter lies in exactly one bin -/
def Covers (edges : List ℝ) (d : List ℝ) : Prop := ∀ x ∈ d, ∃! i, InBin edges i x

end Verif.Spec
