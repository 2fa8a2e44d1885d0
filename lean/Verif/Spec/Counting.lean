import Mathlib.Data.Real.Basic
import Mathlib.Algebra.BigOperators.Group.List.Basic

/-! Specification: numbers of craters above a diameter or between two diameters.  A crater is a pair
(diameter, fraction). -/

namespace Verif.Spec

noncomputable section

/-- total fraction of the craters with diameter at least `D` -/
def weightFrom (cs : List (ℝ × ℝ)) (D : ℝ) : ℝ := ((cs.filter (fun c => decide (D ≤ c.1))).map Prod.snd).sum

/-- number of craters with diameter at least `D` -/
def countFrom (cs : List (ℝ × ℝ)) (D : ℝ) : ℕ := (cs.filter (fun c => decide (D ≤ c.1))).length

/-- total fraction of the craters with `lo ≤ diameter < hi` -/
def weightIn (cs : List (ℝ × ℝ)) (lo hi : ℝ) : ℝ :=
  ((cs.filter (fun c => decide (lo ≤ c.1 ∧ c.1 < hi))).map Prod.snd).sum

/-- number of craters with `lo ≤ diameter < hi` -/
def countIn (cs : List (ℝ × ℝ)) (lo hi : ℝ) : ℕ :=
  (cs.filter (fun c => decide (lo ≤ c.1 ∧ c.1 < hi))).length

/-- total fraction -/
def weightAll (cs : List (ℝ × ℝ)) : ℝ := (cs.map Prod.snd).sum

end

end Verif.Spec
