import Verif.Model.Randomness

/-!
Model of the choice between the two measures of randomness and of the standard deviation of adjacent area
(`/repo/src/craterstats/Randomnessanalysis.py:467-476, 638-659`).
-/

namespace Verif.Rand

open Verif.Py

variable {P ι : Type} [DecidableEq ι]

/-- Randomnessanalysis.py:638-659: standard deviation of adjacent area.  `voronoi pts` is the work of scipy's `SphericalVoronoi` and of spherely
(643-656): an error (as for points occurring twice), or the area, within the counting area, of the cell of each point. -/
noncomputable def sdaa (voronoi : List P → Except Exc (P → ℝ)) (pts : List P) : Except Exc ℝ := do
  let area ← voronoi pts
  stdOf (pts.map area)

/-- Randomnessanalysis.py:467-476: the value of the measure; a measure of another name leaves the variable without a value.  The loop of the
neighbour search may go on for ever: `none` when the fuel runs out. -/
noncomputable def evaluateRandomness (S : Sphere P ι) (voronoi : List P → Except Exc (P → ℝ)) (fuel : ℕ) (measure : List Char) (pts : List P)
    (ids : List ι) (hpd : Filed P ι) : Option (Except Exc ℝ) :=
  if measure = "m2cnd".toList then (kthMeasure S hpd 2 fuel pts ids).map (fun r => r.map Prod.fst)
  else if measure = "sdaa".toList then some (sdaa voronoi pts)
  else some (.error .unbound)

/-- Randomnessanalysis.py:131-137, 175-179: the measure of the craters of a bin, as they stand in the count -/
noncomputable def measureCount (S : Sphere P ι) (voronoi : List P → Except Exc (P → ℝ)) (fuel : ℕ) (measure : List Char) (pts : List P) :
    Option (Except Exc ℝ) := evaluateRandomness S voronoi fuel measure pts (pts.map S.cell) (fileCraters S pts)

end Verif.Rand
