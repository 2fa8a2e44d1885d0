import Verif.Model.Spatial
import Verif.Model.Reading

/-!
Model of `ReadSHPfile` in `/repo/src/craterstats/Cratercount.py`: the count opened from a pair of shapefiles.
-/

namespace Verif.ShapeCount

open Verif.Py Verif.Spatial

noncomputable section

/-- Cratercount.py:187-192: diameters and fractions of the craters kept (Spatialcount.py:134-183), area and perimeter of the counting area as found
by spherely (Spatialcount.py:148-150); the name is left out -/
def readShp (rc ra area perimeter : ℝ) (l : List CraterShape) : Except Exc Reading.Count := do
  let s ← readShapes rc ra l
  .ok ⟨s.map (fun c => (c.diam, c.fraction)), area, some perimeter, false, false⟩

end

end Verif.ShapeCount
