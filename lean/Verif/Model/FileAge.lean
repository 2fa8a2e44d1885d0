import Verif.Model.Age
import Verif.Model.CountFile

/-!
Model of what the age calculation and the binning use of a crater count opened from a file:
`/repo/src/craterstats/Cratercount.py` 17-28 (the attributes of a new object), 116-121, 143-148, 182-184 and 187-190 (those set by the
readers), `/repo/src/craterstats/Craterpdf.py` 42-65 (those used by the likelihood), Craterplot.py:74-81 (the age of a plot).
-/

namespace Verif.FileAge

open Verif.Py Verif.Cratercount Verif.Chronology Verif.Production Verif.Craterpdf Verif.Age Verif.CountFile

noncomputable section

/-- the attributes `diam`, `binned`, `area`, `perimeter` after opening: a count of craters has no table yet (`binned={}`), a .stat table
no diameters and no perimeter (`diam=None`, `perimeter=None`, Cratercount.py:22-25) -/
def source : Opened → Source
  | .craters c => ⟨some (c.craters.map Prod.fst), [], c.area, c.perimeter⟩
  | .table area bins => ⟨none, bins, area, none⟩

/-- the same object for binning and plot data -/
def object : Opened → Obj
  | .craters c => ⟨c.craters, c.area, c.prebinned, none, []⟩
  | .table area bins => ⟨[], area, true, some .pseudoLog, bins⟩

/-- Craterplot.py:74-81 for a count opened from a file -/
def ageOf (pf : PFn) (c : Chron) (simpson : Simpson) (o : Opened) (range : EReal × EReal) (bcc : Bool) (ref : ℝ) : Except Err PoissonAge :=
  poissonAge pf c simpson (source o) range bcc ref

end

end Verif.FileAge
