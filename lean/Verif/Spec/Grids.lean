import Verif.Spec.Binning
import Verif.Model.Cratercount

/-! Specification: the boundary grid belonging to each binning name (uses the model only for the type of names). -/

namespace Verif.Spec
open Verif.Cratercount

noncomputable section

/-- the grid of a named binning: the published ratio between neighbouring boundaries; 'none' has no grid and is
excluded wherever this is used -/
def gridOf : Binning → ℝ → Grid
  | .pseudoLog, _ => .pseudoLog
  | .perDecade20, off => .geometric ((10 : ℝ) ^ (1 / 20 : ℝ)) off
  | .perDecade10, off => .geometric ((10 : ℝ) ^ (1 / 10 : ℝ)) off
  | .x2, off => .geometric 2 off
  | .root2, off => .geometric ((2 : ℝ) ^ (1 / 2 : ℝ)) off
  | .root4, off => .geometric ((2 : ℝ) ^ (1 / 4 : ℝ)) off
  | .none, off => .geometric 1 off

end

end Verif.Spec
