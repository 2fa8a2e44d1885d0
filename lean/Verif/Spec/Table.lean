import Verif.Model.Cratercount

/-! Specification: a proper table of adjoining bins (uses the model only for the record type `Bin`). -/

namespace Verif.Spec
open Verif.Cratercount

/-- adjoining bins of positive diameter, each at least 0.4 % wide, with geometric means; this is what binning a
crater list gives (`Verif.Cratercount.applyBinning_contiguous`) -/
structure Contiguous (t : List Bin) : Prop where
  pos : ∀ x ∈ t, 0 < x.dMin
  ratio : ∀ x ∈ t, x.dMin * 1.004 < x.dMax
  mean : ∀ x ∈ t, x.dMean = Real.sqrt (x.dMax * x.dMin)
  next : ∀ i (h : i + 1 < t.length), t[i].dMax = t[i + 1].dMin

/-- position (from 0) of bin number `N` among `n` bins: counted from 1, negative numbers from the end, clipped to
the available bins; 0 means the first -/
def binAddress (n : ℕ) (N : ℤ) : ℕ :=
  if 0 < N then min N.toNat n - 1 else if N = 0 then 0 else n - min N.natAbs n

end Verif.Spec
