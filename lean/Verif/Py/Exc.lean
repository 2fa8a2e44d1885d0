import Mathlib.Init

/-!
Python exceptions as values.  `nonFinite` is not an exception: it stands for a numpy result `nan` or `inf`, which the
number model does not represent.
-/

namespace Verif.Py

inductive Exc
  | index | key | type | value | unbound | name | attribute | system | nonFinite
  deriving DecidableEq, Repr

end Verif.Py
