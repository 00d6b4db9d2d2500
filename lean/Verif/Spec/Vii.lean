import Mathlib.Algebra.Order.Field.Basic

/-!
# Specification: bilinear interpolation of a cell
-/

namespace Verif.Spec
variable {K : Type} [Field K]

/-- value at fractions `t` (rows) and `s` (columns) of the cell with first corner `(m, c)` -/
def bilinear (V : Nat → Nat → K) (m c : Nat) (t s : K) : K :=
  (1 - t) * ((1 - s) * V m c + s * V m (c + 1)) + t * ((1 - s) * V (m + 1) c + s * V (m + 1) (c + 1))

end Verif.Spec
