import Verif.Base.Mx
import Verif.Spec.Bilinear

/-!
# Simple MODIS interpolation with rounding: what is assumed of `map_coordinates`, and the size of the errors
-/

namespace Verif.Spec
open Verif Verif.ModisSimple

/-- the bilinear combination of the corners of the cell whose first corner is `(a, b)` -/
def bil (X : Nat → Nat → ℝ) (a b : Nat) (T S : ℝ) : ℝ :=
  (1 - T) * ((1 - S) * X a b + S * X a (b + 1)) + T * ((1 - S) * X (a + 1) b + S * X (a + 1) (b + 1))

/-- What is assumed of `map_coordinates(order=1, mode='nearest')` on a float32 array: at a point which, limited to the array, is
in the cell whose first corner is `(a, b)`, the result is a float32 number within `ρ M` of the bilinear combination of the
corners, `M` being the largest of their absolute values. -/
def LinearLib (q : Mixed) (ρ : ℝ) (mc : MapCoord (Mx q)) : Prop :=
  ∀ (R C : Nat) (X : Nat → Nat → ℝ) (y x M : ℝ) (a b : Nat), a + 2 ≤ R → b + 2 ≤ C →
    (a : ℝ) ≤ clampTo R y → clampTo R y ≤ a + 1 → (b : ℝ) ≤ clampTo C x → clampTo C x ≤ b + 1 →
    (∀ a' b', (a' = a ∨ a' = a + 1) → (b' = b ∨ b' = b + 1) → |X a' b'| ≤ M) →
    ∃ v, Rep q.s.p v ∧ mc R C (fun a b => Mx.sgl (X a b)) (Mx.sgl y) (Mx.sgl x) = Mx.sgl v ∧
      |v - bil X a b (clampTo R y - a) (clampTo C x - b)| ≤ ρ * M

/-- cell row and cell column of fine pixel `(j, i)` of a scan of 10 rows and `C` columns, `f` pixels per tie point -/
def simpleRow (f j : Nat) : Nat := min ((2 * j + 1 - f) / (2 * f)) 8
def simpleCol (f C i : Nat) : Nat := min (i / f) (C - 2)

/-- error after the columns to the right of the last tie column have been extrapolated -/
noncomputable def colErr (ε M W : ℝ) (f C i : Nat) (e : ℝ) : ℝ :=
  if f * C < i + f then 7.01 * e + ε * M + 3 * ε * W else e

/-- error after the first and last rows of the scan have been extrapolated -/
noncomputable def rowErr (ε M W : ℝ) (f j : Nat) (e : ℝ) : ℝ :=
  if j < f / 2 ∨ 10 * f ≤ j + f / 2 then 5.01 * e + 2.01 * ε * M + 95 * ε * W else e

end Verif.Spec
