import Mathlib.Analysis.SpecialFunctions.Trigonometric.Inverse
import Mathlib.Analysis.SpecialFunctions.Trigonometric.Arctan

/-!
# Specification: positions on a sphere (real numbers, independent of the model)
-/

namespace Verif.Spec
open Real

/-- degrees to radians -/
noncomputable def rad (d : ℝ) : ℝ := d * (π / 180)

/-- radians to degrees -/
noncomputable def deg (r : ℝ) : ℝ := r * (180 / π)

/-- The point of the sphere of radius `R` at longitude `lon`, latitude `lat` (degrees). -/
noncomputable def spherePoint (R lon lat : ℝ) : ℝ × ℝ × ℝ :=
  (R * cos (rad lat) * cos (rad lon), R * cos (rad lat) * sin (rad lon), R * sin (rad lat))

/-- squared distance to the polar axis -/
def axisDistSq (p : ℝ × ℝ × ℝ) : ℝ := p.1 ^ 2 + p.2.1 ^ 2

/-- squared distance to the centre -/
def normSq (p : ℝ × ℝ × ℝ) : ℝ := p.1 ^ 2 + p.2.1 ^ 2 + p.2.2 ^ 2

/-- the point lies on the half plane of longitude 180 (polar axis excluded) -/
def onAntimeridian (p : ℝ × ℝ × ℝ) : Prop := p.2.1 = 0 ∧ p.1 < 0

/-- geocentric latitude (degrees) of a point off the polar axis -/
noncomputable def geocentricLat (p : ℝ × ℝ × ℝ) : ℝ := deg (arctan (p.2.2 / sqrt (axisDistSq p)))

/-- two longitudes are equal up to `e` degrees on the circle -/
def LonWithin (e a b : ℝ) : Prop := ∃ k : ℤ, |k| ≤ 1 ∧ |a - b - 360 * k| ≤ e

/-- `p` is near the point of the sphere at (`lon`, `lat`): horizontally to `eta` of that point's distance from the axis,
vertically to `eta` of the radius -/
def NearSphere (R eta lon lat : ℝ) (p : ℝ × ℝ × ℝ) : Prop :=
  (p.1 - (spherePoint R lon lat).1) ^ 2 + (p.2.1 - (spherePoint R lon lat).2.1) ^ 2 ≤ (eta * (R * cos (rad lat))) ^ 2 ∧
  |p.2.2 - (spherePoint R lon lat).2.2| ≤ eta * R

end Verif.Spec
