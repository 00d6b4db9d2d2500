import Mathlib.Analysis.SpecialFunctions.Trigonometric.Basic

/-!
# The viewing geometry of a scanning satellite

A satellite at height `H` above a sphere of radius `R`.  In the plane of the scan the centre of the sphere is the origin and the
satellite is at `(0, R + H)`.
-/

namespace Verif.Spec
open Real

/-- The point of the sphere an angle `θ` from the nadir (as seen from the centre) is seen from the satellite an angle `φ` from the
nadir, and the satellite is seen from there an angle `ζ` from the zenith, above the horizon.  All three angles are counted positive
to the same side. -/
def Seen (R H φ θ ζ : ℝ) : Prop :=
  |φ| < π / 2 ∧ |ζ| < π / 2 ∧ |θ| < π ∧ ∃ L, 0 < L ∧
    -- from the satellite `(0, R + H)` to the ground point `(R sin θ, R cos θ)`: the direction `(sin φ, -cos φ)`
    (R * sin θ = L * sin φ ∧ R * cos θ - (R + H) = -(L * cos φ)) ∧
    -- from the ground point to the satellite: `cos ζ` times the local vertical plus `sin ζ` times the horizontal towards the nadir
    (-(R * sin θ) = L * (cos ζ * sin θ - sin ζ * cos θ) ∧ R + H - R * cos θ = L * (cos ζ * cos θ + sin ζ * sin θ))

/-- distance of the satellite from the ground point at the angle `θ` from the nadir -/
noncomputable def slant (R H θ : ℝ) : ℝ := √((R * sin θ) ^ 2 + (R + H - R * cos θ) ^ 2)

/-! In space: the first coordinate in the direction of the scan, the second along the track, the third up from the centre of the sphere to
the satellite. -/

/-- the point at the distance `l` on the line that starts `y` along the track beside the satellite, in the plane of the scan angle `φ` -/
noncomputable def onRay (R H φ y l : ℝ) : ℝ × ℝ × ℝ := (l * sin φ, y, R + H - l * cos φ)

/-- `p` is the first point of the sphere on that line -/
def Hit (R H φ y : ℝ) (p : ℝ × ℝ × ℝ) : Prop :=
  ∃ l, 0 < l ∧ p = onRay R H φ y l ∧ p.1 ^ 2 + p.2.1 ^ 2 + p.2.2 ^ 2 = R ^ 2 ∧
    ∀ m, 0 ≤ m → m < l → R ^ 2 < (onRay R H φ y m).1 ^ 2 + (onRay R H φ y m).2.1 ^ 2 + (onRay R H φ y m).2.2 ^ 2

/-- how far `p` is beyond the ground point at the angle `θ` from the nadir, in the horizontal direction of the scan there -/
noncomputable def outBy (R θ : ℝ) (p : ℝ × ℝ × ℝ) : ℝ := (p.1 - R * sin θ) * cos θ - (p.2.2 - R * cos θ) * sin θ

end Verif.Spec
