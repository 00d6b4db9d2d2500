import Mathlib.Data.Real.Basic

/-!
# Pairs of zenith angles for which the accuracy of the MODIS interpolation is claimed
-/

namespace Verif.Spec.Modis

/-- What `_modis_interpolator.pyx:61-64` divides by, up to the geometry: the difference of the zenith angles, twice the angle if they
are equal. -/
noncomputable def zenithGap (a b : ℝ) : ℝ := if a = b then 2 * |a| else |a - b|

/-- The zenith angles (degrees) of two neighbouring tie points at precision `ε`: at most 70 degrees; a gap of at least `60000 ε`; and
a gap of at least 0.06 degrees, or of 0.01 degrees (the resolution of the angles in MODIS files) if the angles are within 9 degrees
of nadir. -/
structure ZenithsOk (ε a b : ℝ) : Prop where
  ha : |a| ≤ 70
  hb : |b| ≤ 70
  gap : 60000 * ε ≤ zenithGap a b
  apart : 0.06 ≤ zenithGap a b ∨ 0.01 ≤ zenithGap a b ∧ |a| ≤ 9 ∧ |b| ≤ 9

theorem zenithGap_of_ne {a b : ℝ} (h : a ≠ b) : zenithGap a b = |a - b| := if_neg h

theorem zenithGap_self (a : ℝ) : zenithGap a a = 2 * |a| := if_pos rfl

end Verif.Spec.Modis
