import Verif.Base.RealTrig
import Verif.Model.GeoConv
import Verif.Spec.Geo
import Mathlib.Analysis.Convex.Mul
import Mathlib.Analysis.Convex.Jensen

namespace Verif.Geo
open Verif Real FP

/-- real sign used in the closed forms -/
noncomputable def sgn (y : ℝ) : ℝ := if 0 < y then 1 else if y < 0 then -1 else 0

theorem sgn_pos {y : ℝ} (h : 0 < y) : sgn y = 1 := by simp [sgn, h]
theorem sgn_neg {y : ℝ} (h : y < 0) : sgn y = -1 := by simp [sgn, h, not_lt_of_gt h]
@[simp] theorem sgn_zero : sgn 0 = 0 := by simp [sgn]

theorem sgn_mul_abs (y : ℝ) : sgn y * |y| = y := by
  rcases lt_trichotomy y 0 with h | h | h
  · simp [sgn_neg h, abs_of_neg h]
  · simp [h]
  · simp [sgn_pos h, abs_of_pos h]

theorem abs_sgn_le (y : ℝ) : |sgn y| ≤ 1 := by
  rcases lt_trichotomy y 0 with h | h | h
  · simp [sgn_neg h]
  · simp [h]
  · simp [sgn_pos h]

@[simp] theorem asign_val' (y : ℝ) : asign (val y : FP ℝ) = val (sgn y) := FP.asign_val y

@[simp] theorem csign_val (y : ℝ) : csign (val y : FP ℝ) = val (sgn y) := by
  unfold csign sgn
  rcases lt_trichotomy y 0 with h | h | h
  · simp [h, not_lt_of_gt h]
  · simp [h]
  · simp [h]

@[simp] theorem deg2rad_val (x : ℝ) : deg2rad (val x : FP ℝ) = val (Spec.rad x) := by
  unfold deg2rad Spec.rad
  simp

@[simp] theorem rad2deg_val (x : ℝ) : rad2deg (val x : FP ℝ) = val (Spec.deg x) := by
  unfold rad2deg Spec.deg
  rw [FP.ofNat_eq, FP.pi_eq, FP.val_div_of_ne _ Real.pi_ne_zero, FP.val_mul]

@[simp] theorem rad2deg_bad : rad2deg (bad : FP ℝ) = bad := rfl
/-- the Cython copies in one precision -/
@[simp] theorem cyDeg2rad_eq (x : FP ℝ) : cyDeg2rad x = deg2rad x := rfl
theorem cyThr_eq : (cyThr : FP ℝ) = defaultThr := rfl
theorem cyLonlat2xyz_eq (radius lon lat : FP ℝ) : cyLonlat2xyz radius lon lat = lonlat2xyz radius lon lat := rfl
@[simp] theorem deg2rad_bad : deg2rad (bad : FP ℝ) = bad := rfl

theorem lonlat2xyz_val (R lon lat : ℝ) :
    lonlat2xyz (val R : FP ℝ) (val lon) (val lat)
      = (val (Spec.spherePoint R lon lat).1, val (Spec.spherePoint R lon lat).2.1,
         val (Spec.spherePoint R lon lat).2.2) := by
  simp [lonlat2xyz, Spec.spherePoint]

/-- distance to the axis -/
noncomputable def rho (x y : ℝ) : ℝ := Real.sqrt (x * x + y * y)

theorem rho_nonneg (x y : ℝ) : 0 ≤ rho x y := Real.sqrt_nonneg _
theorem rho_sq (x y : ℝ) : rho x y ^ 2 = x ^ 2 + y ^ 2 := by
  unfold rho
  rw [Real.sq_sqrt (by nlinarith [mul_self_nonneg x, mul_self_nonneg y])]
  ring

theorem rho_eq_zero_iff (x y : ℝ) : rho x y = 0 ↔ x ^ 2 + y ^ 2 = 0 := by
  rw [← rho_sq]; constructor
  · intro h; simp [h]
  · intro h; exact pow_eq_zero_iff (two_ne_zero) |>.mp h

theorem rho_pos_iff (x y : ℝ) : 0 < rho x y ↔ x ^ 2 + y ^ 2 ≠ 0 := by
  rw [← not_iff_not]
  simp only [not_lt, not_not]
  rw [← rho_eq_zero_iff]
  constructor
  · intro h; exact le_antisymm h (rho_nonneg _ _)
  · intro h; exact h.le

theorem abs_le_rho (x y : ℝ) : |x| ≤ rho x y := by
  unfold rho
  apply Real.abs_le_sqrt
  nlinarith [mul_self_nonneg y]

theorem div_rho_mem (x y : ℝ) (h : 0 < rho x y) : -1 ≤ x / rho x y ∧ x / rho x y ≤ 1 := by
  have h1 := abs_le.mp (abs_le_rho x y)
  constructor
  · rw [le_div_iff₀ h]; linarith [h1.1]
  · rw [div_le_iff₀ h]; linarith [h1.2]

/-- longitude (degrees) in closed form -/
noncomputable def lonR (x y : ℝ) : ℝ := Spec.deg (arccos (x / rho x y)) * sgn y
/-- latitude from z -/
noncomputable def latZ (R z : ℝ) : ℝ := 90 - Spec.deg (arccos (z / R))
/-- latitude from the distance to the axis -/
noncomputable def latXY (R x y z : ℝ) : ℝ := sgn z * (90 - Spec.deg (arcsin (rho x y / R)))

theorem sqrt_xy (x y : ℝ) :
    (Trig.sqrt (val x * val x + val y * val y) : FP ℝ) = val (rho x y) := by
  simp only [val_mul, val_add]
  rw [sqrt_val_of (by nlinarith [mul_self_nonneg x, mul_self_nonneg y])]
  rfl

/-- longitude expression of the code in exact arithmetic -/
noncomputable def lonFP (x y : ℝ) : FP ℝ := if x ^ 2 + y ^ 2 = 0 then bad else val (lonR x y)

theorem lon_expr (x y : ℝ) :
    rad2deg (Trig.acos ((val x : FP ℝ) / Trig.sqrt (val x * val x + val y * val y))) * val (sgn y)
      = lonFP x y := by
  rw [sqrt_xy]
  unfold lonFP
  by_cases h : x ^ 2 + y ^ 2 = 0
  · rw [if_pos h, (rho_eq_zero_iff x y).mpr h]
    simp
  · have hp := (rho_pos_iff x y).mpr h
    have hm := div_rho_mem x y hp
    rw [if_neg h, val_div_of_ne _ hp.ne', acos_val_of hm.1 hm.2]
    simp [lonR]

theorem latXY_expr (R x y z : ℝ) (hR : 0 < R) :
    (val (sgn z) : FP ℝ) * (90 - rad2deg (Trig.asin (Trig.sqrt (val x * val x + val y * val y) / val R)))
      = if rho x y ≤ R then val (latXY R x y z) else bad := by
  rw [sqrt_xy, val_div_of_ne _ hR.ne']
  by_cases h : rho x y ≤ R
  · rw [if_pos h, asin_val_of]
    · simp [latXY]
    · have : 0 ≤ rho x y / R := div_nonneg (rho_nonneg _ _) hR.le
      linarith
    · rw [div_le_iff₀ hR]; linarith
  · rw [if_neg h, asin_val, if_neg]
    · simp
    · rintro ⟨_, h2⟩
      rw [div_le_iff₀ hR] at h2
      exact h (by linarith)

theorem latZ_expr (R z : ℝ) (hR : 0 < R) :
    (90 - rad2deg (Trig.acos ((val z : FP ℝ) / val R))) = if |z| ≤ R then val (latZ R z) else bad := by
  rw [val_div_of_ne _ hR.ne']
  by_cases h : |z| ≤ R
  · have h' := abs_le.mp h
    rw [if_pos h, acos_val_of]
    · simp [latZ]
    · rw [le_div_iff₀ hR]; linarith
    · rw [div_le_iff₀ hR]; linarith
  · rw [if_neg h, acos_val, if_neg]
    · simp
    · rintro ⟨h1, h2⟩
      rw [div_le_iff₀ hR] at h2
      rw [le_div_iff₀ hR] at h1
      exact h (abs_le.mpr ⟨by linarith, by linarith⟩)

/-- latitude of the code in exact arithmetic -/
noncomputable def latFP (R t : ℝ) (low : Bool) (x y z : ℝ) : FP ℝ :=
  if low = true ∧ |z / R| < t then (if |z| ≤ R then val (latZ R z) else bad)
  else (if rho x y ≤ R then val (latXY R x y z) else bad)

theorem xyz2lonlat_val (R t : ℝ) (low : Bool) (x y z : ℝ) (hR : 0 < R) :
    xyz2lonlat (val R : FP ℝ) (val t) low (val x, val y, val z) = (lonFP x y, latFP R t low x y z) := by
  unfold xyz2lonlat latFP
  simp only [asign_val', lon_expr, latXY_expr R x y z hR, latZ_expr R z hR]
  rw [val_div_of_ne _ hR.ne']
  simp only [aabs_val, lt_val]
  cases low <;> simp

theorem cyXyz2lonlat_val (R t : ℝ) (low : Bool) (x y z : ℝ) (hR : 0 < R) :
    cyXyz2lonlat (val R : FP ℝ) (val t) low (val x, val y, val z) = (lonFP x y, latFP R t low x y z) := by
  unfold cyXyz2lonlat latFP
  simp only [toFloating_eq, toDouble_eq, csign_val, lon_expr, latXY_expr R x y z hR, latZ_expr R z hR]
  have hb : |z / R| < t ↔ (z < t * R ∧ -1 * t * R < z) := by
    rw [abs_lt, lt_div_iff₀ hR, div_lt_iff₀ hR]
    constructor
    · rintro ⟨a, b⟩; exact ⟨b, by linarith⟩
    · rintro ⟨a, b⟩; exact ⟨by linarith, a⟩
  cases low
  · simp
  · simp [hb]

theorem viiXyz2lonlat_val (R t : ℝ) (x y z : ℝ) (hR : 0 < R) :
    viiXyz2lonlat (val R : FP ℝ) (val t) (val x, val y, val z) = (lonFP x y, latFP R t true x y z) := by
  unfold viiXyz2lonlat latFP
  simp only [asign_val', lon_expr, latXY_expr R x y z hR, latZ_expr R z hR]
  have hb : |z / R| < t ↔ (z < t * R ∧ -(t * R) < z) := by
    rw [abs_lt, lt_div_iff₀ hR, div_lt_iff₀ hR]
    constructor
    · rintro ⟨a, b⟩; exact ⟨b, by linarith⟩
    · rintro ⟨a, b⟩; exact ⟨by linarith, a⟩
  simp [hb]

/-! ### angles -/

theorem deg_rad (x : ℝ) : Spec.deg (Spec.rad x) = x := by
  unfold Spec.deg Spec.rad
  field_simp

theorem rad_deg (x : ℝ) : Spec.rad (Spec.deg x) = x := by
  unfold Spec.deg Spec.rad
  field_simp

theorem deg_pi_div_two : Spec.deg (π / 2) = 90 := by
  unfold Spec.deg; field_simp; norm_num

theorem deg_pi : Spec.deg π = 180 := by
  unfold Spec.deg; field_simp

theorem deg_sub (a b : ℝ) : Spec.deg (a - b) = Spec.deg a - Spec.deg b := by
  unfold Spec.deg; ring

theorem deg_mul (a b : ℝ) : Spec.deg (a * b) = Spec.deg a * b := by
  unfold Spec.deg; ring

theorem deg_strictMono : StrictMono Spec.deg := by
  intro a b h
  unfold Spec.deg
  exact mul_lt_mul_of_pos_right h (by positivity)

theorem deg_zero : Spec.deg 0 = 0 := by simp [Spec.deg]
theorem deg_neg (a : ℝ) : Spec.deg (-a) = - Spec.deg a := by simp [Spec.deg]

theorem abs_deg (a : ℝ) : |Spec.deg a| = Spec.deg |a| := by
  unfold Spec.deg
  rw [abs_mul, abs_of_pos (show (0:ℝ) < 180 / π by positivity)]

theorem latZ_eq (R z : ℝ) : latZ R z = Spec.deg (arcsin (z / R)) := by
  unfold latZ
  rw [arccos, deg_sub, deg_pi_div_two]; ring

theorem latXY_eq (R x y z : ℝ) : latXY R x y z = sgn z * Spec.deg (arccos (rho x y / R)) := by
  unfold latXY
  rw [arccos, deg_sub, deg_pi_div_two]

/-! ### sphere points -/

theorem rad_bounds {d : ℝ} (h1 : -90 < d) (h2 : d < 90) : -(π / 2) < Spec.rad d ∧ Spec.rad d < π / 2 := by
  unfold Spec.rad
  have := Real.pi_pos
  constructor <;> nlinarith

theorem rad_bounds180 {d : ℝ} (h1 : -180 < d) (h2 : d < 180) : -π < Spec.rad d ∧ Spec.rad d < π := by
  unfold Spec.rad
  have := Real.pi_pos
  constructor <;> nlinarith

theorem sgn_sin {u : ℝ} (h1 : -π < u) (h2 : u < π) : sgn (sin u) = sgn u := by
  rcases lt_trichotomy u 0 with h | h | h
  · rw [sgn_neg h, sgn_neg (sin_neg_of_neg_of_neg_pi_lt h h1)]
  · simp [h]
  · rw [sgn_pos h, sgn_pos (sin_pos_of_pos_of_lt_pi h h2)]

theorem sgn_mul_pos {a b : ℝ} (ha : 0 < a) : sgn (a * b) = sgn b := by
  rcases lt_trichotomy b 0 with h | h | h
  · rw [sgn_neg h, sgn_neg (mul_neg_of_pos_of_neg ha h)]
  · simp [h]
  · rw [sgn_pos h, sgn_pos (mul_pos ha h)]

theorem arccos_cos_abs {u : ℝ} (h1 : -π ≤ u) (h2 : u ≤ π) : arccos (cos u) = |u| := by
  rw [← cos_abs]
  exact arccos_cos (abs_nonneg _) (abs_le.mpr ⟨h1, h2⟩)

theorem rho_polar {m : ℝ} (hm : 0 ≤ m) (u : ℝ) : rho (m * cos u) (m * sin u) = m := by
  unfold rho
  rw [show m * cos u * (m * cos u) + m * sin u * (m * sin u) = m ^ 2 * (sin u ^ 2 + cos u ^ 2) by ring,
    sin_sq_add_cos_sq, mul_one, Real.sqrt_sq hm]

theorem lonR_polar {m : ℝ} (hm : 0 < m) {u : ℝ} (h1 : -π < u) (h2 : u < π) :
    lonR (m * cos u) (m * sin u) = Spec.deg u := by
  unfold lonR
  rw [rho_polar hm.le, mul_div_cancel_left₀ _ hm.ne', arccos_cos_abs h1.le h2.le, sgn_mul_pos hm,
    sgn_sin h1 h2, ← deg_mul, mul_comm, sgn_mul_abs]

theorem lonFP_of_ne {x y : ℝ} (h : 0 < rho x y) : lonFP x y = val (lonR x y) := by
  unfold lonFP
  rw [if_neg ((rho_pos_iff x y).mp h)]

end Verif.Geo
