import Verif.Proofs.Modis
import Verif.Proofs.Geo
import Mathlib.Analysis.SpecialFunctions.Trigonometric.Bounds

/-!
# Numerical facts about the satellite-angle MODIS interpolation (exact arithmetic `FP ℝ`)
-/

namespace Verif.Modis
open Verif Real FP Verif.Geo

/-! ### expansion and alignment coefficients -/

/-- earth radius (km) and satellite height (km) as real numbers -/
noncomputable def Rk : ℝ := 6370997 / 10 ^ 3
noncomputable def Hk : ℝ := 7090 / 10 ^ 1

theorem satR_val : (satR : FP ℝ) = val Rk := by simp [satR, Rk]
theorem satH_val : (satH : FP ℝ) = val Hk := by simp [satH, Hk]

/-- `R / (R + H)` -/
noncomputable def kap : ℝ := Rk / (Rk + Hk)

theorem Rk_pos : 0 < Rk := by norm_num [Rk]
theorem RHk_pos : 0 < Rk + Hk := by norm_num [Rk, Hk]
theorem kap_pos : 0 < kap := div_pos Rk_pos RHk_pos
theorem kap_lt : kap < 1 := by norm_num [kap, Rk, Hk]
theorem inv_kap : (Rk + Hk) / Rk = kap⁻¹ := by unfold kap; rw [inv_div]

/-- angle at the satellite -/
noncomputable def phiR (z : ℝ) : ℝ := arcsin (kap * sin z)

theorem kap_sin_mem (z : ℝ) : -1 < kap * sin z ∧ kap * sin z < 1 := by
  have h1 := kap_pos
  have h2 := kap_lt
  have := neg_one_le_sin z
  have := sin_le_one z
  constructor <;> nlinarith

theorem computePhi_val (z : ℝ) : computePhi (val z : FP ℝ) = val (phiR z) := by
  unfold computePhi phiR
  have e : Rk * sin z / (Rk + Hk) = kap * sin z := by unfold kap; ring
  obtain ⟨h1, h2⟩ := kap_sin_mem z
  rw [satR_val, satH_val, sin_val, val_mul, val_add, val_div_of_ne _ RHk_pos.ne', e,
    asin_val_of h1.le h2.le, toFloating_eq]

theorem sin_phiR (z : ℝ) : sin (phiR z) = kap * sin z := by
  obtain ⟨h1, h2⟩ := kap_sin_mem z
  exact sin_arcsin h1.le h2.le

theorem phiR_mem (z : ℝ) : -(π / 2) < phiR z ∧ phiR z < π / 2 := by
  obtain ⟨h1, h2⟩ := kap_sin_mem z
  exact ⟨neg_pi_div_two_lt_arcsin.mpr h1, arcsin_lt_pi_div_two.mpr h2⟩

/-- The viewing angle seen from the earth's centre determines the zenith angle. -/
theorem theta_inj {a b : ℝ} (h : a - phiR a = b - phiR b) : a = b := by
  set t := a - phiR a with ht
  have ha : a = phiR a + t := by rw [ht]; ring
  have hb : b = phiR b + t := by rw [h]; ring
  have sa := sin_phiR a
  have sb := sin_phiR b
  rw [ha, sin_add] at sa
  rw [hb, sin_add] at sb
  rw [← ha] at sa
  rw [← hb] at sb
  have hc : 0 < 1 - kap * cos t := by
    have := kap_pos; have := kap_lt; have := cos_le_one t; have := neg_one_le_cos t
    nlinarith
  have hs : sin (phiR a - phiR b) = 0 := by
    rw [sin_sub]
    have : (sin (phiR a) * cos (phiR b) - cos (phiR a) * sin (phiR b)) * (1 - kap * cos t) = 0 := by
      linear_combination cos (phiR b) * sa - cos (phiR a) * sb
    rcases mul_eq_zero.mp this with h | h
    · exact h
    · exact absurd h hc.ne'
  obtain ⟨a1, a2⟩ := phiR_mem a
  obtain ⟨b1, b2⟩ := phiR_mem b
  have := (sin_eq_zero_iff_of_lt_of_lt (by linarith) (by linarith)).mp hs
  linarith

theorem phiR_zero : phiR 0 = 0 := by simp [phiR]

/-- 80 degrees -/
noncomputable def top : ℝ := Spec.rad 80

theorem top_eq : top = π / 2 - π / 18 := by unfold top Spec.rad; ring

theorem cos_top : 1 / 9 ≤ cos top := by
  rw [top_eq, cos_pi_div_two_sub]
  have h := Real.mul_le_sin (x := π / 18) (by positivity) (by have := pi_pos; linarith)
  have : 2 / π * (π / 18) = 1 / 9 := by field_simp; norm_num
  linarith

theorem rad_le_top {x : ℝ} (h : |x| ≤ 80) : |Spec.rad x| ≤ top := by
  have hp := pi_pos
  unfold top Spec.rad
  rw [abs_mul, abs_of_pos (show (0:ℝ) < π / 180 by positivity)]
  exact mul_le_mul_of_nonneg_right h (by positivity)

theorem abs_sin_le_top {x : ℝ} (h : |x| ≤ top) : |sin x| ≤ sin top := by
  have hp := pi_pos
  have ht := top_eq
  obtain ⟨h1, h2⟩ := abs_le.mp h
  rw [abs_le]
  constructor
  · rw [← sin_neg]; exact sin_le_sin_of_le_of_le_pi_div_two (by linarith) (by linarith) h1
  · exact sin_le_sin_of_le_of_le_pi_div_two (by linarith) (by linarith) h2

/-- The mean satellite angle corresponds to a zenith angle of at most 80 degrees. -/
theorem mean_phi {a b : ℝ} (ha : |a| ≤ top) (hb : |b| ≤ top) :
    |kap⁻¹ * sin ((phiR a + phiR b) / 2)| ≤ sin top := by
  have hk := kap_pos
  have sa := abs_le.mp (abs_sin_le_top ha)
  have sb := abs_le.mp (abs_sin_le_top hb)
  obtain ⟨a1, a2⟩ := phiR_mem a
  obtain ⟨b1, b2⟩ := phiR_mem b
  have ea := sin_phiR a
  have eb := sin_phiR b
  set m := (phiR a + phiR b) / 2 with hm
  have up : sin m ≤ kap * sin top := by
    rcases le_total (phiR a) (phiR b) with h | h
    · have : sin m ≤ sin (phiR b) := sin_le_sin_of_le_of_le_pi_div_two (by linarith) (by linarith) (by linarith)
      nlinarith
    · have : sin m ≤ sin (phiR a) := sin_le_sin_of_le_of_le_pi_div_two (by linarith) (by linarith) (by linarith)
      nlinarith
  have lo : -(kap * sin top) ≤ sin m := by
    rcases le_total (phiR a) (phiR b) with h | h
    · have : sin (phiR a) ≤ sin m := sin_le_sin_of_le_of_le_pi_div_two (by linarith) (by linarith) (by linarith)
      nlinarith
    · have : sin (phiR b) ≤ sin m := sin_le_sin_of_le_of_le_pi_div_two (by linarith) (by linarith) (by linarith)
      nlinarith
  rw [abs_mul, abs_of_pos (inv_pos.mpr hk), inv_mul_le_iff₀ hk]
  exact abs_le.mpr ⟨lo, up⟩

theorem isNum_mul {x y : FP ℝ} (hx : IsNum x) (hy : IsNum y) : IsNum (x * y) := by
  obtain ⟨a, rfl⟩ := hx; obtain ⟨b, rfl⟩ := hy; simp
theorem isNum_sub {x y : FP ℝ} (hx : IsNum x) (hy : IsNum y) : IsNum (x - y) := by
  obtain ⟨a, rfl⟩ := hx; obtain ⟨b, rfl⟩ := hy; simp
theorem isNum_add {x y : FP ℝ} (hx : IsNum x) (hy : IsNum y) : IsNum (x + y) := by
  obtain ⟨a, rfl⟩ := hx; obtain ⟨b, rfl⟩ := hy; simp

/-- Values of the coefficients of two zenith angles of at most 80 degrees: numbers unless both are 0. -/
theorem expansionAlignment_isNum (w : Nat) (hw : w ≤ 100) {a b : ℝ} (ha : |a| ≤ 80) (hb : |b| ≤ 80)
    (h0 : ¬ (a = 0 ∧ b = 0)) :
    IsNum (expansionAlignment w (val a : FP ℝ) (val b)).1 ∧ IsNum (expansionAlignment w (val a : FP ℝ) (val b)).2 := by
  have hk := kap_pos
  have hR := Rk_pos
  set A := Spec.rad a with hA
  set B := Spec.rad b with hB
  have hAt : |A| ≤ top := rad_le_top ha
  have hBt : |B| ≤ top := rad_le_top hb
  set m := (phiR A + phiR B) / 2 with hm
  have hmean := mean_phi hAt hBt
  rw [← hm] at hmean
  have hst : sin top ≤ 1 := sin_le_one _
  obtain ⟨m1, m2⟩ := abs_le.mp hmean
  have hzeta : computeZeta (val m : FP ℝ) = val (arcsin (kap⁻¹ * sin m)) := by
    unfold computeZeta
    have e : (Rk + Hk) * sin m / Rk = kap⁻¹ * sin m := by rw [← inv_kap]; ring
    rw [satR_val, satH_val, sin_val, val_add, val_mul, val_div_of_ne _ hR.ne', e,
      asin_val_of (by linarith) (by linarith), toFloating_eq]
  set Z := arcsin (kap⁻¹ * sin m) with hZ
  have hcosZ : cos top ≤ cos Z := by
    rw [hZ, cos_arcsin]
    have h1 : (kap⁻¹ * sin m) ^ 2 ≤ sin top ^ 2 := sq_le_sq' m1 m2
    have h2 := sin_sq_add_cos_sq top
    apply Real.le_sqrt_of_sq_le
    linarith
  have hct := cos_top
  -- the denominator
  set den := (if Arith.eq (computeTheta (val A) (val (phiR A)) : FP ℝ) (computeTheta (val B) (val (phiR B)))
    then computeTheta (val A) (val (phiR A)) * 2
    else computeTheta (val A) (val (phiR A)) - computeTheta (val B) (val (phiR B)) : FP ℝ) with hden
  have hd : ∃ q : ℝ, q ≠ 0 ∧ den = val q := by
    simp only [hden, computeTheta, val_sub, eq_val]
    by_cases h : A - phiR A = B - phiR B
    · refine ⟨(A - phiR A) * 2, ?_, by simp [h]⟩
      have hab := theta_inj h
      intro hz
      have : A - phiR A = 0 - phiR 0 := by rw [phiR_zero]; linarith
      have hA0 := theta_inj this
      have hp := pi_pos
      have hinj : ∀ x, Spec.rad x = 0 → x = 0 := by
        intro x hx
        rw [← deg_rad x, hx, deg_zero]
      exact h0 ⟨hinj a hA0, hinj b (by rw [← hB, ← hab]; exact hA0)⟩
    · exact ⟨A - phiR A - (B - phiR B), fun hz => h (by linarith), by simp [h]⟩
  obtain ⟨q, hq, hdq⟩ := hd
  unfold expansionAlignment
  simp only [toFloating_eq, cyDeg2rad_eq, deg2rad_val, ← hA, ← hB, computePhi_val]
  rw [← hden, hdq]
  have h2 : (val (phiR A) + val (phiR B) : FP ℝ) / 2 = val m := by
    rw [val_add, ofNat_eq, val_div_of_ne _ (by norm_num)]
  rw [h2, hzeta]
  simp only [computeTheta, cos_val, sin_val, satR_val, satH_val, val_add, val_sub, val_mul]
  have hH : (0:ℝ) < 2 * Hk := by norm_num [Hk]
  rw [val_div_of_ne _ hR.ne', ofNat_eq 2, val_mul 2 Hk, ofInt_eq, val_div_of_ne _ hH.ne', val_div_of_ne _ (by norm_num : (2:ℝ) ≠ 0)]
  simp only [val_sub, val_mul]
  set d := ((Rk + Hk) / Rk * cos m - cos Z) * (((w : ℤ) : ℝ) / (2 * Hk)) with hdd
  have hd2 : 0 ≤ cos Z * cos Z - d * d := by
    have hw' : (0:ℝ) ≤ ((w : ℤ) : ℝ) ∧ ((w : ℤ) : ℝ) ≤ 100 := by
      constructor
      · exact_mod_cast Nat.zero_le w
      · exact_mod_cast hw
    have c1 : (0:ℝ) ≤ ((w : ℤ) : ℝ) / (2 * Hk) := div_nonneg hw'.1 hH.le
    have c2 : ((w : ℤ) : ℝ) / (2 * Hk) ≤ 100 / 1418 := by
      have : 2 * Hk = 1418 := by norm_num [Hk]
      rw [this]; exact div_le_div_of_nonneg_right hw'.2 (by norm_num)
    have c3 : -1 ≤ cos Z := neg_one_le_cos Z
    have hm0 : 0 ≤ cos m := by
      obtain ⟨a1, a2⟩ := phiR_mem A
      obtain ⟨b1, b2⟩ := phiR_mem B
      exact cos_nonneg_of_neg_pi_div_two_le_of_le (by linarith) (by linarith)
    have c4 := cos_le_one m
    have c5 : (0:ℝ) < (Rk + Hk) / Rk := div_pos RHk_pos hR
    have c6 : (Rk + Hk) / Rk ≤ 1.12 := by norm_num [Rk, Hk]
    have c7 : cos Z ≤ 1 := cos_le_one Z
    have u1 : (Rk + Hk) / Rk * cos m - cos Z ≤ 1.12 := by nlinarith
    have u2 : -1 ≤ (Rk + Hk) / Rk * cos m - cos Z := by nlinarith
    have v1 : d ≤ 1 / 9 := by rw [hdd]; nlinarith
    have v2 : -(1 / 9) ≤ d := by rw [hdd]; nlinarith
    nlinarith
  rw [sqrt_val_of hd2, ofNat_eq 4]
  simp only [val_sub, val_mul]
  rw [val_div_of_ne _ hq, val_div_of_ne _ hq]
  simp

/-! ### interpolation of one component -/

theorem fineComponent_same (t s v : ℝ) :
    fineComponent (val t : FP ℝ) (val s) (val v) (val v) (val v) (val v) = val v := by
  simp [fineComponent]
  ring

theorem comp_pt (R lon lat : ℝ) (k : Nat) :
    ∃ v : ℝ, Spec.Modis.comp (lonlat2xyz (val R : FP ℝ) (val lon) (val lat)) k = val v := by
  rw [lonlat2xyz_val]
  unfold Spec.Modis.comp
  split
  · exact ⟨_, rfl⟩
  · split <;> exact ⟨_, rfl⟩

theorem fineComponent_corner (t s : ℝ) (ht : t = 0 ∨ t = 1) (hs : s = 0 ∨ s = 1) (a b c d : ℝ) :
    fineComponent (val t : FP ℝ) (val s) (val a) (val b) (val c) (val d)
      = if t = 0 then (if s = 0 then val a else val b) else (if s = 0 then val d else val c) := by
  rcases ht with rfl | rfl <;> rcases hs with rfl | rfl <;> simp [fineComponent]

theorem earthRadius_val : (earthRadius : FP ℝ) = val 6370997 := by simp [earthRadius]; norm_num
theorem defaultThr_val : (defaultThr : FP ℝ) = val (4 / 5) := by simp [defaultThr]; norm_num

end Verif.Modis
