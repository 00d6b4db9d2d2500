import Verif.Proofs.ModisNum
import Mathlib.Analysis.SpecialFunctions.Trigonometric.InverseDeriv
import Mathlib.Analysis.SpecialFunctions.Trigonometric.Deriv
import Mathlib.Analysis.Calculus.MeanValue
import Mathlib.Analysis.Real.Pi.Bounds

/-!
# Sensitivity of the angles of the MODIS interpolation (real analysis)

`phiR z` is the angle at the satellite for the zenith angle `z`, `zetaR` its inverse.
-/

namespace Verif.Modis
open Verif Real

/-- zenith angle of the angle `p` at the satellite -/
noncomputable def zetaR (p : ℝ) : ℝ := arcsin (kap⁻¹ * sin p)

/-- the sine of 70 degrees -/
theorem sin_70 : sin (7 * π / 18) ≤ 0.94 := by
  have e : sin (7 * π / 18) = cos (π / 9) := by
    rw [← cos_pi_div_two_sub]; congr 1; ring
  have h3 := cos_three_mul (π / 9)
  rw [show 3 * (π / 9) = π / 3 by ring, cos_pi_div_three] at h3
  rw [e]
  by_contra hc
  push Not at hc
  obtain ⟨c, hc'⟩ : ∃ c, c = cos (π / 9) := ⟨_, rfl⟩
  rw [← hc'] at h3 hc
  have h2 : 0.94 * 0.94 < c * c := by nlinarith
  nlinarith

theorem abs_sin_70 {a : ℝ} (ha : |a| ≤ 70) : |sin (Spec.rad a)| ≤ 0.94 := by
  have hp := pi_pos
  have h1 : |Spec.rad a| ≤ 7 * π / 18 := by
    unfold Spec.rad
    rw [abs_mul, abs_of_pos (show (0:ℝ) < π / 180 by positivity)]
    calc _ ≤ 70 * (π / 180) := by gcongr
      _ = _ := by ring
  obtain ⟨h2, h3⟩ := abs_le.1 h1
  refine le_trans ?_ sin_70
  rw [abs_le]
  constructor
  · rw [← sin_neg]; exact sin_le_sin_of_le_of_le_pi_div_two (by linarith) (by linarith) h2
  · exact sin_le_sin_of_le_of_le_pi_div_two (by linarith) (by linarith) h3

theorem kap_bounds : 0.8998 ≤ kap ∧ kap ≤ 0.89986 := by
  constructor <;> norm_num [kap, Rk, Hk]

theorem inv_kap_bounds : 1.1112 ≤ kap⁻¹ ∧ kap⁻¹ ≤ 1.1113 := by
  rw [← inv_kap]; constructor <;> norm_num [Rk, Hk]

/-! ### derivatives -/

theorem hasDerivAt_arcsin_mul {k x : ℝ} (h : |k * sin x| < 1) :
    HasDerivAt (fun x => arcsin (k * sin x)) (1 / √(1 - (k * sin x) ^ 2) * (k * cos x)) x := by
  obtain ⟨h1, h2⟩ := abs_lt.1 h
  exact (hasDerivAt_arcsin h1.ne' h2.ne).comp x ((hasDerivAt_sin x).const_mul k)

/-- the angle at the satellite moves less than the zenith angle -/
theorem phiR_lip (x y : ℝ) : |phiR x - phiR y| ≤ kap * |x - y| := by
  have hk := kap_pos
  have hk1 := kap_lt
  have h := Convex.norm_image_sub_le_of_norm_hasDerivWithin_le (f := phiR) (s := Set.univ) (C := kap)
    (f' := fun x => 1 / √(1 - (kap * sin x) ^ 2) * (kap * cos x)) (x := y) (y := x)
    (fun x _ => (hasDerivAt_arcsin_mul (abs_lt.2 (kap_sin_mem x))).hasDerivWithinAt) (fun x _ => ?_) convex_univ
    (Set.mem_univ _) (Set.mem_univ _)
  · simpa [Real.norm_eq_abs] using h
  · obtain ⟨h1, h2⟩ := kap_sin_mem x
    have hpos : 0 < 1 - (kap * sin x) ^ 2 := by nlinarith
    have hle : |cos x| ≤ √(1 - (kap * sin x) ^ 2) := by
      apply Real.le_sqrt_of_sq_le
      rw [sq_abs]
      have := sin_sq_add_cos_sq x
      have : kap ^ 2 ≤ 1 := by nlinarith
      have := mul_le_mul_of_nonneg_right this (sq_nonneg (sin x))
      rw [mul_pow]
      linarith
    have hs := sqrt_pos.2 hpos
    rw [Real.norm_eq_abs, abs_mul, abs_mul, abs_of_pos hk, abs_of_pos (by positivity), one_div, inv_mul_le_iff₀ hs]
    nlinarith

/-- the angle at the centre of the Earth moves by at least a tenth of the zenith angle -/
theorem theta_expand (x y : ℝ) : (1 - kap) * |x - y| ≤ |(x - phiR x) - (y - phiR y)| := by
  have h := phiR_lip x y
  have e : x - y = ((x - phiR x) - (y - phiR y)) + (phiR x - phiR y) := by ring
  have := abs_add_le ((x - phiR x) - (y - phiR y)) (phiR x - phiR y)
  rw [← e] at this
  linarith

/-- and by at most the zenith angle -/
theorem theta_lip {x y : ℝ} (hx : |x| ≤ π / 2) (hy : |y| ≤ π / 2) : |(x - phiR x) - (y - phiR y)| ≤ |x - y| := by
  wlog hle : y ≤ x generalizing x y with H
  · have := H hy hx (le_of_not_ge hle)
    rwa [abs_sub_comm, abs_sub_comm x y]
  have hk := kap_pos
  have hmono : phiR y ≤ phiR x := by
    apply monotone_arcsin
    apply mul_le_mul_of_nonneg_left _ hk.le
    exact sin_le_sin_of_le_of_le_pi_div_two (by linarith [(abs_le.1 hy).1]) (abs_le.1 hx).2 hle
  have h1 := phiR_lip x y
  have hk1 := kap_lt
  rw [abs_of_nonneg (by linarith : 0 ≤ x - y)] at h1 ⊢
  rw [abs_of_nonneg (by linarith)] at h1
  have : kap * (x - y) ≤ 1 * (x - y) := mul_le_mul_of_nonneg_right hk1.le (by linarith)
  rw [abs_le]; constructor <;> linarith

/-- angles at the satellite for zenith angles of at most about 71 degrees -/
noncomputable def mTop : ℝ := arcsin 0.85

theorem mTop_lt : mTop ≤ 1.048 := by
  have h1 : arcsin 0.85 ≤ π / 3 := by
    rw [arcsin_le_iff_le_sin (by norm_num) ⟨by linarith [pi_pos], by linarith [pi_pos]⟩, sin_pi_div_three]
    have : (1.7 : ℝ) ≤ √3 := by apply Real.le_sqrt_of_sq_le; norm_num
    linarith
  have := pi_lt_d4
  unfold mTop
  linarith

theorem mTop_nonneg : 0 ≤ mTop := arcsin_nonneg.2 (by norm_num)

theorem sin_of_le_mTop {p : ℝ} (h : |p| ≤ mTop) : |sin p| ≤ 0.85 := by
  have h0 := mTop_lt
  have hp := pi_gt_three
  have e : sin mTop = 0.85 := sin_arcsin (by norm_num) (by norm_num)
  obtain ⟨h1, h2⟩ := abs_le.1 h
  rw [abs_le, ← e]
  constructor
  · rw [← sin_neg]; exact sin_le_sin_of_le_of_le_pi_div_two (by linarith) (by linarith) h1
  · exact sin_le_sin_of_le_of_le_pi_div_two (by linarith) (by linarith) h2

theorem cos_of_le_mTop {p : ℝ} (h : |p| ≤ mTop) : 0.52 ≤ cos p := by
  have h0 := mTop_lt
  have hp := pi_gt_three
  have h1 := sin_of_le_mTop h
  have h2 : sin p ^ 2 ≤ 0.85 ^ 2 := by rw [← sq_abs]; exact pow_le_pow_left₀ (abs_nonneg _) h1 2
  have h3 := sin_sq_add_cos_sq p
  have h4 : 0 ≤ cos p := cos_nonneg_of_neg_pi_div_two_le_of_le (by linarith [(abs_le.1 h).1]) (by linarith [(abs_le.1 h).2])
  by_contra hc
  push Not at hc
  nlinarith

theorem zeta_arg {p : ℝ} (h : |p| ≤ mTop) : |kap⁻¹ * sin p| ≤ 0.945 := by
  have h1 := sin_of_le_mTop h
  obtain ⟨h2, h3⟩ := inv_kap_bounds
  rw [abs_mul, abs_of_nonneg (by linarith)]
  calc _ ≤ 1.1113 * 0.85 := mul_le_mul h3 h1 (abs_nonneg _) (by norm_num)
    _ ≤ _ := by norm_num

theorem sin_zetaR {p : ℝ} (h : |p| ≤ mTop) : sin (zetaR p) = kap⁻¹ * sin p := by
  have := abs_le.1 (zeta_arg h)
  exact sin_arcsin (by linarith) (by linarith)

theorem cos_zetaR {p : ℝ} (h : |p| ≤ mTop) : 0.327 ≤ cos (zetaR p) := by
  have h1 := zeta_arg h
  unfold zetaR
  rw [cos_arcsin]
  apply Real.le_sqrt_of_sq_le
  have : (kap⁻¹ * sin p) ^ 2 ≤ 0.945 ^ 2 := by rw [← sq_abs]; exact pow_le_pow_left₀ (abs_nonneg _) h1 2
  norm_num at this ⊢
  linarith

/-- the derivative of the zenith angle by the angle at the satellite is between 1 and 1.8 -/
theorem zeta_deriv {p : ℝ} (h : |p| ≤ mTop) :
    1 ≤ 1 / √(1 - (kap⁻¹ * sin p) ^ 2) * (kap⁻¹ * cos p) ∧ 1 / √(1 - (kap⁻¹ * sin p) ^ 2) * (kap⁻¹ * cos p) ≤ 1.8 := by
  have h1 := zeta_arg h
  obtain ⟨h2, h3⟩ := inv_kap_bounds
  have hc := cos_of_le_mTop h
  have hq : (kap⁻¹ * sin p) ^ 2 ≤ 0.945 ^ 2 := by rw [← sq_abs]; exact pow_le_pow_left₀ (abs_nonneg _) h1 2
  have hs0 : 0 < 1 - (kap⁻¹ * sin p) ^ 2 := by linarith [hq.trans_lt (by norm_num : (0.945 : ℝ) ^ 2 < 1)]
  have hs := sqrt_pos.2 hs0
  have hcs := sin_sq_add_cos_sq p
  have e : (kap⁻¹ * cos p) ^ 2 = kap⁻¹ ^ 2 - (kap⁻¹ * sin p) ^ 2 := by rw [mul_pow, mul_pow]; linear_combination kap⁻¹ ^ 2 * hcs
  have hk2 : kap⁻¹ ^ 2 ≤ 1.236 := by nlinarith
  have hk1 : 1 ≤ kap⁻¹ ^ 2 := by nlinarith
  have hpos : 0 ≤ kap⁻¹ * cos p := by nlinarith
  rw [one_div, le_inv_mul_iff₀ hs, inv_mul_le_iff₀ hs, mul_one]
  constructor
  · rw [Real.sqrt_le_left hpos, e]; linarith
  · apply le_of_sq_le_sq _ (by positivity)
    have e3 : (√(1 - (kap⁻¹ * sin p) ^ 2) * 1.8) ^ 2 = (1 - (kap⁻¹ * sin p) ^ 2) * 1.8 ^ 2 := by
      rw [mul_pow √_, sq_sqrt hs0.le]
    rw [e, e3]
    linarith

theorem zeta_hasDeriv {p : ℝ} (h : |p| ≤ mTop) :
    HasDerivAt zetaR (1 / √(1 - (kap⁻¹ * sin p) ^ 2) * (kap⁻¹ * cos p)) p :=
  hasDerivAt_arcsin_mul (lt_of_le_of_lt (zeta_arg h) (by norm_num))

theorem convex_mTop : Convex ℝ {p : ℝ | |p| ≤ mTop} := by
  have : {p : ℝ | |p| ≤ mTop} = Set.Icc (-mTop) mTop := by ext p; simp [abs_le]
  rw [this]; exact convex_Icc _ _

theorem zeta_lip {x y : ℝ} (hx : |x| ≤ mTop) (hy : |y| ≤ mTop) : |zetaR x - zetaR y| ≤ 1.8 * |x - y| := by
  have h := Convex.norm_image_sub_le_of_norm_hasDerivWithin_le (f := zetaR) (s := {p : ℝ | |p| ≤ mTop}) (C := 1.8)
    (f' := fun p => 1 / √(1 - (kap⁻¹ * sin p) ^ 2) * (kap⁻¹ * cos p)) (x := y) (y := x)
    (fun p hp => (zeta_hasDeriv hp).hasDerivWithinAt) (fun p hp => ?_) convex_mTop hy hx
  · simpa [Real.norm_eq_abs] using h
  · obtain ⟨h1, h2⟩ := zeta_deriv hp
    rw [Real.norm_eq_abs, abs_of_nonneg (by linarith)]; exact h2

theorem zeta_sub_lip {x y : ℝ} (hx : |x| ≤ mTop) (hy : |y| ≤ mTop) :
    |(zetaR x - x) - (zetaR y - y)| ≤ 0.8 * |x - y| := by
  have h := Convex.norm_image_sub_le_of_norm_hasDerivWithin_le (f := fun p => zetaR p - p) (s := {p : ℝ | |p| ≤ mTop}) (C := 0.8)
    (f' := fun p => 1 / √(1 - (kap⁻¹ * sin p) ^ 2) * (kap⁻¹ * cos p) - 1) (x := y) (y := x)
    (fun p hp => ((zeta_hasDeriv hp).sub (hasDerivAt_id p)).hasDerivWithinAt) (fun p hp => ?_) convex_mTop hy hx
  · simpa [Real.norm_eq_abs] using h
  · obtain ⟨h1, h2⟩ := zeta_deriv hp
    rw [Real.norm_eq_abs, abs_of_nonneg (by linarith)]; linarith

theorem zeta_sub_mono {x y : ℝ} (hx : |x| ≤ mTop) (hy : |y| ≤ mTop) (hxy : x ≤ y) : zetaR x - x ≤ zetaR y - y := by
  have : MonotoneOn (fun p => zetaR p - p) {p : ℝ | |p| ≤ mTop} := by
    apply monotoneOn_of_hasDerivWithinAt_nonneg (f' := fun p => 1 / √(1 - (kap⁻¹ * sin p) ^ 2) * (kap⁻¹ * cos p) - 1) convex_mTop
    · exact fun p hp => ((zeta_hasDeriv hp).sub (hasDerivAt_id p)).continuousAt.continuousWithinAt
    · exact fun p hp => ((zeta_hasDeriv (interior_subset (s := {p : ℝ | |p| ≤ mTop}) hp)).sub (hasDerivAt_id p)).hasDerivWithinAt
    · intro p hp
      have := (zeta_deriv (interior_subset (s := {p : ℝ | |p| ≤ mTop}) hp)).1
      show 0 ≤ _ - 1
      linarith
  exact this hx hy hxy

/-- the angle at the satellite of a zenith angle of at most 70 degrees -/
theorem phiR_70 {a : ℝ} (ha : |sin a| ≤ 0.941) : |phiR a| ≤ mTop - 0.003 := by
  have hk := kap_pos
  obtain ⟨k1, k2⟩ := kap_bounds
  have h1 : |kap * sin a| ≤ 0.847 := by
    rw [abs_mul, abs_of_pos hk]
    calc _ ≤ 0.89986 * 0.941 := mul_le_mul k2 ha (abs_nonneg _) (by norm_num)
      _ ≤ _ := by norm_num
  have h2 : arcsin 0.847 ≤ mTop - 0.003 := by
    have e1 : sin (arcsin 0.847) = 0.847 := sin_arcsin (by norm_num) (by norm_num)
    have e2 : sin mTop = 0.85 := sin_arcsin (by norm_num) (by norm_num)
    have e3 := abs_sin_sub_sin_le mTop (arcsin 0.847)
    rw [e1, e2] at e3
    have e4 : arcsin 0.847 ≤ mTop := monotone_arcsin (by norm_num)
    rw [abs_of_pos (by norm_num), abs_of_nonneg (by linarith)] at e3
    norm_num at e3 ⊢
    linarith
  obtain ⟨h3, h4⟩ := abs_le.1 h1
  unfold phiR
  rw [abs_le]
  constructor
  · have := monotone_arcsin h3
    rw [arcsin_neg] at this
    linarith
  · exact (monotone_arcsin h4).trans h2

/-- `zetaR` inverts `phiR` -/
theorem zeta_phi {a : ℝ} (ha : |a| ≤ π / 2) : zetaR (phiR a) = a := by
  unfold zetaR
  rw [sin_phiR, inv_mul_cancel_left₀ kap_pos.ne']
  exact arcsin_sin (by linarith [(abs_le.1 ha).1]) (abs_le.1 ha).2

/-- the mean of two angles -/
theorem mean_mTop {p s : ℝ} (hp : |p| ≤ mTop - 0.003) (hs : |s| ≤ mTop - 0.003) : |(p + s) / 2| ≤ mTop - 0.003 := by
  rw [abs_le] at *
  constructor <;> linarith

/-- The angle at the centre of the mean is between the two angles: the numerator of the expansion coefficient is at most half
the denominator. -/
theorem expansion_num {a b : ℝ} (ha : |a| ≤ π / 2) (hb : |b| ≤ π / 2) (ha' : |sin a| ≤ 0.941) (hb' : |sin b| ≤ 0.941) :
    |((a - phiR a) + (b - phiR b)) / 2 - (zetaR ((phiR a + phiR b) / 2) - (phiR a + phiR b) / 2)|
      ≤ |(a - phiR a) - (b - phiR b)| / 2 := by
  wlog hle : phiR a ≤ phiR b generalizing a b with H
  · have := H hb ha hb' ha' (le_of_not_ge hle)
    rw [add_comm (phiR b), add_comm (b - phiR b), abs_sub_comm (b - phiR b)] at this
    exact this
  have h1 := phiR_70 ha'
  have h2 := phiR_70 hb'
  have h3 := mean_mTop h1 h2
  have m1 := zeta_sub_mono (x := phiR a) (y := (phiR a + phiR b) / 2) (by linarith) (by linarith) (by linarith)
  have m2 := zeta_sub_mono (x := (phiR a + phiR b) / 2) (y := phiR b) (by linarith) (by linarith) (by linarith)
  rw [zeta_phi ha] at m1
  rw [zeta_phi hb] at m2
  rw [abs_of_nonpos (by linarith : (a - phiR a) - (b - phiR b) ≤ 0), abs_le]
  constructor <;> linarith

/-- the distance of the pixel, as used in the alignment coefficient -/
theorem align_bounds {p : ℝ} (h : |p| ≤ mTop) :
    0 ≤ kap⁻¹ * cos p - cos (zetaR p) ∧ kap⁻¹ * cos p - cos (zetaR p) ≤ 0.28 := by
  have hc := cos_of_le_mTop h
  have hz := cos_zetaR h
  have hs := sin_zetaR h
  obtain ⟨h2, h3⟩ := inv_kap_bounds
  have e1 := sin_sq_add_cos_sq p
  have e2 := sin_sq_add_cos_sq (zetaR p)
  obtain ⟨X, hX⟩ : ∃ X, X = kap⁻¹ * cos p := ⟨_, rfl⟩
  obtain ⟨Z, hZ⟩ : ∃ Z, Z = cos (zetaR p) := ⟨_, rfl⟩
  have e : X ^ 2 - Z ^ 2 = kap⁻¹ ^ 2 - 1 := by
    rw [hX, hZ, mul_pow]
    rw [hs] at e2
    linear_combination kap⁻¹ ^ 2 * e1 - e2
  have hk1 : kap⁻¹ ^ 2 ≤ 1.236 := by nlinarith
  have hk2 : 1 ≤ kap⁻¹ ^ 2 := by nlinarith
  have hX0 : 0.57 ≤ X := by rw [hX]; nlinarith
  rw [← hX, ← hZ]
  rw [← hZ] at hz
  have e' : (X - Z) * (X + Z) = kap⁻¹ ^ 2 - 1 := by rw [← e]; ring
  constructor
  · by_contra hc'
    push Not at hc'
    nlinarith
  · by_contra hc'
    push Not at hc'
    nlinarith

end Verif.Modis
