import Verif.Proofs.ModisAngle
import Verif.Proofs.QuadErr
import Verif.Spec.Scan

/-!
# The viewing geometry: the angle at the centre of the Earth as a function of the scan angle (real analysis)
-/

namespace Verif.Modis
open Verif Real Verif.Spec

/-- law of sines -/
theorem seen_iff {φ θ ζ : ℝ} (h : Seen Rk Hk φ θ ζ) : ζ = zetaR φ ∧ θ = zetaR φ - φ := by
  obtain ⟨h1, h2, h3, L, hL, ⟨e1, e2⟩, e3, e4⟩ := h
  have hR : (0 : ℝ) < Rk := by norm_num [Rk]
  have hs : Rk * sin ζ = (Rk + Hk) * sin φ := by
    have u : L * sin ζ = (Rk + Hk) * sin θ := by
      have := sin_sq_add_cos_sq θ
      linear_combination cos θ * e3 - sin θ * e4 - L * sin ζ * this
    have : L * (Rk * sin ζ) = L * ((Rk + Hk) * sin φ) := by
      linear_combination Rk * u + (Rk + Hk) * e1
    exact mul_left_cancel₀ hL.ne' this
  have ek : sin ζ = kap⁻¹ * sin φ := by
    rw [← inv_kap]
    field_simp
    linarith
  have hζ : ζ = zetaR φ := by
    unfold zetaR
    rw [← ek, arcsin_sin (by linarith [(abs_lt.1 h2).1]) (by linarith [(abs_lt.1 h2).2])]
  refine ⟨hζ, ?_⟩
  rw [← hζ]
  have c1 : sin φ = sin (ζ - θ) := by
    rw [sin_sub]
    apply mul_left_cancel₀ hL.ne'
    linear_combination (-1) * e1 - e3
  have c2 : cos φ = cos (ζ - θ) := by
    rw [cos_sub]
    apply mul_left_cancel₀ hL.ne'
    linear_combination e2 + e4
  have c3 : cos θ = cos (ζ - φ) := by
    rw [cos_sub, c1, c2, sin_sub, cos_sub]
    linear_combination (-cos θ) * sin_sq_add_cos_sq ζ
  have c4 : sin θ = sin (ζ - φ) := by
    rw [sin_sub, c1, c2, sin_sub, cos_sub]
    linear_combination (-sin θ) * sin_sq_add_cos_sq ζ
  obtain ⟨a1, a2⟩ := abs_lt.1 h1
  obtain ⟨b1, b2⟩ := abs_lt.1 h2
  obtain ⟨d1, d2⟩ := abs_lt.1 h3
  have c5 : cos (θ - (ζ - φ)) = 1 := by
    rw [cos_sub, c3, c4]
    nlinarith [sin_sq_add_cos_sq (ζ - φ)]
  have := (cos_eq_one_iff_of_lt_of_lt (by linarith) (by linarith)).1 c5
  linarith

/-- the geometry at every scan angle at which the zenith angle is at most about 70 degrees -/
theorem seen_of {φ : ℝ} (h : |φ| ≤ mTop) : Seen Rk Hk φ (zetaR φ - φ) (zetaR φ) := by
  have hR : (0 : ℝ) < Rk := by norm_num [Rk]
  have hH : (0 : ℝ) < Hk := by norm_num [Hk]
  have hp := pi_gt_three
  have hm := mTop_lt
  have hφ := abs_le.1 h
  have hs := sin_zetaR h
  have hc := cos_zetaR h
  have hc' := cos_of_le_mTop h
  have hz : |zetaR φ| < π / 2 := by
    have h1 := abs_le.1 (zeta_arg h)
    unfold zetaR
    rw [abs_lt]
    exact ⟨neg_pi_div_two_lt_arcsin.2 (by linarith), arcsin_lt_pi_div_two.2 (by linarith)⟩
  have hz' := abs_lt.1 hz
  generalize zetaR φ = Z at *
  have ek : Rk * sin Z = (Rk + Hk) * sin φ := by
    rw [hs, ← inv_kap]; field_simp
  refine ⟨by rw [abs_lt]; constructor <;> linarith, hz, by rw [abs_lt]; constructor <;> linarith,
    (Rk + Hk) * cos φ - Rk * cos Z, ?_, ⟨?_, ?_⟩, ?_, ?_⟩
  · have h1 : cos Z ≤ cos φ := by
      have p1 := sin_sq_add_cos_sq Z
      have p2 := sin_sq_add_cos_sq φ
      have hk := inv_kap_bounds.1
      have : sin φ ^ 2 ≤ sin Z ^ 2 := by
        rw [hs, mul_pow]
        have : 1 ≤ kap⁻¹ ^ 2 := by nlinarith
        nlinarith [sq_nonneg (sin φ)]
      exact le_of_sq_le_sq (by linarith) (by linarith)
    nlinarith
  · rw [sin_sub]; linear_combination (cos φ) * ek
  · rw [cos_sub]; linear_combination (sin φ) * ek + (Rk + Hk) * sin_sq_add_cos_sq φ
  · have e : cos Z * sin (Z - φ) - sin Z * cos (Z - φ) = -sin φ := by
      rw [sin_sub, cos_sub]; linear_combination (-sin φ) * sin_sq_add_cos_sq Z
    rw [e, sin_sub]; linear_combination (-cos φ) * ek
  · have e : cos Z * cos (Z - φ) + sin Z * sin (Z - φ) = cos φ := by
      rw [sin_sub, cos_sub]; linear_combination (cos φ) * sin_sq_add_cos_sq Z
    rw [e, cos_sub]; linear_combination (-sin φ) * ek - (Rk + Hk) * sin_sq_add_cos_sq φ

/-- the first derivative of the zenith angle -/
noncomputable def zeta1 (p : ℝ) : ℝ := kap⁻¹ * cos p / cos (zetaR p)
noncomputable def zeta2 (p : ℝ) : ℝ := (kap⁻¹ ^ 2 - 1) * sin (zetaR p) / cos (zetaR p) ^ 3
noncomputable def zeta3 (p : ℝ) : ℝ := (kap⁻¹ ^ 2 - 1) * (zeta1 p * (3 - 2 * cos (zetaR p) ^ 2) / cos (zetaR p) ^ 4)

theorem zeta1_eq (p : ℝ) : 1 / √(1 - (kap⁻¹ * sin p) ^ 2) * (kap⁻¹ * cos p) = zeta1 p := by
  unfold zeta1 zetaR
  rw [cos_arcsin]
  ring

theorem d_zeta1 {p : ℝ} (h : |p| ≤ mTop) : HasDerivAt zetaR (zeta1 p) p := by
  rw [← zeta1_eq]; exact zeta_hasDeriv h

/-- the square of the derivative -/
theorem zeta1_sq {p : ℝ} (h : |p| ≤ mTop) : zeta1 p ^ 2 = 1 + (kap⁻¹ ^ 2 - 1) / cos (zetaR p) ^ 2 := by
  have hc := cos_zetaR h
  have hs := sin_zetaR h
  have p1 := sin_sq_add_cos_sq p
  have p2 := sin_sq_add_cos_sq (zetaR p)
  have h0 : cos (zetaR p) ≠ 0 := by linarith
  rw [hs] at p2
  unfold zeta1
  rw [div_pow]
  field_simp
  linear_combination kap⁻¹ ^ 2 * p1 - p2

theorem d_zeta2 {p : ℝ} (h : |p| ≤ mTop) : HasDerivAt zeta1 (zeta2 p) p := by
  have hc := cos_zetaR h
  have h0 : cos (zetaR p) ≠ 0 := by linarith
  have e := zeta1_sq h
  have := ((hasDerivAt_cos p).const_mul kap⁻¹).div ((hasDerivAt_cos (zetaR p)).comp p (d_zeta1 h)) h0
  refine this.congr_deriv ?_
  have hs := sin_zetaR h
  have e1 : kap⁻¹ * cos p = zeta1 p * cos (zetaR p) := by unfold zeta1; field_simp
  have e2 : kap⁻¹ * -sin p = -sin (zetaR p) := by rw [hs]; ring
  simp only [Function.comp_apply]
  rw [e1, e2]
  unfold zeta2
  have e3 : kap⁻¹ ^ 2 - 1 = (zeta1 p ^ 2 - 1) * cos (zetaR p) ^ 2 := by rw [e]; field_simp; ring
  rw [e3]
  field_simp
  ring

theorem d_zeta3 {p : ℝ} (h : |p| ≤ mTop) : HasDerivAt zeta2 (zeta3 p) p := by
  have hc := cos_zetaR h
  have h0 : cos (zetaR p) ≠ 0 := by linarith
  have p2 := sin_sq_add_cos_sq (zetaR p)
  have hcos := (hasDerivAt_cos (zetaR p)).comp p (d_zeta1 h)
  have hsin := (hasDerivAt_sin (zetaR p)).comp p (d_zeta1 h)
  have := (hsin.const_mul (kap⁻¹ ^ 2 - 1)).div (hcos.pow 3) (by simpa using h0)
  refine this.congr_deriv ?_
  simp only [Function.comp_apply, Pi.pow_apply]
  unfold zeta3
  have : sin (zetaR p) ^ 2 = 1 - cos (zetaR p) ^ 2 := by linarith
  field_simp
  ring_nf
  rw [this]
  ring

theorem zeta3_le {p : ℝ} (h : |p| ≤ mTop) : |zeta3 p| ≤ 104 := by
  have hc := cos_zetaR h
  have h1 := cos_le_one (zetaR p)
  obtain ⟨k1, k2⟩ := inv_kap_bounds
  obtain ⟨z1, z2⟩ := zeta_deriv h
  rw [zeta1_eq] at z1 z2
  unfold zeta3
  generalize cos (zetaR p) = c at *
  have hx : 0.106929 ≤ c ^ 2 := by nlinarith
  have hx1 : c ^ 2 ≤ 1 := by nlinarith
  have g0 : 0 ≤ kap⁻¹ ^ 2 - 1 := by nlinarith
  have g1 : kap⁻¹ ^ 2 - 1 ≤ 0.235 := by nlinarith
  have q : (3 - 2 * c ^ 2) / c ^ 4 ≤ 244 := by
    rw [div_le_iff₀ (by positivity)]
    nlinarith [mul_nonneg (sub_nonneg.2 hx) (sub_nonneg.2 hx)]
  have q0 : 0 ≤ (3 - 2 * c ^ 2) / c ^ 4 := div_nonneg (by linarith) (by positivity)
  rw [mul_div_assoc, abs_of_nonneg (mul_nonneg g0 (mul_nonneg (by linarith) q0))]
  have := mul_le_mul g1 (mul_le_mul z2 q q0 (by norm_num)) (mul_nonneg (by linarith) q0) (by norm_num)
  linarith

/-- **the parabola through the angles at the centre of the Earth for the two scan angles and the one half way**, also beyond them -/
theorem theta_parab {x y : ℝ} (hx : |x| ≤ mTop) (hy : |y| ≤ mTop) {s : ℝ} (hs : |x + s * (y - x)| ≤ mTop) :
    |(zetaR (x + s * (y - x)) - (x + s * (y - x))) - Quad.parab (zetaR x - x) (zetaR y - y) (zetaR ((x + y) / 2) - (x + y) / 2) s|
      ≤ 18 * |s * (s - 1 / 2) * (s - 1)| * |y - x| ^ 3 := by
  have hmem : ∀ t ∈ Set.Icc (min s 0) (max s 1), |x + t * (y - x)| ≤ mTop := by
    intro t ⟨h1, h2⟩
    rw [abs_le] at *
    have lo : s ≤ t ∨ 0 ≤ t := min_le_iff.1 h1
    have up : t ≤ s ∨ t ≤ 1 := le_max_iff.1 h2
    rcases le_total x y with h | h
    · have g : 0 ≤ y - x := by linarith
      constructor
      · rcases lo with l | l <;> linarith [mul_le_mul_of_nonneg_right l g]
      · rcases up with l | l <;> linarith [mul_le_mul_of_nonneg_right l g]
    · have g : y - x ≤ 0 := by linarith
      constructor
      · rcases up with l | l <;> linarith [mul_le_mul_of_nonpos_right l g]
      · rcases lo with l | l <;> linarith [mul_le_mul_of_nonpos_right l g]
  have := Quad.quad_err_wide (f := fun p => zetaR p - p) (f1 := fun p => zeta1 p - 1) (f2 := zeta2) (f3 := zeta3) (a := x) (b := y) (M := 104)
    (min_le_right s 0) (le_max_right s 1) (fun t ht => (d_zeta1 (hmem t ht)).sub (hasDerivAt_id _))
    (fun t ht => (d_zeta2 (hmem t ht)).sub_const 1) (fun t ht => d_zeta3 (hmem t ht)) (fun t ht => zeta3_le (hmem t ht))
    (min_le_left s 0) (le_max_left s 1)
  refine this.trans ?_
  gcongr
  norm_num

theorem uIcc_mTop {x y : ℝ} (hx : |x| ≤ mTop) (hy : |y| ≤ mTop) {p : ℝ} (hp : p ∈ Set.uIcc x y) : |p| ≤ mTop := by
  rw [Set.mem_uIcc] at hp
  rw [abs_le] at *
  rcases hp with hp | hp <;> constructor <;> linarith [hp.1, hp.2, hx.1, hx.2, hy.1, hy.2]

/-- the mean of two angles at the centre of the Earth and the angle for the mean scan angle -/
theorem theta_second {x y : ℝ} (hx : |x| ≤ mTop) (hy : |y| ≤ mTop) :
    ∃ p ∈ Set.uIcc x y, ((zetaR x - x) + (zetaR y - y)) / 2 - (zetaR ((x + y) / 2) - (x + y) / 2) = zeta2 p * (y - x) ^ 2 / 8 :=
  Quad.second_diff (f := fun p => zetaR p - p) (f1 := fun p => zeta1 p - 1) (f2 := zeta2)
    (fun p hp => (d_zeta1 (uIcc_mTop hx hy hp)).sub (hasDerivAt_id p)) (fun _ hp => (d_zeta2 (uIcc_mTop hx hy hp)).sub_const 1)

/-- the second derivative near the nadir -/
theorem zeta2_small {p : ℝ} (h : |p| ≤ mTop) (hs : |sin p| ≤ 0.1) : |zeta2 p| ≤ 0.27 * |p| := by
  have hc := cos_zetaR h
  have e := sin_zetaR h
  obtain ⟨k1, k2⟩ := inv_kap_bounds
  have hsp : |sin p| ≤ |p| := abs_sin_le_abs
  have p2 := sin_sq_add_cos_sq (zetaR p)
  have hz : |sin (zetaR p)| ≤ 1.1113 * |sin p| := by
    rw [e, abs_mul, abs_of_pos (by linarith)]
    gcongr
  have hz2 : sin (zetaR p) ^ 2 ≤ 0.0124 := by
    rw [← sq_abs]
    have : |sin (zetaR p)| ≤ 0.11113 := by linarith
    calc _ ≤ 0.11113 ^ 2 := pow_le_pow_left₀ (abs_nonneg _) this 2
      _ ≤ _ := by norm_num
  have hc9 : 0.993 ≤ cos (zetaR p) := by nlinarith
  unfold zeta2
  generalize cos (zetaR p) = c at *
  have c3 : 0.979 ≤ c ^ 3 := by
    have := pow_le_pow_left₀ (by norm_num) hc9 3
    linarith [show (0.979 : ℝ) ≤ 0.993 ^ 3 by norm_num]
  have g0 : 0 ≤ kap⁻¹ ^ 2 - 1 := by nlinarith
  have g1 : kap⁻¹ ^ 2 - 1 ≤ 0.235 := by nlinarith
  rw [abs_div, abs_mul, abs_of_nonneg g0, abs_of_pos (show 0 < c ^ 3 by linarith), div_le_iff₀ (by linarith)]
  have h1 : (kap⁻¹ ^ 2 - 1) * |sin (zetaR p)| ≤ 0.235 * (1.1113 * |p|) :=
    mul_le_mul g1 (hz.trans (by gcongr)) (abs_nonneg _) (by norm_num)
  have := abs_nonneg p
  nlinarith

/-- the second derivative beyond 45 degrees -/
theorem zeta2_large {p : ℝ} (h : |p| ≤ mTop) (hp : π / 4 ≤ zetaR p) : 0.4 ≤ zeta2 p := by
  have hpi := pi_pos
  obtain ⟨k1, k2⟩ := inv_kap_bounds
  have hc := cos_zetaR h
  have hz : zetaR p ≤ π / 2 := arcsin_le_pi_div_two _
  have hs : √2 / 2 ≤ sin (zetaR p) := by
    rw [← sin_pi_div_four]
    exact sin_le_sin_of_le_of_le_pi_div_two (by linarith) hz hp
  have hcc : cos (zetaR p) ≤ √2 / 2 := by
    rw [← cos_pi_div_four]
    exact cos_le_cos_of_nonneg_of_le_pi (by linarith) (by linarith) hp
  have h2 : √2 ^ 2 = 2 := sq_sqrt (by norm_num)
  have h3 : (1.41 : ℝ) ≤ √2 := le_sqrt_of_sq_le (by norm_num)
  have h4 : √2 ≤ 1.415 := sqrt_le_iff.2 ⟨by norm_num, by norm_num⟩
  unfold zeta2
  generalize cos (zetaR p) = c at *
  have c3 : c ^ 3 ≤ 0.3543 := by
    have : c ≤ 0.7075 := by linarith
    have := pow_le_pow_left₀ (by linarith) this 3
    norm_num at this ⊢
    linarith
  have g1 : 0.2347 ≤ kap⁻¹ ^ 2 - 1 := by nlinarith
  rw [le_div_iff₀ (by positivity)]
  have : 0.2347 * 0.705 ≤ (kap⁻¹ ^ 2 - 1) * sin (zetaR p) := mul_le_mul g1 (by linarith) (by norm_num) (by linarith)
  linarith

end Verif.Modis
