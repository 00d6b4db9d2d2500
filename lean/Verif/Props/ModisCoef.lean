import Verif.Props.ModisNum
import Mathlib.Analysis.Real.Pi.Bounds

/-!
# C34: for which zenith angles the coefficients of the satellite-angle MODIS interpolation are numbers, exactly
-/

namespace Verif.Spec.Modis
open Real

/-- radius of the Earth and height of the satellite, in kilometres -/
noncomputable def earthKm : ℝ := 6370.997
noncomputable def satelliteKm : ℝ := 709

/-- the angle at the satellite between the nadir and the line to a point seen under zenith angle `z` (degrees): the law of sines -/
noncomputable def scanAngle (z : ℝ) : ℝ := arcsin (earthKm / (earthKm + satelliteKm) * sin (z * (π / 180)))

/-- the zenith angle (radians) of the point half way between two, as seen from the satellite -/
noncomputable def midZenith (a b : ℝ) : ℝ :=
  arcsin ((earthKm + satelliteKm) / earthKm * sin ((scanAngle a + scanAngle b) / 2))

/-- The line of sight of half a pixel of `w` kilometres (at nadir) beside the scan still meets the Earth, under zenith angle `z`
(radians): fails next to the horizon only. -/
def MeetsEarth (w z : ℝ) : Prop :=
  (w / (2 * satelliteKm)) ^ 2 * (((earthKm + satelliteKm) / earthKm) ^ 2 - 1) ≤ (1 + 2 * (w / (2 * satelliteKm))) * cos z ^ 2

end Verif.Spec.Modis

namespace Verif.Props
open Verif Verif.Modis Verif.Spec.Modis Verif.Geo FP Real

private theorem earth_eq : earthKm = Rk := by norm_num [earthKm, Rk]
private theorem sat_eq : satelliteKm = Hk := by norm_num [satelliteKm, Hk]

private theorem scan_eq (z : ℝ) : scanAngle z = phiR (Spec.rad z) := by
  unfold scanAngle phiR kap Spec.rad
  rw [earth_eq, sat_eq]

private theorem mid_eq (a b : ℝ) : midZenith a b = arcsin (kap⁻¹ * sin ((phiR (Spec.rad a) + phiR (Spec.rad b)) / 2)) := by
  unfold midZenith
  rw [scan_eq, scan_eq, earth_eq, sat_eq, inv_kap]

private theorem mean_between (a b s : ℝ) (ha : |sin a| ≤ s) (hb : |sin b| ≤ s) : |kap⁻¹ * sin ((phiR a + phiR b) / 2)| ≤ s := by
  have hk := kap_pos
  obtain ⟨_, _⟩ := abs_le.1 ha
  obtain ⟨_, _⟩ := abs_le.1 hb
  obtain ⟨a1, a2⟩ := phiR_mem a
  obtain ⟨b1, b2⟩ := phiR_mem b
  have ea := sin_phiR a
  have eb := sin_phiR b
  set m := (phiR a + phiR b) / 2 with hm
  have up : sin m ≤ kap * s := by
    rcases le_total (phiR a) (phiR b) with h | h
    · have : sin m ≤ sin (phiR b) := sin_le_sin_of_le_of_le_pi_div_two (by linarith) (by linarith) (by linarith)
      nlinarith
    · have : sin m ≤ sin (phiR a) := sin_le_sin_of_le_of_le_pi_div_two (by linarith) (by linarith) (by linarith)
      nlinarith
  have lo : -(kap * s) ≤ sin m := by
    rcases le_total (phiR a) (phiR b) with h | h
    · have : sin (phiR a) ≤ sin m := sin_le_sin_of_le_of_le_pi_div_two (by linarith) (by linarith) (by linarith)
      nlinarith
    · have : sin (phiR b) ≤ sin m := sin_le_sin_of_le_of_le_pi_div_two (by linarith) (by linarith) (by linarith)
      nlinarith
  rw [abs_mul, abs_of_pos (inv_pos.mpr hk), inv_mul_le_iff₀ hk]
  exact abs_le.mpr ⟨lo, up⟩

private theorem mean_any (a b : ℝ) : |kap⁻¹ * sin ((phiR a + phiR b) / 2)| ≤ 1 :=
  mean_between a b 1 (abs_sin_le_one a) (abs_sin_le_one b)

/-- the two coefficients of any two angles, not both zero -/
private theorem coefs (w : Nat) {a b : ℝ} (h0 : ¬ (a = 0 ∧ b = 0)) :
    ∃ x q : ℝ, ∃ d : ℝ, q ≠ 0 ∧ d = ((Rk + Hk) / Rk * cos ((phiR (Spec.rad a) + phiR (Spec.rad b)) / 2) - cos (midZenith a b)) *
        ((w : ℝ) / (2 * Hk)) ∧
      (expansionAlignment w (val a : FP ℝ) (val b)).1 = val x ∧
      (expansionAlignment w (val a : FP ℝ) (val b)).2 = val 4 * (val (cos (midZenith a b)) -
        Trig.sqrt (val (cos (midZenith a b) * cos (midZenith a b) - d * d))) * val (sin (midZenith a b)) / val q := by
  have hk := kap_pos
  have hR := Rk_pos
  rw [mid_eq]
  set A := Spec.rad a with hA
  set B := Spec.rad b with hB
  set m := (phiR A + phiR B) / 2 with hm
  have hmean := mean_any A B
  rw [← hm] at hmean
  obtain ⟨m1, m2⟩ := abs_le.mp hmean
  have hzeta : computeZeta (val m : FP ℝ) = val (arcsin (kap⁻¹ * sin m)) := by
    unfold computeZeta
    have e : (Rk + Hk) * sin m / Rk = kap⁻¹ * sin m := by rw [← inv_kap]; ring
    rw [satR_val, satH_val, sin_val, val_add, val_mul, val_div_of_ne _ hR.ne', e,
      asin_val_of m1 m2, toFloating_eq]
  set Z := arcsin (kap⁻¹ * sin m) with hZ
  set den := (if Arith.eq (computeTheta (val A) (val (phiR A)) : FP ℝ) (computeTheta (val B) (val (phiR B)))
    then computeTheta (val A) (val (phiR A)) * 2
    else computeTheta (val A) (val (phiR A)) - computeTheta (val B) (val (phiR B)) : FP ℝ) with hden
  have hd : ∃ q : ℝ, q ≠ 0 ∧ den = val q := by
    simp only [hden, computeTheta, val_sub, eq_val]
    by_cases h : A - phiR A = B - phiR B
    · refine ⟨(A - phiR A) * 2, ?_, by simp [h]⟩
      have hab := theta_inj h
      intro hz
      have : A - phiR A = 0 - phiR 0 := by rw [phiR_zero]; linarith
      have hA0 := theta_inj this
      have hp := pi_pos
      have hinj : ∀ x, Spec.rad x = 0 → x = 0 := by
        intro x hx
        rw [← deg_rad x, hx, deg_zero]
      exact h0 ⟨hinj a hA0, hinj b (by rw [← hB, ← hab]; exact hA0)⟩
    · exact ⟨A - phiR A - (B - phiR B), fun hz => h (by linarith), by simp [h]⟩
  obtain ⟨q, hq, hdq⟩ := hd
  have hH : (0:ℝ) < 2 * Hk := by norm_num [Hk]
  refine ⟨4 * (((A - phiR A + (B - phiR B)) / 2 - (Z - m)) / q), q, _, hq, rfl, ?_, ?_⟩
  all_goals
    unfold expansionAlignment
    simp only [toFloating_eq, cyDeg2rad_eq, deg2rad_val, ← hA, ← hB, computePhi_val]
    rw [← hden, hdq]
    have h2 : (val (phiR A) + val (phiR B) : FP ℝ) / 2 = val m := by
      rw [val_add, ofNat_eq, val_div_of_ne _ (by norm_num)]
    rw [h2, hzeta]
    simp only [computeTheta, cos_val, sin_val, satR_val, satH_val, val_add, val_sub, val_mul]
  · rw [ofNat_eq 2, val_div_of_ne _ (by norm_num : (2 : ℝ) ≠ 0), val_sub, val_div_of_ne _ hq, ofNat_eq 4, val_mul]
  · rw [val_div_of_ne _ hR.ne', ofNat_eq 2, val_mul 2 Hk, ofInt_eq, val_div_of_ne _ hH.ne', ofNat_eq 4]
    simp only [val_sub, val_mul, Int.cast_natCast]

private theorem meets_iff (w : Nat) (a b : ℝ) (d : ℝ)
    (hd : d = ((Rk + Hk) / Rk * cos ((phiR (Spec.rad a) + phiR (Spec.rad b)) / 2) - cos (midZenith a b)) * ((w : ℝ) / (2 * Hk))) :
    0 ≤ cos (midZenith a b) * cos (midZenith a b) - d * d ↔ MeetsEarth w (midZenith a b) := by
  have hk := kap_pos
  obtain ⟨m1, m2⟩ := abs_le.mp (mean_any (Spec.rad a) (Spec.rad b))
  obtain ⟨a1, a2⟩ := phiR_mem (Spec.rad a)
  obtain ⟨b1, b2⟩ := phiR_mem (Spec.rad b)
  have hc : 0 ≤ cos (midZenith a b) := by rw [mid_eq]; exact cos_arcsin_nonneg _
  have hs : sin (midZenith a b) = kap⁻¹ * sin ((phiR (Spec.rad a) + phiR (Spec.rad b)) / 2) := by
    rw [mid_eq]; exact sin_arcsin m1 m2
  have hcm : 0 ≤ cos ((phiR (Spec.rad a) + phiR (Spec.rad b)) / 2) :=
    cos_nonneg_of_neg_pi_div_two_le_of_le (by linarith) (by linarith)
  unfold MeetsEarth
  rw [earth_eq, sat_eq]
  rw [inv_kap] at hd ⊢
  have hβ : 0 ≤ (w : ℝ) / (2 * Hk) := div_nonneg (Nat.cast_nonneg w) (by norm_num [Hk])
  generalize (w : ℝ) / (2 * Hk) = β at hd hβ ⊢
  generalize (phiR (Spec.rad a) + phiR (Spec.rad b)) / 2 = m at hs hcm hd
  generalize midZenith a b = ζ at hc hs hd ⊢
  have q1 := sin_sq_add_cos_sq m
  have q2 := sin_sq_add_cos_sq ζ
  have hki : 1 < kap⁻¹ := (one_lt_inv₀ hk).2 kap_lt
  rw [hs] at q2
  generalize kap⁻¹ = κ at hs hd hki q2 ⊢
  have hP : (κ * cos m) ^ 2 = κ ^ 2 - 1 + cos ζ ^ 2 := by linear_combination κ ^ 2 * q1 - q2
  have hP0 : 0 ≤ κ * cos m := mul_nonneg (by linarith) hcm
  have hge : cos ζ ≤ κ * cos m := by
    by_contra h
    push Not at h
    nlinarith
  generalize κ * cos m = P at hP hP0 hge hd
  generalize cos ζ = c at hc hP hge hd ⊢
  have hd0 : 0 ≤ d := by rw [hd]; exact mul_nonneg (by linarith) hβ
  have e1 : 0 ≤ c * c - d * d ↔ d ≤ c := by
    constructor
    · intro h
      by_contra hn
      push Not at hn
      nlinarith
    · intro h; nlinarith
  have e2 : d ≤ c ↔ P * β ≤ (1 + β) * c := by
    rw [hd]
    constructor <;> intro h <;> linarith
  have e3 : P * β ≤ (1 + β) * c ↔ (P * β) ^ 2 ≤ ((1 + β) * c) ^ 2 :=
    ⟨fun h => pow_le_pow_left₀ (mul_nonneg hP0 hβ) h 2, fun h => abs_le_of_sq_le_sq' h (mul_nonneg (by linarith) hc) |>.2⟩
  rw [e1, e2, e3, mul_pow, hP]
  constructor <;> intro h <;> nlinarith

/-- **C34 (exact)**: for any two zenith angles whatever, the expansion coefficient is a number unless both angles are zero; the alignment
coefficient is one if, besides, the line of sight beside the scan half way between the two meets the Earth. -/
theorem C34_exact (w : Nat) (a b : ℝ) :
    (IsNum (expansionAlignment w (val a : FP ℝ) (val b)).1 ↔ ¬ (a = 0 ∧ b = 0)) ∧
    (IsNum (expansionAlignment w (val a : FP ℝ) (val b)).2 ↔ ¬ (a = 0 ∧ b = 0) ∧ MeetsEarth w (midZenith a b)) := by
  have nb : ¬ IsNum (bad : FP ℝ) := by rintro ⟨v, h⟩; cases h
  by_cases h0 : a = 0 ∧ b = 0
  · obtain ⟨rfl, rfl⟩ := h0
    obtain ⟨h1, h2⟩ := C34_negation w
    rw [h1, h2]
    simp [nb]
  · obtain ⟨x, q, d, hq, hd, e1, e2⟩ := coefs w h0
    rw [e1, e2]
    refine ⟨by simp [h0, IsNum], ?_⟩
    rw [← meets_iff w a b d hd]
    by_cases hn : 0 ≤ cos (midZenith a b) * cos (midZenith a b) - d * d
    · rw [sqrt_val_of hn]
      simp only [val_sub, val_mul]
      rw [val_div_of_ne _ hq]
      simp [h0, hn, IsNum]
    · have : Trig.sqrt (val (cos (midZenith a b) * cos (midZenith a b) - d * d) : FP ℝ) = bad := by
        rw [sqrt_val, if_neg hn]
      rw [this]
      simp [h0, hn, nb]

private theorem sin_wide {a : ℝ} (h : |a| ≤ 89.8) : |sin (Spec.rad a)| ≤ sin (Spec.rad 89.8) := by
  have hp := pi_pos
  have h2 : Spec.rad 89.8 ≤ π / 2 := by unfold Spec.rad; linarith
  have h1 : |Spec.rad a| ≤ Spec.rad 89.8 := by
    unfold Spec.rad
    rw [abs_mul, abs_of_pos (by positivity : 0 < π / 180)]
    exact mul_le_mul_of_nonneg_right h (by positivity)
  obtain ⟨l1, l2⟩ := abs_le.mp h1
  rw [abs_le]
  constructor
  · rw [← sin_neg]; exact sin_le_sin_of_le_of_le_pi_div_two (by linarith) (by linarith) l1
  · exact sin_le_sin_of_le_of_le_pi_div_two (by linarith) (by linarith) l2

/-- **C34 (wide angles)**: with pixels of one and five kilometres both coefficients are numbers for all zenith angles of at most 89.8
degrees in absolute value, not both zero. -/
theorem C34_wide (w : Nat) (hw : w ≤ 5) (a b : ℝ) (ha : |a| ≤ 89.8) (hb : |b| ≤ 89.8) (h0 : ¬ (a = 0 ∧ b = 0)) :
    IsNum (expansionAlignment w (val a : FP ℝ) (val b)).1 ∧ IsNum (expansionAlignment w (val a : FP ℝ) (val b)).2 := by
  obtain ⟨e1, e2⟩ := C34_exact w a b
  rw [e1, e2]
  refine ⟨h0, h0, ?_⟩
  have hm := mean_between _ _ _ (sin_wide ha) (sin_wide hb)
  have hc : cos (midZenith a b) ^ 2 = 1 - (kap⁻¹ * sin ((phiR (Spec.rad a) + phiR (Spec.rad b)) / 2)) ^ 2 := by
    obtain ⟨m1, m2⟩ := abs_le.mp (mean_any (Spec.rad a) (Spec.rad b))
    have := sin_sq_add_cos_sq (midZenith a b)
    rw [mid_eq, sin_arcsin m1 m2, ← mid_eq] at this
    linarith
  have hs : (kap⁻¹ * sin ((phiR (Spec.rad a) + phiR (Spec.rad b)) / 2)) ^ 2 ≤ sin (Spec.rad 89.8) ^ 2 := by
    rw [← sq_abs]; exact pow_le_pow_left₀ (abs_nonneg _) hm 2
  have ht : 1 / 450 ≤ cos (Spec.rad 89.8) := by
    have e : Spec.rad 89.8 = π / 2 - π / 900 := by unfold Spec.rad; ring
    rw [e, cos_pi_div_two_sub]
    have h := Real.mul_le_sin (x := π / 900) (by positivity) (by have := pi_pos; linarith)
    have : 2 / π * (π / 900) = 1 / 450 := by field_simp; norm_num
    linarith
  have ht2 := pow_le_pow_left₀ (by norm_num) ht 2
  have q := sin_sq_add_cos_sq (Spec.rad 89.8)
  have hc2 : (1 / 450) ^ 2 ≤ cos (midZenith a b) ^ 2 := by rw [hc]; linarith
  have hw0 : (0 : ℝ) ≤ w := Nat.cast_nonneg w
  have hw5 : (w : ℝ) ≤ 5 := by exact_mod_cast hw
  unfold MeetsEarth
  have k1 : ((earthKm + satelliteKm) / earthKm) ^ 2 - 1 ≤ 0.236 := by norm_num [earthKm, satelliteKm]
  have k0 : 0 ≤ ((earthKm + satelliteKm) / earthKm) ^ 2 - 1 := by norm_num [earthKm, satelliteKm]
  have b0 : 0 ≤ (w : ℝ) / (2 * satelliteKm) := div_nonneg hw0 (by norm_num [satelliteKm])
  have b1 : (w : ℝ) / (2 * satelliteKm) ≤ 5 / 1418 := by
    rw [show 2 * satelliteKm = 1418 by norm_num [satelliteKm]]
    exact div_le_div_of_nonneg_right hw5 (by norm_num)
  calc _ ≤ (5 / 1418 : ℝ) ^ 2 * 0.236 := mul_le_mul (pow_le_pow_left₀ b0 b1 2) k1 k0 (by positivity)
    _ ≤ 1 * (1 / 450) ^ 2 := by norm_num
    _ ≤ _ := mul_le_mul (by linarith) hc2 (by positivity) (by linarith)

/-- **C34, negation at the horizon**: two zenith angles of 90 degrees give no alignment coefficient. -/
theorem C34_horizon (w : Nat) (hw : 0 < w) : (expansionAlignment w (val 90 : FP ℝ) (val 90)).2 = bad := by
  have hn : ¬ IsNum (expansionAlignment w (val 90 : FP ℝ) (val 90)).2 := by
    rw [(C34_exact w 90 90).2]
    rintro ⟨_, h⟩
    have hz : cos (midZenith 90 90) = 0 := by
      have e : Spec.rad 90 = π / 2 := by unfold Spec.rad; ring
      have e2 : (phiR (Spec.rad 90) + phiR (Spec.rad 90)) / 2 = phiR (Spec.rad 90) := by ring
      rw [mid_eq, e2, sin_phiR, e, sin_pi_div_two, mul_one, inv_mul_cancel₀ kap_pos.ne', arcsin_one, cos_pi_div_two]
    unfold MeetsEarth at h
    rw [hz] at h
    have hw' : (0 : ℝ) < w := by exact_mod_cast hw
    have : (0 : ℝ) < ((w : ℝ) / (2 * satelliteKm)) ^ 2 * (((earthKm + satelliteKm) / earthKm) ^ 2 - 1) := by
      apply mul_pos
      · exact pow_pos (div_pos hw' (by norm_num [satelliteKm])) 2
      · norm_num [earthKm, satelliteKm]
    norm_num at h
    linarith
  generalize (expansionAlignment w (val 90 : FP ℝ) (val 90)).2 = x at hn ⊢
  match x with
  | bad => rfl
  | val v => exact absurd ⟨v, rfl⟩ hn

example := C34_wide 5 le_rfl 89.5 89.7 (by norm_num [abs_of_pos]) (by norm_num [abs_of_pos]) (by norm_num)
example := C34_horizon 1 one_pos

/-- angles of 90 degrees on the two sides of the track are no problem: half way is the nadir -/
example : IsNum (expansionAlignment 5 (val 90 : FP ℝ) (val (-90))).2 := by
  rw [(C34_exact 5 90 (-90)).2]
  refine ⟨by norm_num, ?_⟩
  have e : scanAngle (-90) = -scanAngle 90 := by
    unfold scanAngle
    rw [neg_mul, sin_neg, mul_neg, arcsin_neg]
  have : midZenith 90 (-90) = 0 := by
    unfold midZenith
    rw [e, add_neg_cancel, zero_div, sin_zero, mul_zero, arcsin_zero]
  unfold MeetsEarth
  rw [this, cos_zero]
  norm_num [earthKm, satelliteKm]

end Verif.Props
