import Verif.Proofs.RayHit

/-!
# Points hit by lines of sight beside the plane of the scan (C109)

In the plane at the distance `η` (in radii) beside the plane of the scan the sphere is a circle of the radius `√(1 - η²)`, and the point hit is at
an angle from the nadir that exceeds the angle in the plane of the scan by `rowShift`.
-/

namespace Verif.Modis
open Real Verif.Spec

/-- how much further from the nadir, `X` to first order: the horizontal part of the extra way -/
noncomputable def rowX (ζ η : ℝ) : ℝ := extra (cos ζ) η * sin ζ

/-- how much further from the nadir -/
noncomputable def rowShift (ζ η : ℝ) : ℝ := arcsin (rowX ζ η / √(1 - η ^ 2))

/-- the extra way for distances of at most three thousandths of the radius -/
theorem extra_bounds {c η : ℝ} (hc : 0.327 ≤ c) (h1 : |η| ≤ 0.003) :
    0.326 ≤ √(c ^ 2 - η ^ 2) ∧ 0 ≤ extra c η ∧ extra c η ≤ 1.54 * η ^ 2 := by
  have hη : η ^ 2 ≤ 0.000009 := by
    rw [← sq_abs]
    calc _ ≤ (0.003 : ℝ) ^ 2 := pow_le_pow_left₀ (abs_nonneg _) h1 2
      _ = _ := by norm_num
  have h0 := sq_nonneg η
  have hA : 0.326 ≤ √(c ^ 2 - η ^ 2) := le_sqrt_of_sq_le (by nlinarith)
  have hle : √(c ^ 2 - η ^ 2) ≤ c := sqrt_le_iff.2 ⟨by linarith, by linarith⟩
  refine ⟨hA, by unfold extra; linarith, ?_⟩
  have hA2 : √(c ^ 2 - η ^ 2) ^ 2 = c ^ 2 - η ^ 2 := sq_sqrt (by nlinarith)
  have e : extra c η * (c + √(c ^ 2 - η ^ 2)) = η ^ 2 := by unfold extra; linear_combination -hA2
  have h2 : 0 ≤ extra c η := by unfold extra; linarith
  nlinarith

theorem extra_lip {c c' η : ℝ} (hc : 0.327 ≤ c) (hc' : 0.327 ≤ c') (h1 : |η| ≤ 0.003) : |extra c η - extra c' η| ≤ 4.8 * η ^ 2 * |c - c'| := by
  obtain ⟨a1, a2, a3⟩ := extra_bounds hc h1
  obtain ⟨b1, b2, b3⟩ := extra_bounds hc' h1
  have hη : η ^ 2 ≤ 0.000009 := by
    rw [← sq_abs]
    calc _ ≤ (0.003 : ℝ) ^ 2 := pow_le_pow_left₀ (abs_nonneg _) h1 2
      _ = _ := by norm_num
  have A2 : √(c ^ 2 - η ^ 2) ^ 2 = c ^ 2 - η ^ 2 := sq_sqrt (by nlinarith)
  have B2 : √(c' ^ 2 - η ^ 2) ^ 2 = c' ^ 2 - η ^ 2 := sq_sqrt (by nlinarith)
  have e : (extra c η - extra c' η) * (√(c ^ 2 - η ^ 2) + √(c' ^ 2 - η ^ 2)) = -((c - c') * (extra c η + extra c' η)) := by
    unfold extra; linear_combination -A2 + B2
  have hs : 0.652 ≤ √(c ^ 2 - η ^ 2) + √(c' ^ 2 - η ^ 2) := by linarith
  have e' := congrArg abs e
  rw [abs_neg, abs_mul, abs_mul, abs_of_pos (show 0 < √(c ^ 2 - η ^ 2) + √(c' ^ 2 - η ^ 2) by linarith),
    abs_of_nonneg (show 0 ≤ extra c η + extra c' η by linarith)] at e'
  have h3 : |c - c'| * (extra c η + extra c' η) ≤ |c - c'| * (3.08 * η ^ 2) := mul_le_mul_of_nonneg_left (by linarith) (abs_nonneg _)
  have h4 : |extra c η - extra c' η| * 0.652 ≤ |extra c η - extra c' η| * (√(c ^ 2 - η ^ 2) + √(c' ^ 2 - η ^ 2)) :=
    mul_le_mul_of_nonneg_left hs (abs_nonneg _)
  have h5 : 0 ≤ |c - c'| * η ^ 2 := by positivity
  nlinarith

theorem rowX_le {ζ η : ℝ} (hc : 0.327 ≤ cos ζ) (h1 : |η| ≤ 0.003) : |rowX ζ η| ≤ 1.54 * η ^ 2 := by
  obtain ⟨-, a2, a3⟩ := extra_bounds hc h1
  unfold rowX
  rw [abs_mul, abs_of_nonneg a2]
  calc _ ≤ 1.54 * η ^ 2 * 1 := mul_le_mul a3 (abs_sin_le_one ζ) (abs_nonneg _) (by positivity)
    _ = _ := by ring

theorem rowX_lip {ζ ζ' η : ℝ} (hc : 0.327 ≤ cos ζ) (hc' : 0.327 ≤ cos ζ') (h1 : |η| ≤ 0.003) : |rowX ζ η - rowX ζ' η| ≤ 6.4 * η ^ 2 * |ζ - ζ'| := by
  obtain ⟨-, a2, a3⟩ := extra_bounds hc h1
  have h2 := extra_lip hc hc' h1
  have h3 := abs_cos_sub_cos_le ζ ζ'
  have h4 := abs_sin_sub_sin_le ζ ζ'
  have h5 := abs_sin_le_one ζ'
  unfold rowX
  rw [show extra (cos ζ) η * sin ζ - extra (cos ζ') η * sin ζ' = extra (cos ζ) η * (sin ζ - sin ζ') + (extra (cos ζ) η - extra (cos ζ') η) * sin ζ' by ring]
  refine (abs_add_le _ _).trans ?_
  rw [abs_mul, abs_mul, abs_of_nonneg a2]
  have h0 := sq_nonneg η
  have g1 : extra (cos ζ) η * |sin ζ - sin ζ'| ≤ 1.54 * η ^ 2 * |ζ - ζ'| := mul_le_mul a3 h4 (abs_nonneg _) (by positivity)
  have g2 : |extra (cos ζ) η - extra (cos ζ') η| * |sin ζ'| ≤ 4.8 * η ^ 2 * |ζ - ζ'| * 1 :=
    mul_le_mul (h2.trans (mul_le_mul_of_nonneg_left h3 (by positivity))) h5 (abs_nonneg _) (by positivity)
  have : 0 ≤ η ^ 2 * |ζ - ζ'| := by positivity
  linarith

/-- the extra way grows with the square of the distance from the plane, also beyond the rows of tie points -/
theorem extra_square' {c d u U : ℝ} (hc : 0.327 ≤ c) (hd : |d| ≤ 0.001) (hU : 1 ≤ U) (hu : u ^ 2 ≤ U) (hU7 : U ≤ 7.3) :
    |extra c (u * d) - u ^ 2 * extra c d| ≤ 23 * U * d ^ 4 := by
  have hu' : |u| ≤ 2.71 := by
    apply abs_le_of_sq_le_sq _ (by norm_num)
    norm_num
    linarith
  have hud : |u * d| ≤ 0.003 := by
    rw [abs_mul]
    have := mul_le_mul hu' hd (abs_nonneg _) (by norm_num)
    linarith
  have hs : ∀ {x : ℝ}, |x| ≤ 0.003 → x ^ 2 ≤ 0.000009 := by
    intro x hx
    rw [← sq_abs]
    calc _ ≤ (0.003 : ℝ) ^ 2 := pow_le_pow_left₀ (abs_nonneg _) hx 2
      _ = _ := by norm_num
  have s1 := hs hud
  have s2 := hs (hd.trans (by norm_num))
  obtain ⟨A0, -, -⟩ := extra_bounds hc hud
  obtain ⟨B0, -, -⟩ := extra_bounds hc (hd.trans (by norm_num))
  obtain ⟨A, hA⟩ : ∃ A, A = √(c ^ 2 - (u * d) ^ 2) := ⟨_, rfl⟩
  obtain ⟨B, hB⟩ : ∃ B, B = √(c ^ 2 - d ^ 2) := ⟨_, rfl⟩
  have A2 : A ^ 2 = c ^ 2 - u ^ 2 * d ^ 2 := by rw [hA, sq_sqrt (by nlinarith), mul_pow]
  have B2 : B ^ 2 = c ^ 2 - d ^ 2 := by rw [hB, sq_sqrt (by nlinarith)]
  rw [← hA] at A0
  rw [← hB] at B0
  unfold extra
  rw [← hA, ← hB]
  have pA : 0 < c + A := by linarith
  have pB : 0 < c + B := by linarith
  have pAB : 0 < A + B := by linarith
  have e : (c - A - u ^ 2 * (c - B)) * ((A + B) * (c + A) * (c + B)) = -(u ^ 2 * (1 - u ^ 2) * d ^ 4) := by
    have e1 : (c - A) * (c + A) = u ^ 2 * d ^ 2 := by linear_combination -A2
    have e2 : (c - B) * (c + B) = d ^ 2 := by linear_combination -B2
    have e3 : (A - B) * (A + B) = (1 - u ^ 2) * d ^ 2 := by linear_combination A2 - B2
    linear_combination ((A + B) * (c + B)) * e1 - (u ^ 2 * (A + B) * (c + A)) * e2 - u ^ 2 * d ^ 2 * e3
  have hden : 0.277 ≤ (A + B) * (c + A) * (c + B) := by
    have g1 : 0.652 * 0.653 ≤ (A + B) * (c + A) := mul_le_mul (by linarith) (by linarith) (by norm_num) pAB.le
    have g2 : 0.652 * 0.653 * 0.653 ≤ (A + B) * (c + A) * (c + B) := mul_le_mul g1 (by linarith) (by norm_num) (by positivity)
    norm_num at g2 ⊢
    linarith
  have h4 : 0 ≤ d ^ 4 := by positivity
  have hnum : |u ^ 2 * (1 - u ^ 2)| ≤ 6.3 * U := by
    rw [abs_mul, abs_of_nonneg (sq_nonneg u)]
    have g : |1 - u ^ 2| ≤ 6.3 := by rw [abs_le]; constructor <;> linarith [sq_nonneg u]
    have := mul_le_mul hu g (abs_nonneg _) (by linarith)
    linarith
  have e' := congrArg abs e
  rw [abs_neg, abs_mul, abs_mul (u ^ 2 * (1 - u ^ 2)), abs_of_nonneg h4, abs_of_pos (by positivity : 0 < (A + B) * (c + A) * (c + B))] at e'
  have g3 := mul_le_mul_of_nonneg_left hden (abs_nonneg (c - A - u ^ 2 * (c - B)))
  have g4 := mul_le_mul_of_nonneg_right hnum h4
  have g5 : 0 ≤ U * d ^ 4 := mul_nonneg (by linarith) h4
  linarith

/-- the radius of the circle beside the plane of the scan -/
theorem root_bounds {η : ℝ} (h1 : |η| ≤ 0.003) : 0.999 ≤ √(1 - η ^ 2) ∧ √(1 - η ^ 2) ≤ 1 ∧ 1 / √(1 - η ^ 2) ≤ 1 + η ^ 2 := by
  have hη : η ^ 2 ≤ 0.000009 := by
    rw [← sq_abs]
    calc _ ≤ (0.003 : ℝ) ^ 2 := pow_le_pow_left₀ (abs_nonneg _) h1 2
      _ = _ := by norm_num
  have h0 := sq_nonneg η
  have hA : 0.999 ≤ √(1 - η ^ 2) := le_sqrt_of_sq_le (by nlinarith)
  refine ⟨hA, sqrt_le_one.2 (by linarith), ?_⟩
  rw [div_le_iff₀ (by linarith)]
  have h2 : √(1 - η ^ 2) ^ 2 = 1 - η ^ 2 := sq_sqrt (by linarith)
  have h3 : 1 ≤ ((1 + η ^ 2) * √(1 - η ^ 2)) ^ 2 := by
    rw [mul_pow, h2]; nlinarith [mul_nonneg h0 h0]
  have h4 : 0 ≤ (1 + η ^ 2) * √(1 - η ^ 2) := by positivity
  nlinarith

theorem rowArg_le {ζ η : ℝ} (hc : 0.327 ≤ cos ζ) (h1 : |η| ≤ 0.003) :
    |rowX ζ η / √(1 - η ^ 2)| ≤ 1.55 * η ^ 2 ∧ |rowX ζ η / √(1 - η ^ 2) - rowX ζ η| ≤ 1.54 * η ^ 4 := by
  have hx := rowX_le hc h1
  obtain ⟨r1, r2, r3⟩ := root_bounds h1
  have h0 := sq_nonneg η
  have hη : η ^ 2 ≤ 0.000009 := by
    rw [← sq_abs]
    calc _ ≤ (0.003 : ℝ) ^ 2 := pow_le_pow_left₀ (abs_nonneg _) h1 2
      _ = _ := by norm_num
  have hd : 1 ≤ 1 / √(1 - η ^ 2) := by rw [le_div_iff₀ (by linarith)]; linarith
  rw [div_eq_mul_one_div]
  constructor
  · rw [abs_mul, abs_of_pos (show 0 < 1 / √(1 - η ^ 2) by linarith)]
    have : |rowX ζ η| * (1 / √(1 - η ^ 2)) ≤ 1.54 * η ^ 2 * (1 + η ^ 2) := mul_le_mul hx r3 (by positivity) (by positivity)
    nlinarith
  · rw [← mul_sub_one, abs_mul, abs_of_nonneg (by linarith : 0 ≤ 1 / √(1 - η ^ 2) - 1)]
    calc _ ≤ 1.54 * η ^ 2 * η ^ 2 := mul_le_mul hx (by linarith) (by linarith) (by positivity)
      _ = _ := by ring

/-- small sines -/
theorem sin_small {δ : ℝ} (h : |δ| ≤ π / 2) (hs : |sin δ| ≤ 0.01) : |δ| ≤ 1.58 * |sin δ| ∧ |δ - sin δ| ≤ |sin δ| ^ 3 := by
  have hpi := pi_lt_d2
  have hpi0 := pi_pos
  wlog h0 : 0 ≤ δ generalizing δ
  · have := this (δ := -δ) (by rwa [abs_neg]) (by rwa [sin_neg, abs_neg]) (by linarith)
    rw [sin_neg, abs_neg, abs_neg, ← neg_add', abs_neg, ← sub_eq_add_neg] at this
    exact this
  rw [abs_of_nonneg h0] at h
  have hs0 : 0 ≤ sin δ := sin_nonneg_of_nonneg_of_le_pi h0 (by linarith)
  rw [abs_of_nonneg hs0] at hs ⊢
  have hj := mul_le_sin h0 h
  have h1 : δ ≤ 1.58 * sin δ := by
    have : δ = π / 2 * (2 / π * δ) := by field_simp
    calc δ = π / 2 * (2 / π * δ) := this
      _ ≤ 1.58 * sin δ := mul_le_mul (by linarith) hj (by positivity) (by norm_num)
  rw [abs_of_nonneg h0]
  refine ⟨h1, ?_⟩
  rcases h0.eq_or_lt with rfl | hp
  · simp
  have hlt := sin_gt_sub_cube hp
  have hle := sin_le h0
  rw [abs_of_nonneg (by linarith)]
  have h3 : δ ^ 3 ≤ (1.58 * sin δ) ^ 3 := pow_le_pow_left₀ h0 h1 3
  have : (1.58 * sin δ) ^ 3 ≤ 4 * sin δ ^ 3 := by rw [mul_pow]; nlinarith [pow_nonneg hs0 3]
  linarith

theorem rowShift_sin {ζ η : ℝ} (hc : 0.327 ≤ cos ζ) (h1 : |η| ≤ 0.003) :
    sin (rowShift ζ η) = rowX ζ η / √(1 - η ^ 2) ∧ |rowShift ζ η| ≤ 2.5 * η ^ 2 ∧ |rowShift ζ η - rowX ζ η| ≤ 1.6 * η ^ 4 := by
  obtain ⟨g1, g2⟩ := rowArg_le hc h1
  have h0 := sq_nonneg η
  have hη : η ^ 2 ≤ 0.000009 := by
    rw [← sq_abs]
    calc _ ≤ (0.003 : ℝ) ^ 2 := pow_le_pow_left₀ (abs_nonneg _) h1 2
      _ = _ := by norm_num
  have hb := abs_le.1 (g1.trans (show 1.55 * η ^ 2 ≤ 0.01 by linarith))
  have e : sin (rowShift ζ η) = rowX ζ η / √(1 - η ^ 2) := sin_arcsin (by linarith) (by linarith)
  obtain ⟨s1, s2⟩ := sin_small (δ := rowShift ζ η) (abs_le.2 ⟨neg_pi_div_two_le_arcsin _, arcsin_le_pi_div_two _⟩) (by rw [e]; exact g1.trans (by linarith))
  rw [e] at s1 s2
  refine ⟨e, by linarith, ?_⟩
  have h3 : |rowX ζ η / √(1 - η ^ 2)| ^ 3 ≤ (1.55 * η ^ 2) ^ 3 := pow_le_pow_left₀ (abs_nonneg _) g1 3
  have h4 : (1.55 * η ^ 2) ^ 3 ≤ 0.01 * η ^ 4 := by
    have : (1.55 * η ^ 2) ^ 3 = 1.55 ^ 3 * η ^ 2 * η ^ 4 := by ring
    rw [this]
    exact mul_le_mul_of_nonneg_right (by norm_num; linarith) (by positivity)
  have := abs_add_le (rowShift ζ η - rowX ζ η / √(1 - η ^ 2)) (rowX ζ η / √(1 - η ^ 2) - rowX ζ η)
  rw [sub_add_sub_cancel] at this
  have h5 : 0 ≤ η ^ 4 := by positivity
  linarith

theorem rowShift_lip {ζ ζ' η : ℝ} (hc : 0.327 ≤ cos ζ) (hc' : 0.327 ≤ cos ζ') (h1 : |η| ≤ 0.003) :
    |rowShift ζ η - rowShift ζ' η| ≤ 13 * η ^ 2 * |ζ - ζ'| := by
  obtain ⟨e1, b1, -⟩ := rowShift_sin hc h1
  obtain ⟨e2, b2, -⟩ := rowShift_sin hc' h1
  obtain ⟨r1, r2, r3⟩ := root_bounds h1
  have h0 := sq_nonneg η
  have hη : η ^ 2 ≤ 0.000009 := by
    rw [← sq_abs]
    calc _ ≤ (0.003 : ℝ) ^ 2 := pow_le_pow_left₀ (abs_nonneg _) h1 2
      _ = _ := by norm_num
  have hx := rowX_lip hc hc' h1
  have hd : |sin (rowShift ζ η) - sin (rowShift ζ' η)| ≤ 6.41 * η ^ 2 * |ζ - ζ'| := by
    rw [e1, e2, ← sub_div, abs_div, abs_of_pos (by linarith : 0 < √(1 - η ^ 2)), div_le_iff₀ (by linarith)]
    have : 0 ≤ η ^ 2 * |ζ - ζ'| := by positivity
    nlinarith
  generalize rowShift ζ η = δ at *
  generalize rowShift ζ' η = δ' at *
  have hs : sin δ - sin δ' = 2 * sin ((δ - δ') / 2) * cos ((δ + δ') / 2) := sin_sub_sin δ δ'
  have hcos : 0.99 ≤ cos ((δ + δ') / 2) := by
    have := one_sub_sq_div_two_le_cos (x := (δ + δ') / 2)
    have h2 : |(δ + δ') / 2| ≤ 0.01 := by
      rw [abs_div, abs_of_pos (by norm_num : (0:ℝ) < 2)]
      have := abs_add_le δ δ'
      linarith
    have h3 : ((δ + δ') / 2) ^ 2 ≤ 0.01 ^ 2 := by rw [← sq_abs]; exact pow_le_pow_left₀ (abs_nonneg _) h2 2
    norm_num at h3 ⊢
    linarith
  have hsm : |δ - δ'| ≤ 0.01 := by
    have := abs_sub δ δ'
    linarith
  have hpi := pi_gt_three
  have h2 : |(δ - δ') / 2| ≤ 1.58 * |sin ((δ - δ') / 2)| := by
    refine (sin_small ?_ ?_).1
    · rw [abs_div, abs_of_pos (by norm_num : (0:ℝ) < 2)]; linarith
    · refine (abs_sin_le_abs).trans ?_
      rw [abs_div, abs_of_pos (by norm_num : (0:ℝ) < 2)]; linarith
  rw [hs, abs_mul, abs_mul, abs_of_pos (by norm_num : (0:ℝ) < 2), abs_of_pos (by linarith : 0 < cos ((δ + δ') / 2))] at hd
  rw [abs_div, abs_of_pos (by norm_num : (0:ℝ) < 2)] at h2
  have h3 : 2 * |sin ((δ - δ') / 2)| * 0.99 ≤ 2 * |sin ((δ - δ') / 2)| * cos ((δ + δ') / 2) := mul_le_mul_of_nonneg_left hcos (by positivity)
  have : 0 ≤ η ^ 2 * |ζ - ζ'| := by positivity
  linarith

/-- **where the line of sight beside the plane of the scan meets the sphere** -/
theorem hit_form {φ θ ζ y : ℝ} (h : Seen Rk Hk φ θ ζ) (hc : 0.327 ≤ cos ζ) {p : ℝ × ℝ × ℝ} (hp : Hit Rk Hk φ y p) (hy : |y / Rk| ≤ 0.003) :
    p = (Rk * √(1 - (y / Rk) ^ 2) * sin (θ + rowShift ζ (y / Rk)), y, Rk * √(1 - (y / Rk) ^ 2) * cos (θ + rowShift ζ (y / Rk))) := by
  have hR : (0 : ℝ) < Rk := Rk_pos
  obtain ⟨hs, hs0⟩ := slant_eq h
  obtain ⟨e1, e2⟩ := seen_iff h
  obtain ⟨-, hζ, -, L, hL, ⟨f1, f2⟩, f3, f4⟩ := h
  have eL : slant Rk Hk θ = L := by
    unfold slant
    rw [f1, show Rk + Hk - Rk * cos θ = L * cos φ by linarith, mul_pow, mul_pow, ← mul_add, sin_sq_add_cos_sq, mul_one, sqrt_sq hL.le]
  rw [eL] at hs
  obtain ⟨l, hl, ep, hn, hfirst⟩ := hp
  have p1 := sin_sq_add_cos_sq φ
  have dist : ∀ m, (onRay Rk Hk φ y m).1 ^ 2 + (onRay Rk Hk φ y m).2.1 ^ 2 + (onRay Rk Hk φ y m).2.2 ^ 2 - Rk ^ 2
      = (m - L) ^ 2 - 2 * (m - L) * (Rk * cos ζ) + y ^ 2 := by
    intro m
    have hLL : L ^ 2 - 2 * L * ((Rk + Hk) * cos φ) + (Rk + Hk) ^ 2 = Rk ^ 2 := by
      have g1 : (L * sin φ) ^ 2 + (Rk + Hk - L * cos φ) ^ 2 = Rk ^ 2 := by
        rw [← f1, show Rk + Hk - L * cos φ = Rk * cos θ by linarith, mul_pow, mul_pow, ← mul_add, sin_sq_add_cos_sq, mul_one]
      linear_combination g1 - L ^ 2 * p1
    simp only [onRay]
    have hcz : Rk * cos ζ = (Rk + Hk) * cos φ - L := by linarith
    rw [hcz]
    linear_combination m ^ 2 * p1 + hLL
  obtain ⟨η, hη⟩ : ∃ η, η = y / Rk := ⟨_, rfl⟩
  rw [← hη] at hy ⊢
  have hyη : y = Rk * η := by rw [hη]; field_simp
  obtain ⟨a1, a2, a3⟩ := extra_bounds hc hy
  obtain ⟨q, hq⟩ : ∃ q, q = √(cos ζ ^ 2 - η ^ 2) := ⟨_, rfl⟩
  rw [← hq] at a1
  have hq2 : q ^ 2 = cos ζ ^ 2 - η ^ 2 := by
    have hη2 : η ^ 2 ≤ 0.000009 := by
      rw [← sq_abs]
      calc _ ≤ (0.003 : ℝ) ^ 2 := pow_le_pow_left₀ (abs_nonneg _) hy 2
        _ = _ := by norm_num
    rw [hq]; exact sq_sqrt (by nlinarith)
  have hx0 : extra (cos ζ) η = cos ζ - q := by unfold extra; rw [hq]
  have hroot : ∀ m, (m - L) ^ 2 - 2 * (m - L) * (Rk * cos ζ) + y ^ 2 = (m - L - Rk * (cos ζ - q)) * (m - L - Rk * (cos ζ + q)) := by
    intro m; rw [hyη]; linear_combination Rk ^ 2 * hq2
  have hl2 : (l - L - Rk * (cos ζ - q)) * (l - L - Rk * (cos ζ + q)) = 0 := by
    rw [← hroot, ← dist, ← ep, hn, sub_self]
  have hx : l - L = Rk * (cos ζ - q) := by
    rcases mul_eq_zero.1 hl2 with h | h
    · linarith
    · exfalso
      have hm := hfirst (L + Rk * (cos ζ - q)) (add_nonneg hL.le (mul_nonneg hR.le (by linarith))) (by nlinarith)
      have := dist (L + Rk * (cos ζ - q))
      rw [hroot] at this
      rw [show L + Rk * (cos ζ - q) - L - Rk * (cos ζ - q) = 0 by ring, zero_mul] at this
      linarith
  -- the angle in the plane of the line of sight
  obtain ⟨r1, r2, -⟩ := root_bounds hy
  obtain ⟨s1, s2, -⟩ := rowShift_sin hc hy
  obtain ⟨m, hm⟩ : ∃ m, m = √(1 - η ^ 2) := ⟨_, rfl⟩
  have hη2 : η ^ 2 ≤ 0.000009 := by
    rw [← sq_abs]
    calc _ ≤ (0.003 : ℝ) ^ 2 := pow_le_pow_left₀ (abs_nonneg _) hy 2
      _ = _ := by norm_num
  have hm2 : m ^ 2 = 1 - η ^ 2 := by rw [hm]; exact sq_sqrt (by linarith)
  rw [← hm] at s1 r1 r2 ⊢
  have hms : m * sin (rowShift ζ η) = (cos ζ - q) * sin ζ := by
    rw [s1]; unfold rowX; rw [hx0]; field_simp
  have p2 := sin_sq_add_cos_sq ζ
  have hmc : m * cos (rowShift ζ η) = q * cos ζ + sin ζ ^ 2 := by
    have hpos : 0 ≤ m * cos (rowShift ζ η) := by
      refine mul_nonneg (by linarith) (cos_nonneg_of_neg_pi_div_two_le_of_le (neg_pi_div_two_le_arcsin _) (arcsin_le_pi_div_two _))
    have hpos' : 0 ≤ q * cos ζ + sin ζ ^ 2 := by positivity
    have h3 := sin_sq_add_cos_sq (rowShift ζ η)
    have : (m * cos (rowShift ζ η)) ^ 2 = (q * cos ζ + sin ζ ^ 2) ^ 2 := by
      have e3 : (m * cos (rowShift ζ η)) ^ 2 = m ^ 2 - (m * sin (rowShift ζ η)) ^ 2 := by linear_combination m ^ 2 * h3
      rw [e3, hms, hm2]
      linear_combination (-hq2) * (cos ζ ^ 2 + sin ζ ^ 2) + (η ^ 2 - 1 - (sin ζ ^ 2 + cos ζ ^ 2)) * p2
    exact (sq_eq_sq₀ hpos hpos').1 this
  have hθ : sin φ = sin ζ * cos θ - cos ζ * sin θ := by rw [← sin_sub, e2, ← e1]; congr 1; ring
  have hθ' : cos φ = cos ζ * cos θ + sin ζ * sin θ := by rw [← cos_sub, e2, ← e1]; congr 1; ring
  rw [ep]
  simp only [onRay]
  have hl' : l = L + Rk * (cos ζ - q) := by linarith
  refine Prod.ext ?_ (Prod.ext rfl ?_)
  · show l * sin φ = Rk * m * sin (θ + rowShift ζ η)
    rw [sin_add, show Rk * m * (sin θ * cos (rowShift ζ η) + cos θ * sin (rowShift ζ η)) = Rk * (sin θ * (m * cos (rowShift ζ η)) + cos θ * (m * sin (rowShift ζ η))) by ring,
      hmc, hms, hl', add_mul, ← f1, hθ]
    linear_combination (-Rk * sin θ) * p2
  · show Rk + Hk - l * cos φ = Rk * m * cos (θ + rowShift ζ η)
    rw [cos_add, show Rk * m * (cos θ * cos (rowShift ζ η) - sin θ * sin (rowShift ζ η)) = Rk * (cos θ * (m * cos (rowShift ζ η)) - sin θ * (m * sin (rowShift ζ η))) by ring,
      hmc, hms, hl', add_mul, show Rk + Hk - (L * cos φ + Rk * (cos ζ - q) * cos φ) = Rk * cos θ - Rk * (cos ζ - q) * cos φ by linarith, hθ']
    linear_combination (-Rk * cos θ) * p2

/-! ### chords, also beyond their ends -/

theorem tan_small {k : ℝ} (h : |k| ≤ 0.05) : |tan k - k| ≤ 0.6 * |k| ^ 3 := by
  wlog h0 : 0 ≤ k generalizing k
  · have := this (k := -k) (by rwa [abs_neg]) (by linarith)
    rwa [tan_neg, ← neg_add', abs_neg, abs_neg, ← sub_eq_add_neg] at this
  rw [abs_of_nonneg h0] at h ⊢
  have hpi := pi_gt_three
  rcases h0.eq_or_lt with rfl | hp
  · simp
  have h1 := lt_tan hp (by linarith)
  rw [abs_of_pos (by linarith)]
  have hc := one_sub_sq_div_two_le_cos (x := k)
  have hs := sin_le h0
  have hk2 : k ^ 2 ≤ 0.0025 := by nlinarith
  have hcp : 0 < cos k := by linarith
  rw [sub_le_iff_le_add, tan_eq_sin_div_cos, div_le_iff₀ hcp]
  have : k ≤ (0.6 * k ^ 3 + k) * (1 - k ^ 2 / 2) := by
    have e : (0.6 * k ^ 3 + k) * (1 - k ^ 2 / 2) = k + k ^ 3 * (0.1 - 0.3 * k ^ 2) := by ring
    rw [e]
    have := mul_nonneg (pow_nonneg h0 3) (show 0 ≤ 0.1 - 0.3 * k ^ 2 by linarith)
    linarith
  exact hs.trans (this.trans (mul_le_mul_of_nonneg_left hc (by positivity)))

theorem abs_arctan_le (v : ℝ) : |arctan v| ≤ |v| := by
  have arctan_le_self : ∀ {v : ℝ}, 0 ≤ v → arctan v ≤ v := by
    intro v h
    have := le_tan (arctan_nonneg.2 h) (arctan_lt_pi_div_two v)
    rwa [tan_arctan] at this
  rcases le_total 0 v with h | h
  · rw [abs_of_nonneg h, abs_of_nonneg (arctan_nonneg.2 h)]; exact arctan_le_self h
  · have h' : 0 ≤ -v := by linarith
    have := arctan_le_self h'
    rw [arctan_neg] at this
    rw [abs_of_nonpos h, abs_of_nonpos (arctan_le_zero.2 h)]; exact this

/-- a point of a line through two points of a circle is in the direction of a point of the circle, at nearly the same fraction -/
theorem chord_wide {x y t : ℝ} (hk : |(y - x) / 2| ≤ 0.045) (hu : |(2 * t - 1) * ((y - x) / 2)| ≤ 0.049) :
    ∃ β ρ, 0 < ρ ∧ (1 - t) * sin x + t * sin y = ρ * sin β ∧ (1 - t) * cos x + t * cos y = ρ * cos β ∧
      |β - (x + t * (y - x))| ≤ 0.61 * |(2 * t - 1) * ((y - x) / 2)| ^ 3 + 0.6 * |(2 * t - 1) * ((y - x) / 2)| * ((y - x) / 2) ^ 2 ∧
      1 / ρ ≤ 1 + 0.51 * ((y - x) / 2) ^ 2 ∧ 1 - 0.51 * ((2 * t - 1) * ((y - x) / 2)) ^ 2 ≤ 1 / ρ := by
  obtain ⟨k, ek⟩ : ∃ k, k = (y - x) / 2 := ⟨_, rfl⟩
  obtain ⟨M, eM⟩ : ∃ M, M = (x + y) / 2 := ⟨_, rfl⟩
  obtain ⟨u, eu⟩ : ∃ u, u = 2 * t - 1 := ⟨_, rfl⟩
  have ex : x = M - k := by rw [eM, ek]; ring
  have ey : y = M + k := by rw [eM, ek]; ring
  have et : t = (u + 1) / 2 := by rw [eu]; ring
  rw [← ek, ← eu] at hu ⊢
  rw [← ek] at hk
  have hk2 : k ^ 2 ≤ 0.002025 := by
    rw [← sq_abs]
    calc _ ≤ (0.045 : ℝ) ^ 2 := pow_le_pow_left₀ (abs_nonneg _) hk 2
      _ = _ := by norm_num
  have hck := one_sub_sq_div_two_le_cos (x := k)
  have hcp : 0 < cos k := by linarith
  have htk := tan_small (hk.trans (by norm_num))
  have hut : |u * tan k - u * k| ≤ 0.6 * |u * k| * k ^ 2 := by
    rw [← mul_sub, abs_mul, abs_mul]
    calc _ ≤ |u| * (0.6 * |k| ^ 3) := mul_le_mul_of_nonneg_left htk (abs_nonneg _)
      _ = _ := by rw [← sq_abs k]; ring
  have hv : |u * tan k| ≤ 1.0013 * |u * k| := by
    have := abs_add_le (u * tan k - u * k) (u * k)
    rw [sub_add_cancel] at this
    have h3 : 0.6 * |u * k| * k ^ 2 ≤ 0.6 * |u * k| * 0.002025 := mul_le_mul_of_nonneg_left hk2 (by positivity)
    have := abs_nonneg (u * k)
    linarith
  obtain ⟨ψ, eψ⟩ : ∃ ψ, ψ = arctan (u * tan k) := ⟨_, rfl⟩
  have hψ : |ψ| ≤ 1.0013 * |u * k| := by rw [eψ]; exact (abs_arctan_le _).trans hv
  have hψ5 : |ψ| ≤ 0.05 := by linarith
  have htψ : tan ψ = u * tan k := by rw [eψ, tan_arctan]
  have hcψ : 0 < cos ψ := by rw [eψ]; exact cos_arctan_pos _
  have hcψ' := one_sub_sq_div_two_le_cos (x := ψ)
  have htan := tan_small hψ5
  have hsk : cos k * tan k = sin k := by rw [mul_comm]; exact tan_mul_cos hcp.ne'
  have hsψ : cos ψ * tan ψ = sin ψ := by rw [mul_comm]; exact tan_mul_cos hcψ.ne'
  have hρu : cos k / cos ψ * sin ψ = u * sin k := by
    rw [← hsψ, htψ, ← hsk]; field_simp
  have hρc : cos k / cos ψ * cos ψ = cos k := div_mul_cancel₀ _ hcψ.ne'
  have hψ2 : ψ ^ 2 ≤ 1.003 * (u * k) ^ 2 := by
    rw [← sq_abs ψ, ← sq_abs (u * k)]
    have := pow_le_pow_left₀ (abs_nonneg _) hψ 2
    rw [mul_pow] at this
    have h0 := sq_nonneg |u * k|
    have h5 : (1.0013 : ℝ) ^ 2 ≤ 1.003 := by norm_num
    exact this.trans (mul_le_mul_of_nonneg_right h5 h0)
  refine ⟨M + ψ, cos k / cos ψ, div_pos hcp hcψ, ?_, ?_, ?_, ?_, ?_⟩
  · rw [ex, ey, et, sin_add, sin_sub, sin_add]
    linear_combination (-sin M) * hρc - cos M * hρu
  · rw [ex, ey, et, cos_add, cos_sub, cos_add]
    linear_combination (-cos M) * hρc + sin M * hρu
  · have e : M + ψ - (x + t * (y - x)) = -(tan ψ - ψ) + (u * tan k - u * k) := by rw [htψ, ex, ey, et]; ring
    rw [e]
    refine (abs_add_le _ _).trans ?_
    rw [abs_neg]
    have h3 : |ψ| ^ 3 ≤ (1.0013 * |u * k|) ^ 3 := pow_le_pow_left₀ (abs_nonneg _) hψ 3
    rw [mul_pow] at h3
    have h4 : 0 ≤ |u * k| ^ 3 := by positivity
    have h5 : (1.0013 : ℝ) ^ 3 ≤ 1.004 := by norm_num
    have h6 := mul_le_mul_of_nonneg_right h5 h4
    linarith
  · rw [one_div_div, div_le_iff₀ hcp]
    have h1 := cos_le_one ψ
    have h2 : 1 ≤ (1 + 0.51 * k ^ 2) * (1 - k ^ 2 / 2) := by nlinarith [sq_nonneg k]
    have h3 : (1 + 0.51 * k ^ 2) * (1 - k ^ 2 / 2) ≤ (1 + 0.51 * k ^ 2) * cos k := mul_le_mul_of_nonneg_left hck (by positivity)
    linarith
  · rw [one_div_div, le_div_iff₀ hcp]
    have h1 := cos_le_one k
    have h2 : 0 ≤ (u * k) ^ 2 := sq_nonneg _
    have h3 : (u * k) ^ 2 ≤ 0.049 ^ 2 := by rw [← sq_abs]; exact pow_le_pow_left₀ (abs_nonneg _) hu 2
    have h4 : (1 - 0.51 * (u * k) ^ 2) * cos k ≤ (1 - 0.51 * (u * k) ^ 2) * 1 := mul_le_mul_of_nonneg_left h1 (by norm_num at h3; linarith)
    linarith

end Verif.Modis
