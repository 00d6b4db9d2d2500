import Verif.Proofs.ScanGeom

/-!
# Rays beside the plane of the scan (real analysis)
-/

namespace Verif.Modis
open Verif Real Verif.Spec

/-- the distance to the ground, from the angles -/
theorem slant_eq {φ θ ζ : ℝ} (h : Seen Rk Hk φ θ ζ) : slant Rk Hk θ = (Rk + Hk) * cos φ - Rk * cos ζ ∧ 0 < slant Rk Hk θ := by
  obtain ⟨-, -, -, L, hL, ⟨e1, e2⟩, e3, e4⟩ := h
  have e : slant Rk Hk θ = L := by
    unfold slant
    rw [e1, show Rk + Hk - Rk * cos θ = L * cos φ by linarith, mul_pow, mul_pow, ← mul_add, sin_sq_add_cos_sq, mul_one, sqrt_sq hL.le]
  rw [e]
  refine ⟨?_, hL⟩
  -- project on the line of sight
  have p1 := sin_sq_add_cos_sq φ
  have c1 : L * sin φ = L * (sin ζ * cos θ - cos ζ * sin θ) := by linarith
  have c2 : L * cos φ = L * (cos ζ * cos θ + sin ζ * sin θ) := by linarith
  have c1' := mul_left_cancel₀ hL.ne' c1
  have c2' := mul_left_cancel₀ hL.ne' c2
  have p3 := sin_sq_add_cos_sq θ
  have : L = (Rk + Hk) * cos φ - Rk * (cos φ * cos θ - sin φ * sin θ) := by
    linear_combination (-L) * p1 + sin φ * (-1) * e1 + cos φ * e2
  have hz : cos φ * cos θ - sin φ * sin θ = cos ζ := by
    rw [c1', c2']
    linear_combination cos ζ * p3
  rw [this, hz]

/-- the extra way to the sphere of the line that is beside the plane of the scan -/
noncomputable def extra (c d : ℝ) : ℝ := c - √(c ^ 2 - d ^ 2)

/-- **the point hit by the line beside the plane of the scan** -/
theorem hit_beyond {φ θ ζ y : ℝ} (h : Seen Rk Hk φ θ ζ) {p : ℝ × ℝ × ℝ} (hp : Hit Rk Hk φ y p) (hy : (y / Rk) ^ 2 ≤ cos ζ ^ 2) :
    outBy Rk θ p = Rk * (extra (cos ζ) (y / Rk) * sin ζ) := by
  have hR : (0 : ℝ) < Rk := Rk_pos
  obtain ⟨hs, hs0⟩ := slant_eq h
  obtain ⟨-, e2⟩ := seen_iff h
  obtain ⟨e1, -⟩ := seen_iff h
  obtain ⟨-, hζ, -, L, hL, ⟨f1, f2⟩, f3, f4⟩ := h
  have hc : 0 ≤ cos ζ := (cos_pos_of_mem_Ioo ⟨(abs_lt.1 hζ).1, (abs_lt.1 hζ).2⟩).le
  have eL : slant Rk Hk θ = L := by
    unfold slant
    rw [f1, show Rk + Hk - Rk * cos θ = L * cos φ by linarith, mul_pow, mul_pow, ← mul_add, sin_sq_add_cos_sq, mul_one, sqrt_sq hL.le]
  rw [eL] at hs
  have c1 : sin φ * L = L * (sin ζ * cos θ - cos ζ * sin θ) := by linarith
  obtain ⟨l, hl, ep, hn, hfirst⟩ := hp
  have p1 := sin_sq_add_cos_sq φ
  -- squared distance from the centre along the line
  have dist : ∀ m, (onRay Rk Hk φ y m).1 ^ 2 + (onRay Rk Hk φ y m).2.1 ^ 2 + (onRay Rk Hk φ y m).2.2 ^ 2 - Rk ^ 2
      = (m - L) ^ 2 - 2 * (m - L) * (Rk * cos ζ) + y ^ 2 := by
    intro m
    have hLL : L ^ 2 - 2 * L * ((Rk + Hk) * cos φ) + (Rk + Hk) ^ 2 = Rk ^ 2 := by
      have g1 : (L * sin φ) ^ 2 + (Rk + Hk - L * cos φ) ^ 2 = Rk ^ 2 := by
        rw [← f1, show Rk + Hk - L * cos φ = Rk * cos θ by linarith, mul_pow, mul_pow, ← mul_add, sin_sq_add_cos_sq, mul_one]
      linear_combination g1 - L ^ 2 * p1
    simp only [onRay]
    have hcz : Rk * cos ζ = (Rk + Hk) * cos φ - L := by linarith
    rw [hcz]
    linear_combination m ^ 2 * p1 + hLL
  obtain ⟨q, hq⟩ : ∃ q, q = √(cos ζ ^ 2 - (y / Rk) ^ 2) := ⟨_, rfl⟩
  have hq0 : 0 ≤ q := by rw [hq]; exact sqrt_nonneg _
  have hq2 : (Rk * q) ^ 2 = (Rk * cos ζ) ^ 2 - y ^ 2 := by
    rw [mul_pow, hq, sq_sqrt (by linarith)]
    field_simp
  have hqc : q ≤ cos ζ := by
    rw [hq]
    apply sqrt_le_iff.2 ⟨hc, ?_⟩
    nlinarith [sq_nonneg (y / Rk)]
  have hroot : ∀ m, (m - L) ^ 2 - 2 * (m - L) * (Rk * cos ζ) + y ^ 2 = (m - L - Rk * (cos ζ - q)) * (m - L - Rk * (cos ζ + q)) := by
    intro m; linear_combination hq2
  have hl2 : (l - L - Rk * (cos ζ - q)) * (l - L - Rk * (cos ζ + q)) = 0 := by
    rw [← hroot, ← dist, ← ep, hn, sub_self]
  have hx : l - L = Rk * (cos ζ - q) := by
    rcases mul_eq_zero.1 hl2 with h | h
    · linarith
    · by_cases hz : q = 0
      · rw [hz] at h ⊢; linarith
      · exfalso
        have hqp : 0 < q := lt_of_le_of_ne hq0 (Ne.symm hz)
        have hm := hfirst (L + Rk * (cos ζ - q)) (add_nonneg hL.le (mul_nonneg hR.le (by linarith))) (by nlinarith)
        have := dist (L + Rk * (cos ζ - q))
        rw [hroot] at this
        rw [show L + Rk * (cos ζ - q) - L - Rk * (cos ζ - q) = 0 by ring, zero_mul] at this
        linarith
  unfold outBy extra
  rw [← hq, ep]
  simp only [onRay]
  have hzz : sin φ * cos θ + cos φ * sin θ = sin ζ := by
    rw [← sin_add, e2, ← e1]; congr 1; ring
  rw [f1, show Rk * cos θ = Rk + Hk - L * cos φ by linarith]
  linear_combination (l - L) * hzz + sin ζ * hx

/-- the line hits the sphere if it is not too far beside -/
theorem hit_exists {φ θ ζ y : ℝ} (h : Seen Rk Hk φ θ ζ) (hy : (y / Rk) ^ 2 ≤ cos ζ ^ 2) : ∃ p, Hit Rk Hk φ y p := by
  have hR : (0 : ℝ) < Rk := Rk_pos
  obtain ⟨hs, hs0⟩ := slant_eq h
  obtain ⟨-, hζ, -, L, hL, ⟨f1, f2⟩, f3, f4⟩ := h
  have hc : 0 ≤ cos ζ := (cos_pos_of_mem_Ioo ⟨(abs_lt.1 hζ).1, (abs_lt.1 hζ).2⟩).le
  have eL : slant Rk Hk θ = L := by
    unfold slant
    rw [f1, show Rk + Hk - Rk * cos θ = L * cos φ by linarith, mul_pow, mul_pow, ← mul_add, sin_sq_add_cos_sq, mul_one, sqrt_sq hL.le]
  rw [eL] at hs
  have p1 := sin_sq_add_cos_sq φ
  have dist : ∀ m, (onRay Rk Hk φ y m).1 ^ 2 + (onRay Rk Hk φ y m).2.1 ^ 2 + (onRay Rk Hk φ y m).2.2 ^ 2 - Rk ^ 2
      = (m - L) ^ 2 - 2 * (m - L) * (Rk * cos ζ) + y ^ 2 := by
    intro m
    have hLL : L ^ 2 - 2 * L * ((Rk + Hk) * cos φ) + (Rk + Hk) ^ 2 = Rk ^ 2 := by
      have g1 : (L * sin φ) ^ 2 + (Rk + Hk - L * cos φ) ^ 2 = Rk ^ 2 := by
        rw [← f1, show Rk + Hk - L * cos φ = Rk * cos θ by linarith, mul_pow, mul_pow, ← mul_add, sin_sq_add_cos_sq, mul_one]
      linear_combination g1 - L ^ 2 * p1
    simp only [onRay]
    have hcz : Rk * cos ζ = (Rk + Hk) * cos φ - L := by linarith
    rw [hcz]
    linear_combination m ^ 2 * p1 + hLL
  obtain ⟨q, hq⟩ : ∃ q, q = √(cos ζ ^ 2 - (y / Rk) ^ 2) := ⟨_, rfl⟩
  have hq0 : 0 ≤ q := by rw [hq]; exact sqrt_nonneg _
  have hq2 : (Rk * q) ^ 2 = (Rk * cos ζ) ^ 2 - y ^ 2 := by
    rw [mul_pow, hq, sq_sqrt (by linarith)]
    field_simp
  have hqc : q ≤ cos ζ := by
    rw [hq]
    apply sqrt_le_iff.2 ⟨hc, ?_⟩
    nlinarith [sq_nonneg (y / Rk)]
  have hroot : ∀ m, (m - L) ^ 2 - 2 * (m - L) * (Rk * cos ζ) + y ^ 2 = (m - L - Rk * (cos ζ - q)) * (m - L - Rk * (cos ζ + q)) := by
    intro m; linear_combination hq2
  refine ⟨onRay Rk Hk φ y (L + Rk * (cos ζ - q)), L + Rk * (cos ζ - q), add_pos_of_pos_of_nonneg hL (mul_nonneg hR.le (by linarith)), rfl, ?_, ?_⟩
  · have := dist (L + Rk * (cos ζ - q))
    rw [hroot, show L + Rk * (cos ζ - q) - L - Rk * (cos ζ - q) = 0 by ring, zero_mul] at this
    linarith
  · intro m _ hm
    have := dist m
    rw [hroot] at this
    have : 0 < (m - L - Rk * (cos ζ - q)) * (m - L - Rk * (cos ζ + q)) := by
      apply mul_pos_of_neg_of_neg
      · linarith
      · have : 0 ≤ Rk * q := mul_nonneg hR.le hq0
        nlinarith
    linarith

/-- the extra way grows with the square of the distance from the plane, to fourth order -/
theorem extra_square {c d u : ℝ} (hc : 0 < c) (hd : |d| ≤ c / 2) (hu : |u| ≤ 1) :
    |extra c (u * d) - u ^ 2 * extra c d| ≤ d ^ 4 / (3 * c ^ 3) := by
  have hd2 : d ^ 2 ≤ c ^ 2 / 4 := by
    rw [← sq_abs]
    have := pow_le_pow_left₀ (abs_nonneg d) hd 2
    linarith [show (c / 2) ^ 2 = c ^ 2 / 4 by ring]
  have hu2 : u ^ 2 ≤ 1 := by
    rw [← sq_abs]
    have := pow_le_pow_left₀ (abs_nonneg u) hu 2
    linarith [show (1 : ℝ) ^ 2 = 1 by ring]
  have hu0 := sq_nonneg u
  have hd0 := sq_nonneg d
  obtain ⟨A, hA⟩ : ∃ A, A = √(c ^ 2 - (u * d) ^ 2) := ⟨_, rfl⟩
  obtain ⟨B, hB⟩ : ∃ B, B = √(c ^ 2 - d ^ 2) := ⟨_, rfl⟩
  have hud : (u * d) ^ 2 ≤ d ^ 2 := by rw [mul_pow]; nlinarith
  have A2 : A ^ 2 = c ^ 2 - u ^ 2 * d ^ 2 := by rw [hA, sq_sqrt (by nlinarith), mul_pow]
  have B2 : B ^ 2 = c ^ 2 - d ^ 2 := by rw [hB, sq_sqrt (by nlinarith)]
  have B0 : 0.86 * c ≤ B := by rw [hB]; apply le_sqrt_of_sq_le; nlinarith
  have AB : B ≤ A := by rw [hA, hB]; apply sqrt_le_sqrt; linarith
  have Ac : A ≤ c := by rw [hA]; exact sqrt_le_iff.2 ⟨hc.le, by nlinarith [sq_nonneg (u * d)]⟩
  unfold extra
  rw [← hA, ← hB]
  -- (c - A) (c + A) = u² d², (c - B) (c + B) = d²
  have pA : 0 < c + A := by linarith
  have pB : 0 < c + B := by linarith
  have eA : c - A = u ^ 2 * d ^ 2 / (c + A) := by rw [eq_div_iff pA.ne']; linear_combination -A2
  have eB : c - B = d ^ 2 / (c + B) := by rw [eq_div_iff pB.ne']; linear_combination -B2
  have eD : A - B = (1 - u ^ 2) * d ^ 2 / (A + B) := by rw [eq_div_iff (by nlinarith)]; linear_combination A2 - B2
  have e : c - A - u ^ 2 * (c - B) = -(u ^ 2 * (1 - u ^ 2) * d ^ 4 / ((A + B) * (c + A) * (c + B))) := by
    have h1 : c - A - u ^ 2 * (c - B) = -(u ^ 2 * d ^ 2 * (A - B) / ((c + A) * (c + B))) := by
      rw [eA, eB]
      field_simp
      ring
    rw [h1, eD]
    have : A + B ≠ 0 := by nlinarith
    field_simp
  rw [e, abs_neg, abs_of_nonneg]
  · have q1 : u ^ 2 * (1 - u ^ 2) ≤ 1 / 4 := by nlinarith [sq_nonneg (u ^ 2 - 1 / 2)]
    have q2 : 3 * c ^ 3 ≤ 4 * ((A + B) * (c + A) * (c + B)) := by
      have g1 : 1.72 * c ≤ A + B := by linarith
      have g2 : 1.86 * c ≤ c + A := by linarith
      have g3 : 1.86 * c ≤ c + B := by linarith
      have := mul_le_mul (mul_le_mul g1 g2 (by positivity) (by linarith)) g3 (by positivity) (mul_nonneg (by linarith) (by linarith))
      have hc3 : 0 < c ^ 3 := by positivity
      nlinarith
    have hd4 : 0 ≤ d ^ 4 := by positivity
    have hpos : 0 < (A + B) * (c + A) * (c + B) := by
      have : 0 < A + B := by nlinarith
      positivity
    rw [div_le_div_iff₀ hpos (by positivity)]
    have := mul_le_mul_of_nonneg_right q1 hd4
    have h3 : u ^ 2 * (1 - u ^ 2) * d ^ 4 * (3 * c ^ 3) ≤ 1 / 4 * d ^ 4 * (3 * c ^ 3) := mul_le_mul_of_nonneg_right this (by positivity)
    have h4 := mul_le_mul_of_nonneg_left q2 hd4
    linarith
  · have : 0 < A + B := by nlinarith
    have : 0 ≤ 1 - u ^ 2 := by linarith
    positivity

end Verif.Modis
