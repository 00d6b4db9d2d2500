import Verif.Props.GridGeo
import Verif.Props.GridMore
import Verif.Props.Geo
import Verif.Proofs.GeoErr

/-!
# C91: geographic interpolation and the sphere

The interpolated point lies inside the sphere; the longitude is that of its direction, the latitude is computed from one coordinate
as if the point were on the sphere.
-/

namespace Verif.Props
open Verif Verif.Interpolator Verif.Spec Verif.Presets Verif.Grid Verif.Geo FP Real

/-- squared distance of two points -/
def distSq (p q : ℝ × ℝ × ℝ) : ℝ := (p.1 - q.1) ^ 2 + (p.2.1 - q.2.1) ^ 2 + (p.2.2 - q.2.2) ^ 2

theorem var_sum {n : Nat} (w f : Fin n → ℝ) (hs : ∑ i, w i = 1) :
    ∑ i, ∑ j, w i * w j * (f i - f j) ^ 2 = 2 * ∑ i, w i * f i ^ 2 - 2 * (∑ i, w i * f i) ^ 2 := by
  have h : ∀ i, ∑ j, w i * w j * (f i - f j) ^ 2
      = w i * f i ^ 2 * (∑ j, w j) - 2 * (w i * f i) * (∑ j, w j * f j) + w i * (∑ j, w j * f j ^ 2) := by
    intro i
    rw [Finset.mul_sum, Finset.mul_sum, Finset.mul_sum, ← Finset.sum_sub_distrib, ← Finset.sum_add_distrib]
    exact Finset.sum_congr rfl fun j _ => by ring
  simp only [h, hs, mul_one, Finset.sum_add_distrib, Finset.sum_sub_distrib]
  rw [← Finset.sum_mul, ← Finset.mul_sum, ← Finset.sum_mul, hs]
  ring

/-- a weighted mean of points of the sphere at distances up to `√D` lies inside the sphere, but not far -/
theorem wsum_shell {n : Nat} {R D : ℝ} (w : Fin n → ℝ) (p : Fin n → ℝ × ℝ × ℝ) (hw : ∀ i, 0 ≤ w i) (hs : ∑ i, w i = 1)
    (hp : ∀ i, normSq (p i) = R ^ 2) (hd : ∀ i j, distSq (p i) (p j) ≤ D) :
    R ^ 2 - D / 2 ≤ normSq (wsum w p) ∧ normSq (wsum w p) ≤ R ^ 2 := by
  have e1 := var_sum w (fun i => (p i).1) hs
  have e2 := var_sum w (fun i => (p i).2.1) hs
  have e3 := var_sum w (fun i => (p i).2.2) hs
  have hR : (∑ i, w i * (p i).1 ^ 2) + (∑ i, w i * (p i).2.1 ^ 2) + (∑ i, w i * (p i).2.2 ^ 2) = R ^ 2 := by
    rw [← Finset.sum_add_distrib, ← Finset.sum_add_distrib]
    calc _ = ∑ i, w i * R ^ 2 := Finset.sum_congr rfl fun i _ => by rw [← hp i]; simp only [normSq]; ring
      _ = R ^ 2 := by rw [← Finset.sum_mul, hs, one_mul]
  have hD : (∑ i, ∑ j, w i * w j * distSq (p i) (p j)) ≤ D := by
    calc _ ≤ ∑ i, ∑ j, w i * w j * D :=
          Finset.sum_le_sum fun i _ => Finset.sum_le_sum fun j _ => mul_le_mul_of_nonneg_left (hd i j) (mul_nonneg (hw i) (hw j))
      _ = D := by
        have : ∀ i, ∑ j, w i * w j * D = w i * D := by
          intro i
          rw [← Finset.sum_mul, ← Finset.mul_sum, hs, mul_one]
        simp only [this]
        rw [← Finset.sum_mul, hs, one_mul]
  have h0 : 0 ≤ ∑ i, ∑ j, w i * w j * distSq (p i) (p j) :=
    Finset.sum_nonneg fun i _ => Finset.sum_nonneg fun j _ =>
      mul_nonneg (mul_nonneg (hw i) (hw j)) (by unfold distSq; positivity)
  have split : ∑ i, ∑ j, w i * w j * distSq (p i) (p j)
      = ∑ i, ∑ j, w i * w j * ((p i).1 - (p j).1) ^ 2 + ∑ i, ∑ j, w i * w j * ((p i).2.1 - (p j).2.1) ^ 2
        + ∑ i, ∑ j, w i * w j * ((p i).2.2 - (p j).2.2) ^ 2 := by
    simp only [distSq, mul_add, Finset.sum_add_distrib]
  have hn : normSq (wsum w p) = (∑ i, w i * (p i).1) ^ 2 + (∑ i, w i * (p i).2.1) ^ 2 + (∑ i, w i * (p i).2.2) ^ 2 := rfl
  rw [split, e1, e2, e3] at hD h0
  constructor <;> linarith

theorem le_of_sq_le_sq_aux {a b : ℝ} (hb : 0 ≤ b) (h : a ^ 2 ≤ b ^ 2) : a ≤ b := abs_le_of_sq_le_sq' h hb |>.2

private theorem near_low {q s c φ d : ℝ} (hd : 0 ≤ d) (hq1 : q ≤ 1) (hq2 : 0.995 ≤ q ^ 2) (hgap : 1 - q ≤ d / 3.98)
    (hsc : s ^ 2 + c ^ 2 = 1) (hc0 : 0 < c) (hsin : sin φ = s) (hcos : cos φ = c) (hφ : |φ| ≤ π / 2) (hu : |q * s| < 8 / 10) :
    |arcsin (q * s) - φ| ≤ 0.3417 * d := by
  have hu2 : (q * s) ^ 2 ≤ 0.64 := by
    have := sq_lt_sq' (by linarith [abs_nonneg (q * s)]) hu
    rw [sq_abs] at this
    norm_num at this ⊢; linarith
  have hsψ : sin (arcsin (q * s)) = q * s := sin_arcsin (by linarith [(abs_lt.1 hu).1]) (by linarith [(abs_lt.1 hu).2])
  have hcψ : 0.59 ≤ cos (arcsin (q * s)) := by
    rw [cos_arcsin]
    apply le_sqrt_of_sq_le
    norm_num at hu2 ⊢; linarith
  have hs2 : s ^ 2 ≤ 0.6433 := by
    rw [mul_pow] at hu2
    have : 0.995 * s ^ 2 ≤ q ^ 2 * s ^ 2 := mul_le_mul_of_nonneg_right hq2 (sq_nonneg s)
    norm_num at this hu2 ⊢; linarith
  have hcφ : 0.59 ≤ cos φ := by
    rw [hcos]
    apply le_of_sq_le_sq_aux hc0.le
    norm_num at hs2 ⊢; linarith
  have key := Err.sin_expand (s := arcsin (q * s)) (t := φ) (c := 0.59) (by norm_num)
    (abs_le.2 (arcsin_mem_Icc _)) hφ hcψ hcφ
  rw [hsψ, hsin] at key
  have hs3 : |s| ≤ 0.8021 := abs_le_of_sq_le_sq (by norm_num at hs2 ⊢; linarith) (by norm_num)
  have h4 : |q * s - s| ≤ d / 3.98 * 0.8021 := by
    rw [show q * s - s = -((1 - q) * s) by ring, abs_neg, abs_mul, abs_of_nonneg (by linarith : 0 ≤ 1 - q)]
    exact mul_le_mul hgap hs3 (abs_nonneg _) (by positivity)
  have h5 := key.trans h4
  norm_num at h5 ⊢
  linarith

private theorem near_high {q s c φ d : ℝ} (hd : 0 ≤ d) (hq0 : 0 < q) (hq1 : q ≤ 1) (hgap : 1 - q ≤ d / 3.98)
    (hsc : s ^ 2 + c ^ 2 = 1) (hc0 : 0 < c) (hsin : sin φ = s) (hcos : cos φ = c) (hφ : |φ| ≤ π / 2) (hu : 8 / 10 ≤ |q * s|) :
    |arcsin (q * c) - (π / 2 - |φ|)| ≤ 0.3417 * d := by
  have hs8 : 0.8 ≤ |s| := by
    rw [abs_mul, abs_of_pos hq0] at hu
    have : q * |s| ≤ 1 * |s| := mul_le_mul_of_nonneg_right hq1 (abs_nonneg s)
    norm_num at hu ⊢; linarith
  have hs64 : 0.64 ≤ s ^ 2 := by
    rw [← sq_abs]
    have := pow_le_pow_left₀ (by norm_num) hs8 2
    norm_num at this ⊢; linarith
  have hc6 : c ≤ 0.6 := le_of_sq_le_sq_aux (by norm_num) (by norm_num at hs64 ⊢; linarith)
  have hqc : 0 ≤ q * c := by positivity
  have hqc6 : q * c ≤ 0.6 := by
    have : q * c ≤ 1 * c := mul_le_mul_of_nonneg_right hq1 hc0.le
    linarith
  have hsχ : sin (arcsin (q * c)) = q * c := sin_arcsin (by linarith) (by norm_num at hqc6 ⊢; linarith)
  have hcχ : 0.8 ≤ cos (arcsin (q * c)) := by
    rw [cos_arcsin]; apply le_sqrt_of_sq_le
    have := pow_le_pow_left₀ hqc hqc6 2
    norm_num at this ⊢; linarith
  have hst : sin (π / 2 - |φ|) = c := by
    rw [sin_pi_div_two_sub, cos_abs, hcos]
  have hct : 0.8 ≤ cos (π / 2 - |φ|) := by
    rw [cos_pi_div_two_sub]
    rcases abs_cases φ with ⟨e, _⟩ | ⟨e, hneg⟩
    · rw [e, hsin]
      have : 0 ≤ s := by
        rw [← hsin]; exact sin_nonneg_of_nonneg_of_le_pi (by rw [← e]; exact abs_nonneg _) (by linarith [(abs_le.1 hφ).2, pi_pos])
      rwa [abs_of_nonneg this] at hs8
    · rw [e, sin_neg, hsin]
      have : s ≤ 0 := by
        rw [← hsin]; exact sin_nonpos_of_nonpos_of_neg_pi_le hneg.le (by linarith [(abs_le.1 hφ).1, pi_pos])
      rwa [abs_of_nonpos this] at hs8
  have hab : abs (π / 2 - |φ|) ≤ π / 2 := by
    rw [abs_le]; constructor <;> linarith [abs_nonneg φ, pi_pos]
  have key := Err.sin_expand (s := arcsin (q * c)) (t := π / 2 - |φ|) (c := 0.8) (by norm_num)
    (abs_le.2 (arcsin_mem_Icc _)) hab hcχ hct
  rw [hsχ, hst] at key
  have h4 : |q * c - c| ≤ d / 3.98 * 0.6 := by
    rw [show q * c - c = -((1 - q) * c) by ring, abs_neg, abs_mul, abs_of_nonneg (by linarith : 0 ≤ 1 - q), abs_of_pos hc0]
    exact mul_le_mul hgap hc6 hc0.le (by positivity)
  have h5 := key.trans h4
  norm_num at h5 ⊢
  linarith

/-- the latitude computed for a point in a thin shell inside the sphere -/
theorem latFP_near {R x y z d : ℝ} (hR : 0 < R) (hd0 : 0 ≤ d) (hd : d ≤ 1 / 100)
    (hlo : R ^ 2 * (1 - d / 2) ≤ x ^ 2 + y ^ 2 + z ^ 2)
    (hhi : x ^ 2 + y ^ 2 + z ^ 2 ≤ R ^ 2) (hax : x ^ 2 + y ^ 2 ≠ 0) :
    ∃ B, latFP R (8 / 10) true x y z = val B ∧ |B - geocentricLat (x, y, z)| ≤ 20 * d := by
  have hr : 0 < rho x y := (rho_pos_iff x y).mpr hax
  have hrs := rho_sq x y
  obtain ⟨h, eh⟩ : ∃ h, h = rho x y := ⟨_, rfl⟩
  rw [← eh] at hr hrs
  obtain ⟨N, eN⟩ : ∃ N, N = √(h ^ 2 + z ^ 2) := ⟨_, rfl⟩
  have hN2 : N ^ 2 = h ^ 2 + z ^ 2 := by rw [eN]; exact sq_sqrt (by positivity)
  have hNp : 0 < N := by rw [eN]; exact sqrt_pos.2 (by positivity)
  rw [← hrs, ← hN2] at hlo hhi
  have hNR : N ≤ R := le_of_sq_le_sq_aux hR.le hhi
  obtain ⟨q, eq⟩ : ∃ q, q = N / R := ⟨_, rfl⟩
  have hq0 : 0 < q := by rw [eq]; positivity
  have hq1 : q ≤ 1 := by rw [eq, div_le_one hR]; exact hNR
  have hNq : N = q * R := by rw [eq]; field_simp
  have hq2 : 1 - d / 2 ≤ q ^ 2 := by
    rw [hNq, mul_pow, mul_comm] at hlo
    exact le_of_mul_le_mul_right hlo (by positivity)
  have hq995 : 0.995 ≤ q ^ 2 := by norm_num; linarith
  have hq99 : 0.99 ≤ q := le_of_sq_le_sq_aux hq0.le (by norm_num at hq995 ⊢; linarith)
  have hgap : 1 - q ≤ d / 3.98 := by
    have : (1 - q) * (1 + q) ≤ d / 2 := by linarith [show (1 - q) * (1 + q) = 1 - q ^ 2 by ring]
    have h2 : (1 - q) * 1.99 ≤ (1 - q) * (1 + q) :=
      mul_le_mul_of_nonneg_left (by norm_num at hq99 ⊢; linarith) (by linarith)
    rw [le_div_iff₀ (by norm_num)]
    norm_num at h2 ⊢
    linarith
  obtain ⟨s, es⟩ : ∃ s, s = z / N := ⟨_, rfl⟩
  obtain ⟨c, ec⟩ : ∃ c, c = h / N := ⟨_, rfl⟩
  have hsc : s ^ 2 + c ^ 2 = 1 := by
    rw [es, ec, div_pow, div_pow, ← add_div, div_eq_one_iff_eq (by positivity), hN2]; ring
  have hc0 : 0 < c := by rw [ec]; positivity
  obtain ⟨φ, eφ⟩ : ∃ φ, φ = arctan (z / h) := ⟨_, rfl⟩
  have hroot : √(1 + (z / h) ^ 2) = N / h := by
    rw [show 1 + (z / h) ^ 2 = (N / h) ^ 2 by rw [div_pow, div_pow, hN2]; field_simp]
    exact sqrt_sq (by positivity)
  have hsin : sin φ = s := by
    rw [eφ, sin_arctan, hroot, es]; field_simp
  have hcos : cos φ = c := by
    rw [eφ, cos_arctan, hroot, ec]; field_simp
  have hφ : |φ| ≤ π / 2 := by
    rw [abs_le, eφ]; exact ⟨(neg_pi_div_two_lt_arctan _).le, (arctan_lt_pi_div_two _).le⟩
  have hgeo : geocentricLat (x, y, z) = deg φ := by
    simp only [geocentricLat, axisDistSq]
    rw [eφ, eh, rho, show x ^ 2 + y ^ 2 = x * x + y * y by ring]
  have hzq : z / R = q * s := by rw [es, eq]; field_simp
  have hhq : h / R = q * c := by rw [ec, eq]; field_simp
  have hpi : 180 / π ≤ 57.33 := by
    rw [div_le_iff₀ pi_pos]
    have := pi_gt_d2
    norm_num at this ⊢; linarith
  have hpi0 : 0 < 180 / π := by positivity
  have fin : ∀ a b : ℝ, |a - b| ≤ 0.3417 * d → |deg a - deg b| ≤ 20 * d := by
    intro a b hab
    rw [show deg a - deg b = (a - b) * (180 / π) by unfold deg; ring, abs_mul, abs_of_pos hpi0]
    calc _ ≤ 0.3417 * d * 57.33 := mul_le_mul hab hpi hpi0.le (by positivity)
      _ ≤ _ := by norm_num; linarith
  rw [hgeo]
  unfold latFP
  by_cases hu : |z / R| < 8 / 10
  · rw [if_pos ⟨rfl, hu⟩, if_pos]
    · refine ⟨_, rfl, ?_⟩
      have e : latZ R z = deg (arcsin (z / R)) := by
        rw [latZ, arccos]; unfold deg
        have := pi_pos.ne'
        field_simp; ring
      rw [e, hzq]
      rw [hzq] at hu
      exact fin _ _ (near_low hd0 hq1 hq995 hgap hsc hc0 hsin hcos hφ hu)
    · have : |z / R| ≤ 1 := by linarith
      rwa [abs_div, abs_of_pos hR, div_le_one hR] at this
  · rw [if_neg (by rintro ⟨_, h'⟩; exact hu h'), if_pos]
    · refine ⟨_, rfl, ?_⟩
      rw [not_lt, hzq] at hu
      have hχ := near_high hd0 hq0 hq1 hgap hsc hc0 hsin hcos hφ hu
      have hz : z ≠ 0 := by
        rintro rfl
        rw [es, zero_div, mul_zero, abs_zero] at hu; norm_num at hu
      have e90 : (90 : ℝ) - deg (arcsin (rho x y / R)) = deg (π / 2 - arcsin (q * c)) := by
        rw [← eh, hhq]; unfold deg
        have := pi_pos.ne'
        field_simp; ring
      rw [latXY, e90]
      rcases lt_or_gt_of_ne hz with hz' | hz'
      · have hφn : φ ≤ 0 := by
          rw [eφ, ← arctan_zero]; exact arctan_mono (div_nonpos_of_nonpos_of_nonneg hz'.le hr.le)
        rw [abs_of_nonpos hφn] at hχ
        rw [sgn_neg hz', show -1 * deg (π / 2 - arcsin (q * c)) = deg (arcsin (q * c) - π / 2) by unfold deg; ring]
        apply fin
        rwa [show arcsin (q * c) - π / 2 - φ = arcsin (q * c) - (π / 2 - -φ) by ring]
      · have hφp : 0 ≤ φ := by
          rw [eφ, ← arctan_zero]; exact arctan_mono (by positivity)
        rw [abs_of_nonneg hφp] at hχ
        rw [sgn_pos hz', one_mul]
        apply fin
        rw [abs_sub_comm]
        rwa [show φ - (π / 2 - arcsin (q * c)) = arcsin (q * c) - (π / 2 - φ) by ring]
    · rw [← eh]
      exact (le_of_sq_le_sq_aux hNp.le (by rw [hN2]; linarith [sq_nonneg z])).trans hNR

/-- the longitude (degrees) of the direction of a point off the polar axis -/
def HasLon (A : ℝ) (p : ℝ × ℝ × ℝ) : Prop :=
  -180 < A ∧ A < 180 ∧ p.1 = √(axisDistSq p) * cos (rad A) ∧ p.2.1 = √(axisDistSq p) * sin (rad A)

/-- **C91 (longitude)**: for every point off the polar axis and off the half plane of the 180-degree meridian the longitude
reported is the longitude of the direction of the point, whatever its distance from the centre. -/
theorem C91_lon (R t : ℝ) (low : Bool) (p : ℝ × ℝ × ℝ) (hR : 0 < R) (hax : axisDistSq p ≠ 0) (han : ¬ onAntimeridian p) :
    ∃ A, HasLon A p ∧ (xyz2lonlat (val R) (val t) low (pt p)).1 = val A ∧
      (cyXyz2lonlat (val R) (val t) low (pt p)).1 = val A := by
  obtain ⟨x, y, z⟩ := p
  simp only [pt, xyz2lonlat_val _ _ _ _ _ _ hR, cyXyz2lonlat_val _ _ _ _ _ _ hR]
  simp only [axisDistSq] at hax
  simp only [onAntimeridian, not_and, not_lt] at han
  have hr : 0 < rho x y := (rho_pos_iff x y).mpr hax
  have hrs := rho_sq x y
  have e : √(axisDistSq (x, y, z)) = rho x y := by simp only [axisDistSq]; rw [rho]; ring_nf
  -- the angle of the direction
  obtain ⟨u, u1, u2, ux, uy⟩ : ∃ u, -π < u ∧ u < π ∧ x = rho x y * cos u ∧ y = rho x y * sin u := by
    have hx1 : (x / rho x y) ^ 2 + (y / rho x y) ^ 2 = 1 := by
      rw [div_pow, div_pow, ← add_div, ← hrs]; field_simp
    have l1 : -1 ≤ x / rho x y := by nlinarith [sq_nonneg (y / rho x y)]
    have l2 : x / rho x y ≤ 1 := by nlinarith [sq_nonneg (y / rho x y)]
    have hc := cos_arccos l1 l2
    have hs : sin (arccos (x / rho x y)) = |y / rho x y| := by
      rw [sin_arccos, show 1 - (x / rho x y) ^ 2 = (y / rho x y) ^ 2 by linarith, sqrt_sq_eq_abs]
    have a0 := arccos_nonneg (x / rho x y)
    have api : arccos (x / rho x y) < π ∨ y = 0 ∧ x < 0 := by
      rcases lt_or_eq_of_le (arccos_le_pi (x / rho x y)) with h | h
      · exact Or.inl h
      · right
        rw [h, cos_pi] at hc
        rw [h, sin_pi] at hs
        have hy : y / rho x y = 0 := abs_eq_zero.1 hs.symm
        have : x = - rho x y := by field_simp at hc; linarith
        exact ⟨(div_eq_zero_iff.1 hy).resolve_right hr.ne', by rw [this]; linarith⟩
    have alt : arccos (x / rho x y) < π := by
      rcases api with h | ⟨h1, h2⟩
      · exact h
      · exact absurd (han h1) (by linarith)
    rcases le_or_gt 0 y with hy | hy
    · refine ⟨arccos (x / rho x y), by linarith [pi_pos], alt, by rw [hc]; field_simp, ?_⟩
      rw [hs, abs_of_nonneg (by positivity)]; field_simp
    · refine ⟨-arccos (x / rho x y), by linarith, by linarith [pi_pos], by rw [cos_neg, hc]; field_simp, ?_⟩
      rw [sin_neg, hs, abs_of_neg (div_neg_of_neg_of_pos hy hr)]; field_simp
  have hl : lonFP x y = val (deg u) := by
    rw [lonFP_of_ne hr, ← lonR_polar hr u1 u2, ← ux, ← uy]
  have hrd : rad (deg u) = u := by
    unfold rad deg
    have := pi_pos.ne'
    field_simp
  refine ⟨deg u, ⟨?_, ?_, ?_, ?_⟩, hl, hl⟩
  · unfold deg; rw [← mul_div_assoc, lt_div_iff₀ pi_pos]; linarith
  · unfold deg; rw [← mul_div_assoc, div_lt_iff₀ pi_pos]; linarith
  · rw [e, hrd]; exact ux
  · rw [e, hrd]; exact uy

/-- points of the sphere have the norm of the sphere -/
theorem normSq_spherePoint (R lon lat : ℝ) : normSq (spherePoint R lon lat) = R ^ 2 := by
  simp only [normSq, spherePoint]
  have a := sin_sq_add_cos_sq (rad lon)
  have b := sin_sq_add_cos_sq (rad lat)
  calc _ = R ^ 2 * (cos (rad lat) ^ 2 * (sin (rad lon) ^ 2 + cos (rad lon) ^ 2) + sin (rad lat) ^ 2) := by ring
    _ = R ^ 2 := by rw [a, mul_one, add_comm, b, mul_one]

/-- **C91 (latitude)**: any weighted mean of any number of points of the sphere whose squared distances from each other are
at most `d` times the squared radius (`d ≤ 1/100`) gets, with the threshold of the code, a latitude within `20 * d` degrees of
the latitude of its direction. -/
theorem C91_lat {n : Nat} (R d : ℝ) (hR : 0 < R) (hd0 : 0 ≤ d) (hd : d ≤ 1 / 100) (w lon lat : Fin n → ℝ)
    (hw : ∀ i, 0 ≤ w i) (hs : ∑ i, w i = 1)
    (hnear : ∀ i j, distSq (spherePoint R (lon i) (lat i)) (spherePoint R (lon j) (lat j)) ≤ d * R ^ 2)
    (p : ℝ × ℝ × ℝ) (hp : p = wsum w fun i => spherePoint R (lon i) (lat i)) (hax : axisDistSq p ≠ 0) :
    ∃ B, |B - geocentricLat p| ≤ 20 * d ∧ (xyz2lonlat (val R) (val (8 / 10)) true (pt p)).2 = val B ∧
      (cyXyz2lonlat (val R) (val (8 / 10)) true (pt p)).2 = val B := by
  obtain ⟨h1, h2⟩ := wsum_shell (R := R) (D := d * R ^ 2) w (fun i => spherePoint R (lon i) (lat i)) hw hs
    (fun i => normSq_spherePoint _ _ _) hnear
  rw [← hp] at h1 h2
  obtain ⟨x, y, z⟩ := p
  obtain ⟨B, e, hB⟩ := latFP_near (x := x) (y := y) (z := z) hR hd0 hd (by simp only [normSq] at h1; linarith) h2 hax
  refine ⟨B, hB, ?_, ?_⟩
  · simp only [pt, xyz2lonlat_val _ _ _ _ _ _ hR, e]
  · simp only [pt, cyXyz2lonlat_val _ _ _ _ _ _ hR, e]

theorem thr_val : (Geo.defaultThr : FP ℝ) = val (8 / 10) := by
  simp only [Geo.defaultThr, lit_eq]; norm_num

/-- the point at `(y, x)` of the cell `(i, j)` of a grid of points of the sphere: the bilinear function of the corners in each
of the three coordinates -/
noncomputable def bilinPoint (Y X : List ℝ) (lons lats : List (List ℝ)) (i j : Nat) (y x : ℝ) : ℝ × ℝ × ℝ :=
  let P := fun i j => spherePoint 6370997 ((lons.getD i []).getD j 0) ((lats.getD i []).getD j 0)
  let f := fun c : ℝ × ℝ × ℝ → ℝ => bilin (Y.getD i 0) (Y.getD (i + 1) 0) (X.getD j 0) (X.getD (j + 1) 0)
    (c (P i j)) (c (P i (j + 1))) (c (P (i + 1) j)) (c (P (i + 1) (j + 1))) y x
  (f (·.1), f (·.2.1), f (·.2.2))

/-- the corners of a cell are at squared distances of at most `d` times the squared radius from each other -/
def CellNear (d : ℝ) (lons lats : List (List ℝ)) (i j : Nat) : Prop :=
  ∀ a b a' b' : Nat, a ≤ 1 → b ≤ 1 → a' ≤ 1 → b' ≤ 1 →
    distSq (spherePoint 6370997 ((lons.getD (i + a) []).getD (j + b) 0) ((lats.getD (i + a) []).getD (j + b) 0))
      (spherePoint 6370997 ((lons.getD (i + a') []).getD (j + b') 0) ((lats.getD (i + a') []).getD (j + b') 0))
      ≤ d * 6370997 ^ 2

private theorem bilinPoint_wsum (Y X : List ℝ) (lons lats : List (List ℝ)) (i j : Nat) (y x : ℝ)
    (hy : Y.getD i 0 < Y.getD (i + 1) 0) (hx : X.getD j 0 < X.getD (j + 1) 0) (y1 : Y.getD i 0 ≤ y) (y2 : y ≤ Y.getD (i + 1) 0)
    (x1 : X.getD j 0 ≤ x) (x2 : x ≤ X.getD (j + 1) 0) :
    ∃ w : Fin 4 → ℝ, (∀ k, 0 ≤ w k) ∧ ∑ k, w k = 1 ∧ bilinPoint Y X lons lats i j y x = wsum w fun k =>
      spherePoint 6370997 (![(lons.getD i []).getD j 0, (lons.getD i []).getD (j + 1) 0, (lons.getD (i + 1) []).getD j 0,
          (lons.getD (i + 1) []).getD (j + 1) 0] k)
        (![(lats.getD i []).getD j 0, (lats.getD i []).getD (j + 1) 0, (lats.getD (i + 1) []).getD j 0,
          (lats.getD (i + 1) []).getD (j + 1) 0] k) := by
  obtain ⟨t, et⟩ : ∃ t, t = (y - Y.getD i 0) / (Y.getD (i + 1) 0 - Y.getD i 0) := ⟨_, rfl⟩
  obtain ⟨s, es⟩ : ∃ s, s = (x - X.getD j 0) / (X.getD (j + 1) 0 - X.getD j 0) := ⟨_, rfl⟩
  have t0 : 0 ≤ t := by rw [et]; exact div_nonneg (by linarith) (by linarith)
  have t1 : t ≤ 1 := by rw [et, div_le_one (by linarith)]; linarith
  have s0 : 0 ≤ s := by rw [es]; exact div_nonneg (by linarith) (by linarith)
  have s1 : s ≤ 1 := by rw [es, div_le_one (by linarith)]; linarith
  refine ⟨![(1 - t) * (1 - s), (1 - t) * s, t * (1 - s), t * s], ?_, ?_, ?_⟩
  · intro k
    fin_cases k
    · exact mul_nonneg (by linarith) (by linarith)
    · exact mul_nonneg (by linarith) s0
    · exact mul_nonneg t0 (by linarith)
    · exact mul_nonneg t0 s0
  · simp [Fin.sum_univ_four]; ring
  · simp only [bilinPoint, bilin, ← et, ← es, wsum, Fin.sum_univ_four]
    refine Prod.ext ?_ (Prod.ext ?_ ?_) <;> simp <;> ring

/-- what a geographic grid interpolator computes at a point of a cell: the conversion of the bilinear combination of the corners -/
theorem grid_geo_point (tok : TokIn Unit (FP ℝ) → Nat) (be : Bool) (fill : Option (FP ℝ)) (Y X : List ℝ)
    (hY : Y.Pairwise (· < ·)) (hX : X.Pairwise (· < ·)) (h2y : 2 ≤ Y.length) (h2x : 2 ≤ X.length)
    (lons lats : List (List ℝ)) (h1 : Dims Y.length X.length lons) (h2 : Dims Y.length X.length lats) (fy fx : List ℝ)
    (hin : be = true → (∀ y ∈ fy, Inside Y y) ∧ ∀ x ∈ fx, Inside X x) :
    ∃ is lo la, mkGeo (singleGrid (fun _ => linearKernel) be fill (Y.map val) (X.map val))
        [.array (vals lons), .array (vals lats)] = .ok is ∧
      interpolateGeo tok is [fy.map val, fx.map val] none () = .ok (lo, la) ∧
      Shape fy.length fx.length lo ∧ Shape fy.length fx.length la ∧
      ∀ a b i j, ∀ (ha : a < fy.length) (hb : b < fx.length) (hi : i + 1 < Y.length) (hj : j + 1 < X.length),
        Y[i] ≤ fy[a] → fy[a] ≤ Y[i + 1] → X[j] ≤ fx[b] → fx[b] ≤ X[j + 1] →
        el (row lo a) b = (Geo.xyz2lonlat (val 6370997) (val (8 / 10)) true (pt (bilinPoint Y X lons lats i j fy[a] fx[b]))).1 ∧
        el (row la a) b = (Geo.xyz2lonlat (val 6370997) (val (8 / 10)) true (pt (bilinPoint Y X lons lats i j fy[a] fx[b]))).2 := by
  have dim := fun c => sphere_dims c h1 h2
  let P : (ℝ × ℝ × ℝ → ℝ) → FP ℝ → FP ℝ → FP ℝ := fun c => ((realGrid be fill Y X (sphere c lons lats)).sci ()).point
  have made : mkGeo (singleGrid (fun _ => linearKernel) be fill (Y.map val) (X.map val))
      [.array (vals lons), .array (vals lats)] = .ok [realGrid be fill Y X (sphere (·.1) lons lats),
        realGrid be fill Y X (sphere (·.2.1) lons lats), realGrid be fill Y X (sphere (·.2.2) lons lats)] := by
    rw [(C25_arguments _ _ _ [] [] []).1, geoTies_vals]
    simp only [List.mapM_cons, List.mapM_nil, realGrid_made be fill hY hX (dim _)]
    rfl
  have val1 : ∀ c, (realGrid be fill Y X (sphere c lons lats)).interpolate tok (fy.map val) (fx.map val) none ()
      = .ok (fy.map (fun y => fx.map (fun x => P c (val y) (val x)))) := by
    intro c
    show interpolateNumpy _ _ _ = _
    rw [interpolateNumpy, if_pos (realGrid_ok be fill (by omega) (by omega) _ hin)]
    simp only [List.map_map]
    rfl
  refine ⟨_, fy.map (fun y => fx.map (fun x => (Geo.xyz2lonlat Geo.earthRadius Geo.defaultThr true
      (P (·.1) (val y) (val x), P (·.2.1) (val y) (val x), P (·.2.2) (val y) (val x))).1)),
    fy.map (fun y => fx.map (fun x => (Geo.xyz2lonlat Geo.earthRadius Geo.defaultThr true
      (P (·.1) (val y) (val x), P (·.2.1) (val y) (val x), P (·.2.2) (val y) (val x))).2)), made, ?_, ?_, ?_, ?_⟩
  · simp only [interpolateGeo, interpolateMultiple, List.map_cons, List.map_nil, val1, List.mapM_cons, List.mapM_nil, id]
    show toLonLat [_, _, _] = _
    rw [toLonLat_map]
  · exact ⟨by simp, by intro r hr; obtain ⟨y, _, rfl⟩ := List.mem_map.1 hr; simp⟩
  · exact ⟨by simp, by intro r hr; obtain ⟨y, _, rfl⟩ := List.mem_map.1 hr; simp⟩
  · intro a b i j ha hb hi hj y1 y2 x1 x2
    obtain ⟨p, ep⟩ : ∃ p, p = bilinPoint Y X lons lats i j fy[a] fx[b] := ⟨_, rfl⟩
    rw [← ep]
    have o1 := (outOfBounds_val (by omega : 0 < Y.length) fy[a]).2 ⟨(sorted_le hY (Nat.zero_le _) (by omega)).trans y1,
      y2.trans (sorted_le hY (by omega) (by omega))⟩
    have o2 := (outOfBounds_val (by omega : 0 < X.length) fx[b]).2 ⟨(sorted_le hX (Nat.zero_le _) (by omega)).trans x1,
      x2.trans (sorted_le hX (by omega) (by omega))⟩
    have hp : ∀ c, P c (val fy[a]) (val fx[b]) = val (cellBilin Y X (sphere c lons lats) i j fy[a] fx[b]) := by
      intro c
      have k := linearKernel_closed hY hX (dim c) hi hj (Or.inr y1) (Or.inr y2) (Or.inr x1) (Or.inr x2)
      rw [← k]
      show Rgi.point (α := FP ℝ) _ _ _ = _
      unfold Rgi.point
      cases be <;> cases fill <;> simp only [o1, o2, Bool.or_self, Bool.false_and, Bool.false_eq_true, if_false]
    have hc : ∀ c, cellBilin Y X (sphere c lons lats) i j fy[a] fx[b]
        = bilin (Y.getD i 0) (Y.getD (i + 1) 0) (X.getD j 0) (X.getD (j + 1) 0)
          (c (spherePoint 6370997 ((lons.getD i []).getD j 0) ((lats.getD i []).getD j 0)))
          (c (spherePoint 6370997 ((lons.getD i []).getD (j + 1) 0) ((lats.getD i []).getD (j + 1) 0)))
          (c (spherePoint 6370997 ((lons.getD (i + 1) []).getD j 0) ((lats.getD (i + 1) []).getD j 0)))
          (c (spherePoint 6370997 ((lons.getD (i + 1) []).getD (j + 1) 0) ((lats.getD (i + 1) []).getD (j + 1) 0)))
          fy[a] fx[b] := by
      intro c
      simp only [cellBilin, corner]
      rw [sphere_get c h1 h2 (by omega) (by omega), sphere_get c h1 h2 (by omega) hj, sphere_get c h1 h2 hi (by omega),
        sphere_get c h1 h2 hi hj]
    have entry : ∀ k : FP ℝ × FP ℝ → FP ℝ, el (row (fy.map (fun y => fx.map (fun x => k (Geo.xyz2lonlat Geo.earthRadius
        Geo.defaultThr true (P (·.1) (val y) (val x), P (·.2.1) (val y) (val x), P (·.2.2) (val y) (val x)))))) a) b
        = k (Geo.xyz2lonlat (val 6370997) (val (8 / 10)) true (pt p)) := by
      intro k
      rw [row, getD_of_lt _ _ (by simpa using ha), List.getElem_map, el, getD_of_lt _ _ (by simpa using hb),
        List.getElem_map, hp, hp, hp, hc, hc, hc, earth_val, thr_val, ep]
      rfl
    exact ⟨entry (·.1), entry (·.2)⟩

/-- **C91 (grids)**: a geographic grid interpolator over strictly increasing positions (at least two in each dimension) with any
longitudes and latitudes of that shape, any options and fine points (inside the grid if `bounds_error`): at every fine point in a
cell whose corners are at most `√d` radii apart, where the interpolated point is off the polar axis, the latitude is within
`20 * d` degrees of that of the direction of the interpolated point; the longitude is that of the direction, if it is not that of the
180-degree meridian. -/
theorem C91_grid (tok : TokIn Unit (FP ℝ) → Nat) (be : Bool) (fill : Option (FP ℝ)) (Y X : List ℝ)
    (hY : Y.Pairwise (· < ·)) (hX : X.Pairwise (· < ·)) (h2y : 2 ≤ Y.length) (h2x : 2 ≤ X.length)
    (lons lats : List (List ℝ)) (h1 : Dims Y.length X.length lons) (h2 : Dims Y.length X.length lats) (fy fx : List ℝ)
    (hin : be = true → (∀ y ∈ fy, Inside Y y) ∧ ∀ x ∈ fx, Inside X x) :
    ∃ is lo la, mkGeo (singleGrid (fun _ => linearKernel) be fill (Y.map val) (X.map val))
        [.array (vals lons), .array (vals lats)] = .ok is ∧
      interpolateGeo tok is [fy.map val, fx.map val] none () = .ok (lo, la) ∧
      Shape fy.length fx.length lo ∧ Shape fy.length fx.length la ∧
      ∀ d a b i j, 0 ≤ d → d ≤ 1 / 100 → ∀ (ha : a < fy.length) (hb : b < fx.length) (hi : i + 1 < Y.length) (hj : j + 1 < X.length),
        Y[i] ≤ fy[a] → fy[a] ≤ Y[i + 1] → X[j] ≤ fx[b] → fx[b] ≤ X[j + 1] → CellNear d lons lats i j →
        axisDistSq (bilinPoint Y X lons lats i j fy[a] fx[b]) ≠ 0 →
        (∃ B, el (row la a) b = val B ∧ |B - geocentricLat (bilinPoint Y X lons lats i j fy[a] fx[b])| ≤ 20 * d) ∧
        (¬ onAntimeridian (bilinPoint Y X lons lats i j fy[a] fx[b]) →
          ∃ A, el (row lo a) b = val A ∧ HasLon A (bilinPoint Y X lons lats i j fy[a] fx[b])) := by
  obtain ⟨is, lo, la, e1, e2, e3, e4, e5⟩ := grid_geo_point tok be fill Y X hY hX h2y h2x lons lats h1 h2 fy fx hin
  refine ⟨is, lo, la, e1, e2, e3, e4, ?_⟩
  · intro d a b i j hd0 hd ha hb hi hj y1 y2 x1 x2 near hax
    obtain ⟨k1, k2⟩ := e5 a b i j ha hb hi hj y1 y2 x1 x2
    obtain ⟨p, ep⟩ : ∃ p, p = bilinPoint Y X lons lats i j fy[a] fx[b] := ⟨_, rfl⟩
    rw [← ep] at hax k1 k2 ⊢
    have gY : ∀ k (h : k < Y.length), Y.getD k 0 = Y[k] := fun k h => getD_of_lt Y 0 h
    have gX : ∀ k (h : k < X.length), X.getD k 0 = X[k] := fun k h => getD_of_lt X 0 h
    obtain ⟨w, w0, ws, hw⟩ := bilinPoint_wsum Y X lons lats i j fy[a] fx[b]
      (by rw [gY _ hi, gY _ (by omega)]; exact sorted_lt hY (Nat.lt_succ_self i) hi)
      (by rw [gX _ hj, gX _ (by omega)]; exact sorted_lt hX (Nat.lt_succ_self j) hj)
      (by rw [gY _ (by omega)]; exact y1) (by rw [gY _ hi]; exact y2) (by rw [gX _ (by omega)]; exact x1) (by rw [gX _ hj]; exact x2)
    constructor
    · obtain ⟨B, hB, e, _⟩ := C91_lat 6370997 d (by norm_num) hd0 hd w _ _ w0 ws (by
        intro k l
        have := near ((k : Nat) / 2) ((k : Nat) % 2) ((l : Nat) / 2) ((l : Nat) % 2) (by omega) (by omega) (by omega) (by omega)
        fin_cases k <;> fin_cases l <;> simpa using this) p (ep.trans hw) hax
      exact ⟨B, k2.trans e, hB⟩
    · intro han
      obtain ⟨A, hA, e, _⟩ := C91_lon 6370997 (8 / 10) true p (by norm_num) hax han
      exact ⟨A, k1.trans e, hA⟩

/-- the distance of two points of the sphere is at most that of their longitudes and latitudes as plane coordinates -/
theorem distSq_le (R a b a' b' : ℝ) : distSq (spherePoint R a b) (spherePoint R a' b') ≤ (rad (a - a') ^ 2 + rad (b - b') ^ 2) * R ^ 2 := by
  have e1 : rad (a - a') = rad a - rad a' := by unfold rad; ring
  have e2 : rad (b - b') = rad b - rad b' := by unfold rad; ring
  have i1 := one_sub_sq_div_two_le_cos (x := rad (a - a'))
  have i2 := one_sub_sq_div_two_le_cos (x := rad (b - b'))
  have s1 := sin_sq_add_cos_sq (rad a)
  have s2 := sin_sq_add_cos_sq (rad b)
  have s3 := sin_sq_add_cos_sq (rad a')
  have s4 := sin_sq_add_cos_sq (rad b')
  have hcc : cos (rad b) * cos (rad b') ≤ 1 := by
    nlinarith [sq_nonneg (cos (rad b) - cos (rad b')), sq_nonneg (sin (rad b)), sq_nonneg (sin (rad b'))]
  have hc1 := cos_le_one (rad (a - a'))
  have key : distSq (spherePoint R a b) (spherePoint R a' b')
      = (2 - 2 * cos (rad (b - b')) + 2 * (cos (rad b) * cos (rad b')) * (1 - cos (rad (a - a')))) * R ^ 2 := by
    rw [e1, e2, cos_sub, cos_sub]
    simp only [distSq, spherePoint]
    linear_combination (R ^ 2 * cos (rad b) ^ 2) * s1 + R ^ 2 * s2 + (R ^ 2 * cos (rad b') ^ 2) * s3 + R ^ 2 * s4
  rw [key]
  apply mul_le_mul_of_nonneg_right _ (sq_nonneg R)
  have : cos (rad b) * cos (rad b') * (1 - cos (rad (a - a'))) ≤ 1 * (1 - cos (rad (a - a'))) :=
    mul_le_mul_of_nonneg_right hcc (by linarith)
  linarith

/-- **C91 (in degrees)**: where the longitudes and the latitudes of the corners of a cell differ by at most `e ≤ 4` degrees, `CellNear`
holds with a `d` for which the latitude error of `C91_grid` is at most `e² / 80` degrees. -/
theorem C91_degrees (lons lats : List (List ℝ)) (i j : Nat) (e : ℝ) (he0 : 0 ≤ e) (he : e ≤ 4)
    (h : ∀ a b a' b' : Nat, a ≤ 1 → b ≤ 1 → a' ≤ 1 → b' ≤ 1 →
      |(lons.getD (i + a) []).getD (j + b) 0 - (lons.getD (i + a') []).getD (j + b') 0| ≤ e ∧
      |(lats.getD (i + a) []).getD (j + b) 0 - (lats.getD (i + a') []).getD (j + b') 0| ≤ e) :
    ∃ d, 0 ≤ d ∧ d ≤ 1 / 100 ∧ CellNear d lons lats i j ∧ 20 * d ≤ e ^ 2 / 80 := by
  have hpi : (π / 180) ^ 2 ≤ 0.00031 := by
    have h1 := pi_lt_d2
    have h0 := pi_pos
    have : π / 180 ≤ 3.15 / 180 := by linarith
    have := pow_le_pow_left₀ (by positivity) this 2
    norm_num at this ⊢
    linarith
  have he2 : e ^ 2 ≤ 16 := by nlinarith
  have hm : (π / 180) ^ 2 * e ^ 2 ≤ 0.00031 * e ^ 2 := mul_le_mul_of_nonneg_right hpi (sq_nonneg e)
  have sqb : ∀ u : ℝ, |u| ≤ e → rad u ^ 2 ≤ (π / 180) ^ 2 * e ^ 2 := by
    intro u hu
    have : u ^ 2 ≤ e ^ 2 := by rw [← sq_abs]; exact pow_le_pow_left₀ (abs_nonneg u) hu 2
    calc rad u ^ 2 = (π / 180) ^ 2 * u ^ 2 := by unfold rad; ring
      _ ≤ _ := mul_le_mul_of_nonneg_left this (sq_nonneg _)
  refine ⟨2 * ((π / 180) ^ 2 * e ^ 2), by positivity, ?_, ?_, ?_⟩
  · norm_num at hm ⊢; linarith
  · intro a b a' b' ha hb ha' hb'
    obtain ⟨g1, g2⟩ := h a b a' b' ha hb ha' hb'
    refine (distSq_le _ _ _ _ _).trans (mul_le_mul_of_nonneg_right ?_ (by positivity))
    linarith [sqb _ g1, sqb _ g2]
  · norm_num at hm ⊢; linarith [sq_nonneg e]

/-- a point far inside the sphere, in direction of longitude 90 -/
example := C91_lon 1 (8 / 10) true (0, 1 / 3, -1 / 2) (by norm_num) (by norm_num [axisDistSq]) (by norm_num [onAntimeridian])

/-- a quarter of the way between two points of the equator of a sphere of radius 2, one degree apart -/
example := C91_lat 2 (1 / 100) (by norm_num) (by norm_num) (by norm_num) ![3 / 4, 1 / 4] ![0, 0] ![0, 1]
  (by intro i; fin_cases i <;> norm_num) (by norm_num [Fin.sum_univ_two])
  (by
    have h1 := pi_lt_d2
    have h0 := pi_pos
    have h2 : (π / 180) ^ 2 ≤ 1 / 100 := by nlinarith
    intro i j
    refine (distSq_le _ _ _ _ _).trans (mul_le_mul_of_nonneg_right ?_ (by norm_num))
    fin_cases i <;> fin_cases j <;> simp [rad] <;> norm_num at h2 ⊢ <;> linarith) _ rfl (by
    simp only [wsum, Fin.sum_univ_two, spherePoint, axisDistSq, rad]
    have h1 := pi_lt_d2
    have h0 := pi_pos
    have h3 : 0 < cos (π / 180) := cos_pos_of_mem_Ioo ⟨by linarith, by linarith⟩
    simp
    positivity)

/-- two degrees apart, over the pole side of 60 degrees north and the meridian of Greenwich -/
example (tok : TokIn Unit (FP ℝ) → Nat) := C91_grid tok true none [0, 10] [0, 8] (by norm_num) (by norm_num) (by simp) (by simp)
  [[-1, 1], [-1, 1]] [[62, 62], [60, 60]] ⟨rfl, by simp⟩ ⟨rfl, by simp⟩ [0, 5] [1, 4] (by
    intro _
    constructor <;> intro y hy _ <;> simp only [List.mem_cons, List.not_mem_nil, or_false] at hy <;>
      rcases hy with rfl | rfl <;> norm_num)

example := C91_degrees [[-1, 1], [-1, 1]] [[62, 62], [60, 60]] 0 0 2 (by norm_num) (by norm_num) (by
  intro a b a' b' ha hb ha' hb'
  have h1 : a = 0 ∨ a = 1 := by omega
  have h2 : b = 0 ∨ b = 1 := by omega
  have h3 : a' = 0 ∨ a' = 1 := by omega
  have h4 : b' = 0 ∨ b' = 1 := by omega
  rcases h1 with rfl | rfl <;> rcases h2 with rfl | rfl <;> rcases h3 with rfl | rfl <;> rcases h4 with rfl | rfl <;>
    norm_num [abs_of_pos])

/-- **C91 is false as an equation**: the point half way between longitudes -60 and 60 on the parallel of 30 degrees is reported at
30 degrees of latitude, though its direction is at more than 45 degrees. -/
theorem C91_direction_false (R : ℝ) (hR : 0 < R) (p : ℝ × ℝ × ℝ)
    (hp : p = wsum ![1 / 2, 1 / 2] fun i => spherePoint R (![-60, 60] i) 30) :
    (xyz2lonlat (val R) (val (8 / 10)) true (pt p)).2 = val 30 ∧ axisDistSq p ≠ 0 ∧ 45 < geocentricLat p := by
  have c30 : cos (rad 30) = √3 / 2 := by
    rw [show rad 30 = π / 6 by unfold rad; ring, cos_pi_div_six]
  have s30 : sin (rad 30) = 1 / 2 := by
    rw [show rad 30 = π / 6 by unfold rad; ring, sin_pi_div_six]
  have c60 : cos (rad 60) = 1 / 2 := by
    rw [show rad 60 = π / 3 by unfold rad; ring, cos_pi_div_three]
  have e60 : rad (-60) = -rad 60 := by unfold rad; ring
  have e : p = (R * √3 / 4, 0, R / 2) := by
    rw [hp]
    simp only [wsum, Fin.sum_univ_two, spherePoint, Matrix.cons_val_zero, Matrix.cons_val_one, e60, cos_neg, sin_neg, c30, s30, c60]
    refine Prod.ext ?_ (Prod.ext ?_ ?_) <;> simp <;> ring
  have h3 : (0 : ℝ) < √3 := by positivity
  have h32 : √3 ^ 2 = 3 := sq_sqrt (by norm_num)
  refine ⟨?_, ?_, ?_⟩
  · rw [e]
    simp only [pt, xyz2lonlat_val _ _ _ _ _ _ hR, latFP]
    have hz : R / 2 / R = 1 / 2 := by field_simp
    rw [if_pos, if_pos]
    · rw [latZ, hz, show (1 : ℝ) / 2 = cos (π / 3) by rw [cos_pi_div_three], arccos_cos (by positivity) (by linarith [pi_pos])]
      unfold deg
      have := pi_pos.ne'
      congr 1
      field_simp
      norm_num
    · rw [abs_of_pos (by positivity)]; linarith
    · rw [hz]; norm_num [abs_of_pos]
  · rw [e]
    simp only [axisDistSq]
    positivity
  · rw [e]
    simp only [geocentricLat, axisDistSq]
    have hroot : √((R * √3 / 4) ^ 2 + 0 ^ 2) = R * √3 / 4 := by
      rw [show (R * √3 / 4) ^ 2 + 0 ^ 2 = (R * √3 / 4) ^ 2 by ring]
      exact sqrt_sq (by positivity)
    rw [hroot]
    have hl : (1 : ℝ) < R / 2 / (R * √3 / 4) := by
      rw [lt_div_iff₀ (by positivity)]
      have : √3 < 2 := by
        rw [sqrt_lt' (by norm_num)]; norm_num
      nlinarith
    have := arctan_strictMono hl
    rw [arctan_one] at this
    unfold deg
    have h4 : π / 4 * (180 / π) = 45 := by
      have := pi_pos.ne'
      field_simp
      norm_num
    rw [← h4]
    exact mul_lt_mul_of_pos_right this (by positivity)

end Verif.Props
