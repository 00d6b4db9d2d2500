import Verif.Proofs.GeoModes
import Verif.Props.ViiGeo
import Verif.Props.GeoArc
import Verif.Props.ModisSimpleNum

/-!
# C94: interpolating longitudes and latitudes, or points of the sphere

The VII interpolation does the first or the second for a whole array, depending on its largest latitude and range of longitudes.
-/

namespace Verif.Props
open Verif Verif.Interpolator Verif.Spec Verif.Presets Verif.Grid Verif.Geo Verif.Vii FP Real

private theorem rad_sub (a b : ℝ) : rad (a - b) = rad a - rad b := by unfold rad; ring

private theorem rad_abs (a : ℝ) : |rad a| = rad |a| := by
  unfold rad; rw [abs_mul, abs_of_pos (by positivity : 0 < π / 180)]

private theorem rad_le {a b : ℝ} (h : a ≤ b) : rad a ≤ rad b := mul_le_mul_of_nonneg_right h (by positivity)

private theorem rad_deg (x : ℝ) : rad (deg x) = x := by
  unfold rad deg
  have := pi_pos.ne'
  field_simp

private theorem deg_rad (x : ℝ) : deg (rad x) = x := by
  unfold rad deg
  have := pi_pos.ne'
  field_simp

/-- `c` times the square of `e` degrees in radians, in degrees -/
private theorem deg_sq (c e : ℝ) : deg (c * rad e ^ 2) = c * (π / 180) * e ^ 2 := by
  unfold rad deg
  have := pi_pos.ne'
  field_simp

private theorem small {e : ℝ} (h0 : 0 ≤ e) (h4 : e ≤ 4) : 0 ≤ rad e ∧ rad e ^ 2 ≤ 0.005 := by
  have h1 := pi_lt_d2
  have hp := pi_pos
  have r0 : 0 ≤ rad e := by unfold rad; positivity
  refine ⟨r0, ?_⟩
  have : rad e ≤ 0.0701 := by
    have : rad e ≤ 4 * (3.15 / 180) := mul_le_mul h4 (by linarith) (by positivity) (by norm_num)
    norm_num at this ⊢; linarith
  have := pow_le_pow_left₀ r0 this 2
  norm_num at this ⊢; linarith

private theorem cos_sixty {b : ℝ} (h : |b| ≤ 60) : 1 / 2 ≤ cos (rad b) := by
  have : cos (π / 3) ≤ cos |rad b| := by
    refine cos_le_cos_of_nonneg_of_le_pi (abs_nonneg _) (by linarith [pi_pos]) ?_
    rw [rad_abs, show π / 3 = rad 60 by unfold rad; ring]
    exact rad_le h
  rwa [cos_abs, cos_pi_div_three] at this

/-- the longitude: `A` radians around the axis, and the point turned by the mean longitude `α` -/
private theorem lon_part {ρ R X Y A α η : ℝ} (hρ : 0 < ρ) (hR : 0 < R) (hX : 0.495 ≤ X) (hY : |Y| ≤ η ^ 2)
    (hx : R * (X * cos α - Y * sin α) = ρ * cos A) (hy : R * (X * sin α + Y * cos α) = ρ * sin A) (hA : |A - α| < 2 * π) :
    |A - α| ≤ 2.03 * η ^ 2 ∨ 2 * π - 2.03 * η ^ 2 ≤ |A - α| := by
  have sc := sin_sq_add_cos_sq α
  have e1 : R * X = ρ * cos (A - α) := by
    rw [cos_sub]
    linear_combination cos α * hx + sin α * hy - R * X * sc
  have e2 : R * Y = ρ * sin (A - α) := by
    rw [sin_sub]
    linear_combination cos α * hy - sin α * hx - R * Y * sc
  have hc : 0 < cos (A - α) := by
    by_contra hn
    have : ρ * cos (A - α) ≤ 0 := mul_nonpos_of_nonneg_of_nonpos hρ.le (not_lt.1 hn)
    have : 0 < R * X := mul_pos hR (by linarith)
    linarith
  refine angle_near hc ?_ hA
  have h1 : ρ * |sin (A - α)| ≤ ρ * (2.03 * η ^ 2 * cos (A - α)) := by
    calc ρ * |sin (A - α)| = R * |Y| := by
          have := congrArg abs e2
          rw [abs_mul, abs_mul, abs_of_pos hρ, abs_of_pos hR] at this
          exact this.symm
      _ ≤ R * η ^ 2 := mul_le_mul_of_nonneg_left hY hR.le
      _ ≤ R * (2.03 * η ^ 2 * X) := by
          apply mul_le_mul_of_nonneg_left _ hR.le
          have : η ^ 2 * 0.495 ≤ η ^ 2 * X := mul_le_mul_of_nonneg_left hX (sq_nonneg η)
          norm_num at this ⊢
          linarith [sq_nonneg η]
      _ = ρ * (2.03 * η ^ 2 * cos (A - α)) := by linear_combination 2.03 * η ^ 2 * e1
  exact le_of_mul_le_mul_left h1 hρ

/-- the latitude of the direction -/
private theorem lat_part {ρ R X Z β η : ℝ} (hρ : 0 < ρ) (hR : 0 < R) (hη0 : 0 ≤ η ^ 2) (hη : η ^ 2 ≤ 0.005) (hX : 0.495 ≤ X)
    (hρX : R * X ≤ ρ) (hZ : |Z - sin β| ≤ η ^ 2 / 4) (hβ : 1 / 2 ≤ cos β) (hβ2 : |β| ≤ π / 2)
    (lo : R ^ 2 * (1 - η ^ 2) ≤ ρ ^ 2 + (R * Z) ^ 2) (hi : ρ ^ 2 + (R * Z) ^ 2 ≤ R ^ 2) :
    |arctan (R * Z / ρ) - β| ≤ 1.54 * η ^ 2 := by
  obtain ⟨N, hN⟩ : ∃ N, N = √(ρ ^ 2 + (R * Z) ^ 2) := ⟨_, rfl⟩
  have hN2 : N ^ 2 = ρ ^ 2 + (R * Z) ^ 2 := by rw [hN]; exact sq_sqrt (by positivity)
  have hNp : 0 < N := by rw [hN]; exact sqrt_pos.2 (by positivity)
  have hNR : N ≤ R := le_of_sq_le_sq_aux hR.le (by rw [hN2]; exact hi)
  have hroot : √(1 + (R * Z / ρ) ^ 2) = N / ρ := by
    have : 1 + (R * Z / ρ) ^ 2 = (N / ρ) ^ 2 := by
      rw [div_pow N, hN2]
      field_simp
    rw [this, sqrt_sq (by positivity)]
  have hsin : sin (arctan (R * Z / ρ)) = R * Z / N := by
    rw [sin_arctan, hroot]; field_simp
  have hcos : cos (arctan (R * Z / ρ)) = ρ / N := by
    rw [cos_arctan, hroot]; field_simp
  have hN1 : 1 - N / R ≤ 0.503 * η ^ 2 := by
    have hq : (N / R) ^ 2 = N ^ 2 / R ^ 2 := div_pow _ _ _
    have h1 : 1 - η ^ 2 ≤ (N / R) ^ 2 := by
      rw [hq, le_div_iff₀ (by positivity), hN2]; linarith
    have h2 : N / R ≤ 1 := by rw [div_le_one hR]; exact hNR
    have h3 : 0 < N / R := by positivity
    have h4 : 0.99 ≤ N / R := by
      by_contra hn
      push Not at hn
      have := pow_lt_pow_left₀ hn h3.le (n := 2) (by norm_num)
      norm_num at this
      norm_num at hη
      linarith
    nlinarith
  have key := Err.sin_expand (s := arctan (R * Z / ρ)) (t := β) (c := 0.495) (by norm_num)
    (abs_le.2 ⟨(neg_pi_div_two_lt_arctan _).le, (arctan_lt_pi_div_two _).le⟩) hβ2
    (by
      rw [hcos, le_div_iff₀ hNp]
      have : 0.495 * R ≤ R * X := by nlinarith
      nlinarith) (by norm_num; linarith)
  rw [hsin] at key
  have hz : |R * Z / N| ≤ 1 := by
    rw [← hsin]; exact abs_sin_le_one _
  have h5 : |R * Z / N - Z| ≤ 0.503 * η ^ 2 := by
    have e : R * Z / N - Z = R * Z / N * (1 - N / R) := by field_simp
    have h0 : 0 ≤ 1 - N / R := by
      have : N / R ≤ 1 := by rw [div_le_one hR]; exact hNR
      linarith
    rw [e, abs_mul, abs_of_nonneg h0]
    calc _ ≤ 1 * (1 - N / R) := mul_le_mul_of_nonneg_right hz h0
      _ ≤ _ := by linarith
  have h6 : |R * Z / N - sin β| ≤ 0.753 * η ^ 2 := by
    have := abs_add_le (R * Z / N - Z) (Z - sin β)
    rw [sub_add_sub_cancel] at this
    norm_num at this h5 hZ ⊢
    linarith
  have h7 := key.trans h6
  norm_num at h7 ⊢
  linarith [abs_nonneg (arctan (R * Z / ρ) - β)]

/-- **C94 (means)**: any weighted mean of any number of points of the sphere whose longitudes and latitudes (in degrees) differ by at
most `e ≤ 4` from each other, with a mean latitude of at most 60 degrees and a mean longitude of at most 179, is reported, with
the threshold of the code, within `e² / 24` degrees of the mean of the longitudes and of the mean of the latitudes. -/
theorem C94_means {n : Nat} (R e : ℝ) (hR : 0 < R) (he0 : 0 ≤ e) (he : e ≤ 4) (w lon lat : Fin n → ℝ)
    (hw : ∀ i, 0 ≤ w i) (hs : ∑ i, w i = 1) (hlon : ∀ i j, |lon i - lon j| ≤ e) (hlat : ∀ i j, |lat i - lat j| ≤ e)
    (h60 : |∑ i, w i * lat i| ≤ 60) (h179 : |∑ i, w i * lon i| ≤ 179)
    (p : ℝ × ℝ × ℝ) (hp : p = wsum w fun i => spherePoint R (lon i) (lat i)) :
    ∃ A B, xyz2lonlat (val R) (val (8 / 10)) true (pt p) = (val A, val B) ∧
      |A - ∑ i, w i * lon i| ≤ e ^ 2 / 24 ∧ |B - ∑ i, w i * lat i| ≤ e ^ 2 / 24 := by
  have pi1 := pi_lt_d2
  have pi0 := pi_pos
  obtain ⟨η0, hη⟩ := small he0 he
  have hη2 := sq_nonneg (rad e)
  have he2 : 0 ≤ e ^ 2 := sq_nonneg e
  have he16 : e ^ 2 ≤ 16 := by nlinarith
  have hd : ∀ a b : ℝ, |a - b| ≤ e → |rad a - rad b| ≤ rad e := by
    intro a b h
    rw [← rad_sub, rad_abs]
    exact rad_le h
  obtain ⟨X, Y, Z, hX, hY, hZ, ep⟩ := mean_point (R := R) w lon lat hw hs (fun i j => hd _ _ (hlon i j)) (fun i j => hd _ _ (hlat i j))
  rw [← hp] at ep
  obtain ⟨a0, ha0⟩ : ∃ a0, a0 = ∑ i, w i * lon i := ⟨_, rfl⟩
  obtain ⟨b0, hb0⟩ : ∃ b0, b0 = ∑ i, w i * lat i := ⟨_, rfl⟩
  rw [← ha0] at ep h179 ⊢
  rw [← hb0] at hX hZ h60 ⊢
  have hc60 := cos_sixty h60
  have X1 : 0.495 ≤ X := by
    have := (abs_le.1 hX).1
    norm_num at hη ⊢; linarith
  have px : p.1 = R * (X * cos (rad a0) - Y * sin (rad a0)) := by rw [ep]
  have py : p.2.1 = R * (X * sin (rad a0) + Y * cos (rad a0)) := by rw [ep]
  have sc := sin_sq_add_cos_sq (rad a0)
  have hax2 : axisDistSq p = R ^ 2 * (X ^ 2 + Y ^ 2) := by
    rw [ep]
    simp only [axisDistSq]
    linear_combination R ^ 2 * (X ^ 2 + Y ^ 2) * sc
  have hax0 : 0 < axisDistSq p := by rw [hax2]; positivity
  have hρ : 0 < √(axisDistSq p) := sqrt_pos.2 hax0
  have hdist : ∀ i j, distSq (spherePoint R (lon i) (lat i)) (spherePoint R (lon j) (lat j)) ≤ 2 * rad e ^ 2 * R ^ 2 := by
    intro i j
    refine (distSq_le _ _ _ _ _).trans (mul_le_mul_of_nonneg_right ?_ (sq_nonneg R))
    have h1 := pow_le_pow_left₀ (abs_nonneg _) (hd _ _ (hlon i j)) 2
    have h2 := pow_le_pow_left₀ (abs_nonneg _) (hd _ _ (hlat i j)) 2
    rw [sq_abs, ← rad_sub] at h1 h2
    linarith
  -- not on the 180-degree meridian
  have han : ¬ onAntimeridian p := by
    rintro ⟨hy0, hx0⟩
    have hxρ : p.1 = √(axisDistSq p) * cos π := by
      rw [cos_pi]
      have : √(axisDistSq p) = |p.1| := by
        rw [show axisDistSq p = p.1 ^ 2 by simp only [axisDistSq, hy0]; ring, sqrt_sq_eq_abs]
      rw [this, abs_of_neg hx0]; ring
    have hyρ : p.2.1 = √(axisDistSq p) * sin π := by rw [sin_pi, mul_zero]; exact hy0
    have hα : |rad a0| ≤ 179 / 180 * π := by
      rw [rad_abs]
      calc rad |a0| ≤ rad 179 := rad_le h179
        _ = 179 / 180 * π := by unfold rad; ring
    obtain ⟨l1, l2⟩ := abs_le.1 hα
    have hb : |π - rad a0| < 2 * π := by rw [abs_lt]; constructor <;> linarith
    have := lon_part hρ hR X1 hY (px.symm.trans hxρ) (py.symm.trans hyρ) hb
    have h3 : |π - rad a0| = π - rad a0 := abs_of_nonneg (by linarith)
    rw [h3] at this
    have h4 : 2.03 * rad e ^ 2 < π / 180 := by
      have := pi_gt_three
      norm_num at hη ⊢; linarith
    rcases this with h | h <;> linarith
  obtain ⟨A, ⟨hA1, hA2, hAx, hAy⟩, eA, _⟩ := C91_lon R (8 / 10) true p hR hax0.ne' han
  obtain ⟨B, hB, eB, _⟩ := C91_lat R (2 * rad e ^ 2) hR (by positivity) (by norm_num at hη ⊢; linarith) w lon lat hw hs hdist p hp
    hax0.ne'
  refine ⟨A, B, Prod.ext eA eB, ?_, ?_⟩
  · have hα : |rad a0| ≤ 179 / 180 * π := by
      rw [rad_abs]
      calc rad |a0| ≤ rad 179 := rad_le h179
        _ = 179 / 180 * π := by unfold rad; ring
    have hAr : |rad A| < π := by
      rw [rad_abs]
      have : |A| < 180 := abs_lt.2 ⟨hA1, hA2⟩
      calc rad |A| < rad 180 := mul_lt_mul_of_pos_right this (by positivity)
        _ = π := by unfold rad; ring
    obtain ⟨l1, l2⟩ := abs_le.1 hα
    obtain ⟨k1, k2⟩ := abs_lt.1 hAr
    have hb : |rad A - rad a0| < 2 * π := by rw [abs_lt]; constructor <;> linarith
    have := lon_part hρ hR X1 hY (px.symm.trans hAx) (py.symm.trans hAy) hb
    have h4 : 2.03 * rad e ^ 2 < π / 180 := by
      have := pi_gt_three
      norm_num at hη ⊢; linarith
    have h5 : |rad A - rad a0| ≤ 2.03 * rad e ^ 2 := by
      rcases this with h | h
      · exact h
      · exfalso
        have : |rad A - rad a0| < 359 / 180 * π := by rw [abs_lt]; constructor <;> linarith
        linarith
    rw [← rad_sub, rad_abs] at h5
    have h6 : |A - a0| ≤ deg (2.03 * rad e ^ 2) := by
      rw [← deg_rad |A - a0|]
      exact mul_le_mul_of_nonneg_right h5 (by positivity)
    rw [deg_sq] at h6
    refine h6.trans ?_
    have : 2.03 * (π / 180) ≤ 1 / 24 := by norm_num at pi1 ⊢; linarith
    calc _ ≤ 1 / 24 * e ^ 2 := mul_le_mul_of_nonneg_right this he2
      _ = _ := by ring
  · obtain ⟨n1, n2⟩ := wsum_shell (R := R) (D := 2 * rad e ^ 2 * R ^ 2) w (fun i => spherePoint R (lon i) (lat i)) hw hs
      (fun i => normSq_spherePoint _ _ _) hdist
    rw [← hp] at n1 n2
    have hn : normSq p = √(axisDistSq p) ^ 2 + (R * Z) ^ 2 := by
      rw [sq_sqrt hax0.le]
      have : p.2.2 = R * Z := by rw [ep]
      simp only [normSq, axisDistSq, this]
    have hρX : R * X ≤ √(axisDistSq p) := by
      apply le_sqrt_of_sq_le
      rw [hax2]
      nlinarith [sq_nonneg (R * Y)]
    have hβ2 : |rad b0| ≤ π / 2 := by
      rw [rad_abs]
      calc rad |b0| ≤ rad 60 := rad_le h60
        _ ≤ π / 2 := by unfold rad; linarith
    have := lat_part (Z := Z) hρ hR hη2 hη X1 hρX hZ hc60 hβ2 (by rw [← hn]; linarith) (by rw [← hn]; exact n2)
    have e2 : geocentricLat p = deg (arctan (R * Z / √(axisDistSq p))) := by
      have : p.2.2 = R * Z := by rw [ep]
      simp only [geocentricLat, this]
    have h7 : |geocentricLat p - b0| ≤ deg (1.54 * rad e ^ 2) := by
      have e3 : geocentricLat p - b0 = deg (arctan (R * Z / √(axisDistSq p)) - rad b0) := by
        rw [e2]
        conv_lhs => rw [← deg_rad b0]
        unfold deg; ring
      have e4 : ∀ x : ℝ, |deg x| = deg |x| := by
        intro x; unfold deg; rw [abs_mul, abs_of_pos (by positivity : 0 < 180 / π)]
      rw [e3, e4]
      exact mul_le_mul_of_nonneg_right this (by positivity)
    rw [deg_sq] at h7
    have h8 := abs_add_le (B - geocentricLat p) (geocentricLat p - b0)
    rw [sub_add_sub_cancel] at h8
    have h9 : 20 * (2 * rad e ^ 2) = 40 * (π / 180) ^ 2 * e ^ 2 := by unfold rad; ring
    rw [h9] at hB
    have hq : (π / 180) ^ 2 ≤ 0.00030626 := by
      have : π / 180 ≤ 3.15 / 180 := by linarith
      have := pow_le_pow_left₀ (by positivity) this 2
      norm_num at this ⊢; linarith
    have h10 : 40 * (π / 180) ^ 2 * e ^ 2 ≤ 0.01226 * e ^ 2 := by
      apply mul_le_mul_of_nonneg_right _ he2
      norm_num at hq ⊢; linarith
    have h11 : 1.54 * (π / 180) * e ^ 2 ≤ 0.02695 * e ^ 2 := by
      apply mul_le_mul_of_nonneg_right _ he2
      norm_num at pi1 ⊢; linarith
    norm_num at h10 h11 h7 ⊢
    linarith

example : ∃ A B, xyz2lonlat (val 1) (val (8 / 10)) true (pt (wsum ![1 / 4, 3 / 4] fun i => spherePoint 1 (![10, 12] i) (![40, 41] i))) = (val A, val B) ∧
    |A - 11.5| ≤ 1 / 6 ∧ |B - 40.75| ≤ 1 / 6 := by
  obtain ⟨A, B, h1, h2, h3⟩ := C94_means 1 2 (by norm_num) (by norm_num) (by norm_num) ![1 / 4, 3 / 4] ![10, 12] ![40, 41]
    (by intro i; fin_cases i <;> norm_num) (by norm_num [Fin.sum_univ_two])
    (by intro i j; fin_cases i <;> fin_cases j <;> norm_num [abs_le]) (by intro i j; fin_cases i <;> fin_cases j <;> norm_num [abs_le])
    (by norm_num [Fin.sum_univ_two, abs_le]) (by norm_num [Fin.sum_univ_two, abs_le]) _ rfl
  refine ⟨A, B, h1, ?_, ?_⟩
  · norm_num [Fin.sum_univ_two] at h2 ⊢; exact h2
  · norm_num [Fin.sum_univ_two] at h3 ⊢; exact h3

/-- the four ties of a cell lie within `e` degrees of each other, at latitudes up to 60 and longitudes up to 179 degrees -/
def CellDegrees (e : ℝ) (lon lat : Nat → Nat → ℝ) (m l : Nat) : Prop :=
  (∀ a ≤ 1, ∀ b ≤ 1, |lon (m + a) (l + b)| ≤ 179 ∧ |lat (m + a) (l + b)| ≤ 60) ∧
  ∀ a ≤ 1, ∀ b ≤ 1, ∀ a' ≤ 1, ∀ b' ≤ 1,
    |lon (m + a) (l + b) - lon (m + a') (l + b')| ≤ e ∧ |lat (m + a) (l + b) - lat (m + a') (l + b')| ≤ e

/-- the bilinear combination of the four points of a cell -/
noncomputable def cellMean (R : ℝ) (lon lat : Nat → Nat → ℝ) (m l : Nat) (t s : ℝ) : ℝ × ℝ × ℝ :=
  (bilinear (fun a b => (spherePoint R (lon a b) (lat a b)).1) m l t s,
   bilinear (fun a b => (spherePoint R (lon a b) (lat a b)).2.1) m l t s,
   bilinear (fun a b => (spherePoint R (lon a b) (lat a b)).2.2) m l t s)

private theorem mean_le {n : Nat} {w v : Fin n → ℝ} {b : ℝ} (hw : ∀ i, 0 ≤ w i) (hs : ∑ i, w i = 1) (h : ∀ i, |v i| ≤ b) :
    |∑ i, w i * v i| ≤ b := by
  calc |∑ i, w i * v i| ≤ ∑ i, |w i * v i| := Finset.abs_sum_le_sum_abs _ _
    _ ≤ ∑ i, w i * b := Finset.sum_le_sum fun i _ => by
        rw [abs_mul, abs_of_nonneg (hw i)]; exact mul_le_mul_of_nonneg_left (h i) (hw i)
    _ = b := by rw [← Finset.sum_mul, hs, one_mul]

/-- **C94 (cells)**: at every point of a cell of `e ≤ 4` degrees the position reported for the bilinear combination of the points of
the sphere is within `e² / 24` degrees of the bilinear combinations of the longitudes and of the latitudes. -/
theorem C94_cell (R e : ℝ) (hR : 0 < R) (he0 : 0 ≤ e) (he : e ≤ 4) (lon lat : Nat → Nat → ℝ) (m l : Nat) (t s : ℝ)
    (ht0 : 0 ≤ t) (ht1 : t ≤ 1) (hs0 : 0 ≤ s) (hs1 : s ≤ 1) (h : CellDegrees e lon lat m l) :
    ∃ A B, xyz2lonlat (val R) (val (8 / 10)) true (pt (cellMean R lon lat m l t s)) = (val A, val B) ∧
      |A - bilinear lon m l t s| ≤ e ^ 2 / 24 ∧ |B - bilinear lat m l t s| ≤ e ^ 2 / 24 := by
  obtain ⟨hb, hd⟩ := h
  let w : Fin 4 → ℝ := ![(1 - t) * (1 - s), (1 - t) * s, t * (1 - s), t * s]
  let V : (Nat → Nat → ℝ) → Fin 4 → ℝ := fun V => ![V m l, V m (l + 1), V (m + 1) l, V (m + 1) (l + 1)]
  have hw : ∀ i, 0 ≤ w i := by
    have a1 : 0 ≤ 1 - t := by linarith
    have a2 : 0 ≤ 1 - s := by linarith
    intro i
    fin_cases i
    · exact mul_nonneg a1 a2
    · exact mul_nonneg a1 hs0
    · exact mul_nonneg ht0 a2
    · exact mul_nonneg ht0 hs0
  have hsum : ∑ i, w i = 1 := by simp [Fin.sum_univ_four, w]; ring
  have hmean : ∀ U, ∑ i, w i * V U i = bilinear U m l t s := by
    intro U; simp [Fin.sum_univ_four, w, V, bilinear]; ring
  have cor : ∀ i : Fin 4, ∃ a ≤ 1, ∃ b ≤ 1, ∀ U, V U i = U (m + a) (l + b) := by
    intro i
    fin_cases i
    · exact ⟨0, by omega, 0, by omega, fun U => rfl⟩
    · exact ⟨0, by omega, 1, by omega, fun U => rfl⟩
    · exact ⟨1, by omega, 0, by omega, fun U => rfl⟩
    · exact ⟨1, by omega, 1, by omega, fun U => rfl⟩
  have hp : cellMean R lon lat m l t s = wsum w fun i => spherePoint R (V lon i) (V lat i) := by
    simp only [cellMean, bilinear, wsum, Fin.sum_univ_four, w, V]
    refine Prod.ext ?_ (Prod.ext ?_ ?_) <;> simp <;> ring
  have := C94_means R e hR he0 he w (V lon) (V lat) hw hsum
    (by
      intro i j
      obtain ⟨a, ha, b, hb, e1⟩ := cor i
      obtain ⟨a', ha', b', hb', e2⟩ := cor j
      rw [e1, e2]; exact (hd a ha b hb a' ha' b' hb').1)
    (by
      intro i j
      obtain ⟨a, ha, b, hb, e1⟩ := cor i
      obtain ⟨a', ha', b', hb', e2⟩ := cor j
      rw [e1, e2]; exact (hd a ha b hb a' ha' b' hb').2)
    (mean_le hw hsum (by
      intro i
      obtain ⟨a, ha, b, hb', e1⟩ := cor i
      rw [e1]; exact (hb a ha b hb').2))
    (mean_le hw hsum (by
      intro i
      obtain ⟨a, ha, b, hb', e1⟩ := cor i
      rw [e1]; exact (hb a ha b hb').1)) _ hp
  rwa [hmean, hmean] at this

/-- whichever way an array is interpolated, a pixel is one of two functions of its cell -/
theorem vii_two_ways (N T F c : Nat) (hN : 1 ≤ N) (hT : 2 ≤ T) (hF : 1 ≤ F) (hc : 2 ≤ c) (dims : String × String)
    (lon lat : Nat → Nat → ℝ) (thr zthr : ℝ) :
    ∃ lo la, ∃ cart : Bool,
      tiePointsGeoInterpolation (numArray dims (N * T) c lon) (numArray dims (N * T) c lat) T F (val thr) (val zthr) = .ok (lo, la) ∧
      ∀ j < N, ∀ k, k + 1 < T → ∀ u < F, ∀ l, l + 1 < c → ∀ w < F,
        (lo.at (j * ((T - 1) * F) + (k * F + u)) (l * F + w), la.at (j * ((T - 1) * F) + (k * F + u)) (l * F + w))
          = if cart then
              xyz2lonlat (val viiRadius) (val zthr) true (pt (cellMean viiRadius lon lat (j * T + k) l ((u : ℝ) / F) ((w : ℝ) / F)))
            else (val (bilinear lon (j * T + k) l ((u : ℝ) / F) ((w : ℝ) / F)),
              val (bilinear lat (j * T + k) l ((u : ℝ) / F) ((w : ℝ) / F))) := by
  by_cases h : (∃ i < N * T, ∃ j < c, thr < |lat i j|) ∨
      ∃ i < N * T, ∃ j < c, ∃ i' < N * T, ∃ j' < c, 180 < lon i j - lon i' j'
  · obtain ⟨lo, la, h1, h2⟩ := C42_cartesian N T F c hN hT hF hc dims lon lat thr zthr h
    refine ⟨lo, la, true, h1, ?_⟩
    intro j hj k hk u hu l hl w hw
    rw [h2 j hj k hk u hu l hl w hw, if_pos rfl, ← (C06_copies_agree viiRadius zthr _ viiRadius_pos).2]
    rfl
  · push Not at h
    obtain ⟨lo, la, h1, h2⟩ := C42_direct N T F c hN hT hF hc dims lon lat thr zthr h.1 h.2
    refine ⟨lo, la, false, h1, ?_⟩
    intro j hj k hk u hu l hl w hw
    obtain ⟨e1, e2⟩ := h2 j hj k hk u hu l hl w hw
    rw [e1, e2, if_neg (by simp)]

private theorem frac01 {u F : Nat} (hu : u < F) : 0 ≤ (u : ℝ) / F ∧ (u : ℝ) / F ≤ 1 := by
  refine ⟨by positivity, ?_⟩
  rw [div_le_one (by exact_mod_cast (by omega : 0 < F))]
  exact_mod_cast hu.le

/-- **C94 (VII)**: whatever the rest of the array is, the pixels of a cell of `e ≤ 4` degrees are within `e² / 24` degrees of the
bilinear interpolation of the longitudes and latitudes of its four ties. -/
theorem C94_vii (N T F c : Nat) (hN : 1 ≤ N) (hT : 2 ≤ T) (hF : 1 ≤ F) (hc : 2 ≤ c) (dims : String × String)
    (lon lat : Nat → Nat → ℝ) (thr : ℝ) :
    ∃ lo la, tiePointsGeoInterpolation (numArray dims (N * T) c lon) (numArray dims (N * T) c lat) T F (val thr) (val (8 / 10))
        = .ok (lo, la) ∧
      ∀ j < N, ∀ k, k + 1 < T → ∀ u < F, ∀ l, l + 1 < c → ∀ w < F, ∀ e, 0 ≤ e → e ≤ 4 → CellDegrees e lon lat (j * T + k) l →
        ∃ A B, lo.at (j * ((T - 1) * F) + (k * F + u)) (l * F + w) = val A ∧
          la.at (j * ((T - 1) * F) + (k * F + u)) (l * F + w) = val B ∧
          |A - bilinear lon (j * T + k) l ((u : ℝ) / F) ((w : ℝ) / F)| ≤ e ^ 2 / 24 ∧
          |B - bilinear lat (j * T + k) l ((u : ℝ) / F) ((w : ℝ) / F)| ≤ e ^ 2 / 24 := by
  obtain ⟨lo, la, cart, h1, h2⟩ := vii_two_ways N T F c hN hT hF hc dims lon lat thr (8 / 10)
  refine ⟨lo, la, h1, ?_⟩
  intro j hj k hk u hu l hl w hw e he0 he4 hcell
  have h3 := h2 j hj k hk u hu l hl w hw
  cases cart
  · rw [if_neg (by simp)] at h3
    obtain ⟨e1, e2⟩ := Prod.mk.inj h3
    exact ⟨_, _, e1, e2, by rw [sub_self, abs_zero]; positivity, by rw [sub_self, abs_zero]; positivity⟩
  · obtain ⟨A, B, hAB, ha, hb⟩ := C94_cell viiRadius e viiRadius_pos he0 he4 lon lat (j * T + k) l _ _ (frac01 hu).1 (frac01 hu).2
      (frac01 hw).1 (frac01 hw).2 hcell
    rw [if_pos rfl, hAB] at h3
    obtain ⟨e1, e2⟩ := Prod.mk.inj h3
    exact ⟨A, B, e1, e2, ha, hb⟩

/-- **C94 (locality)**: two arrays, of any sizes and whatever their other ties are, that agree on the four ties of a cell of `e ≤ 4`
degrees give pixels of it that differ by at most `e² / 24` degrees in longitude and in latitude. -/
theorem C94_local (N N' T T' F c c' : Nat) (hN : 1 ≤ N) (hN' : 1 ≤ N') (hT : 2 ≤ T) (hT' : 2 ≤ T') (hF : 1 ≤ F) (hc : 2 ≤ c)
    (hc' : 2 ≤ c') (dims dims' : String × String) (lon lat lon' lat' : Nat → Nat → ℝ) (thr thr' : ℝ) :
    ∃ lo la lo' la',
      tiePointsGeoInterpolation (numArray dims (N * T) c lon) (numArray dims (N * T) c lat) T F (val thr) (val (8 / 10))
        = .ok (lo, la) ∧
      tiePointsGeoInterpolation (numArray dims' (N' * T') c' lon') (numArray dims' (N' * T') c' lat') T' F (val thr') (val (8 / 10))
        = .ok (lo', la') ∧
      ∀ j < N, ∀ k, k + 1 < T → ∀ l, l + 1 < c → ∀ j' < N', ∀ k', k' + 1 < T' → ∀ l', l' + 1 < c' → ∀ u < F, ∀ w < F,
        ∀ e, 0 ≤ e → e ≤ 4 → CellDegrees e lon lat (j * T + k) l →
        (∀ a ≤ 1, ∀ b ≤ 1, lon' (j' * T' + k' + a) (l' + b) = lon (j * T + k + a) (l + b) ∧
          lat' (j' * T' + k' + a) (l' + b) = lat (j * T + k + a) (l + b)) →
        ∃ A B A' B', lo.at (j * ((T - 1) * F) + (k * F + u)) (l * F + w) = val A ∧
          la.at (j * ((T - 1) * F) + (k * F + u)) (l * F + w) = val B ∧
          lo'.at (j' * ((T' - 1) * F) + (k' * F + u)) (l' * F + w) = val A' ∧
          la'.at (j' * ((T' - 1) * F) + (k' * F + u)) (l' * F + w) = val B' ∧
          |A - A'| ≤ e ^ 2 / 24 ∧ |B - B'| ≤ e ^ 2 / 24 := by
  obtain ⟨lo, la, cart, h1, h2⟩ := vii_two_ways N T F c hN hT hF hc dims lon lat thr (8 / 10)
  obtain ⟨lo', la', cart', h1', h2'⟩ := vii_two_ways N' T' F c' hN' hT' hF hc' dims' lon' lat' thr' (8 / 10)
  refine ⟨lo, la, lo', la', h1, h1', ?_⟩
  intro j hj k hk l hl j' hj' k' hk' l' hl' u hu w hw e he0 he4 hcell hsame
  have h3 := h2 j hj k hk u hu l hl w hw
  have h3' := h2' j' hj' k' hk' u hu l' hl' w hw
  have q00 := hsame 0 (by omega) 0 (by omega)
  have q01 := hsame 0 (by omega) 1 (by omega)
  have q10 := hsame 1 (by omega) 0 (by omega)
  have q11 := hsame 1 (by omega) 1 (by omega)
  simp only [Nat.add_zero] at q00 q01 q10 q11
  have same : ∀ f : ℝ → ℝ → ℝ, bilinear (fun a b => f (lon' a b) (lat' a b)) (j' * T' + k') l' ((u : ℝ) / F) ((w : ℝ) / F)
      = bilinear (fun a b => f (lon a b) (lat a b)) (j * T + k) l ((u : ℝ) / F) ((w : ℝ) / F) := by
    intro f
    simp only [bilinear, q00, q01, q10, q11]
  have sp : cellMean viiRadius lon' lat' (j' * T' + k') l' ((u : ℝ) / F) ((w : ℝ) / F)
      = cellMean viiRadius lon lat (j * T + k) l ((u : ℝ) / F) ((w : ℝ) / F) := by
    unfold cellMean
    rw [same fun a b => (spherePoint viiRadius a b).1, same fun a b => (spherePoint viiRadius a b).2.1,
      same fun a b => (spherePoint viiRadius a b).2.2]
  rw [sp, same fun a _ => a, same fun _ b => b] at h3'
  obtain ⟨A, B, hAB, ha, hb⟩ := C94_cell viiRadius e viiRadius_pos he0 he4 lon lat (j * T + k) l _ _ (frac01 hu).1 (frac01 hu).2
    (frac01 hw).1 (frac01 hw).2 hcell
  have z : ∀ x : ℝ, |x - x| ≤ e ^ 2 / 24 := fun x => by rw [sub_self, abs_zero]; positivity
  rw [hAB] at h3 h3'
  cases cart <;> cases cart' <;> simp only [if_true, Bool.false_eq_true, if_false] at h3 h3'
  · obtain ⟨e1, e2⟩ := Prod.mk.inj h3
    obtain ⟨e3, e4⟩ := Prod.mk.inj h3'
    exact ⟨_, _, _, _, e1, e2, e3, e4, z _, z _⟩
  · obtain ⟨e1, e2⟩ := Prod.mk.inj h3
    obtain ⟨e3, e4⟩ := Prod.mk.inj h3'
    exact ⟨_, _, _, _, e1, e2, e3, e4, by rw [abs_sub_comm]; exact ha, by rw [abs_sub_comm]; exact hb⟩
  · obtain ⟨e1, e2⟩ := Prod.mk.inj h3
    obtain ⟨e3, e4⟩ := Prod.mk.inj h3'
    exact ⟨_, _, _, _, e1, e2, e3, e4, ha, hb⟩
  · obtain ⟨e1, e2⟩ := Prod.mk.inj h3
    obtain ⟨e3, e4⟩ := Prod.mk.inj h3'
    exact ⟨_, _, _, _, e1, e2, e3, e4, z _, z _⟩

/-- the values of an array, by index -/
def entries (v : List (List ℝ)) : Nat → Nat → ℝ := fun a b => (v.getD a []).getD b 0

/-- **C94 (grids)**: a geographic grid interpolator (which always works in cartesian coordinates) gives, in cells of `e ≤ 4` degrees, the
bilinear interpolations of the longitudes and of the latitudes within `e² / 24` degrees. -/
theorem C94_grid (tok : TokIn Unit (FP ℝ) → Nat) (be : Bool) (fill : Option (FP ℝ)) (Y X : List ℝ)
    (hY : Y.Pairwise (· < ·)) (hX : X.Pairwise (· < ·)) (h2y : 2 ≤ Y.length) (h2x : 2 ≤ X.length)
    (lons lats : List (List ℝ)) (h1 : Dims Y.length X.length lons) (h2 : Dims Y.length X.length lats) (fy fx : List ℝ)
    (hin : be = true → (∀ y ∈ fy, Inside Y y) ∧ ∀ x ∈ fx, Inside X x) :
    ∃ is lo la, mkGeo (singleGrid (fun _ => linearKernel) be fill (Y.map val) (X.map val))
        [.array (vals lons), .array (vals lats)] = .ok is ∧
      interpolateGeo tok is [fy.map val, fx.map val] none () = .ok (lo, la) ∧
      Shape fy.length fx.length lo ∧ Shape fy.length fx.length la ∧
      ∀ e a b i j, 0 ≤ e → e ≤ 4 → ∀ (ha : a < fy.length) (hb : b < fx.length) (hi : i + 1 < Y.length) (hj : j + 1 < X.length),
        Y[i] ≤ fy[a] → fy[a] ≤ Y[i + 1] → X[j] ≤ fx[b] → fx[b] ≤ X[j + 1] → CellDegrees e (entries lons) (entries lats) i j →
        ∃ A B, el (row lo a) b = val A ∧ el (row la a) b = val B ∧
          |A - bilinear (entries lons) i j ((fy[a] - Y[i]) / (Y[i + 1] - Y[i])) ((fx[b] - X[j]) / (X[j + 1] - X[j]))| ≤ e ^ 2 / 24 ∧
          |B - bilinear (entries lats) i j ((fy[a] - Y[i]) / (Y[i + 1] - Y[i])) ((fx[b] - X[j]) / (X[j + 1] - X[j]))| ≤ e ^ 2 / 24 := by
  obtain ⟨is, lo, la, e1, e2, e3, e4, e5⟩ := grid_geo_point tok be fill Y X hY hX h2y h2x lons lats h1 h2 fy fx hin
  refine ⟨is, lo, la, e1, e2, e3, e4, ?_⟩
  intro e a b i j he0 he4 ha hb hi hj y1 y2 x1 x2 hcell
  obtain ⟨k1, k2⟩ := e5 a b i j ha hb hi hj y1 y2 x1 x2
  have hY' : Y[i] < Y[i + 1] := sorted_lt hY (Nat.lt_succ_self i) hi
  have hX' : X[j] < X[j + 1] := sorted_lt hX (Nat.lt_succ_self j) hj
  have gY : ∀ k (h : k < Y.length), Y.getD k 0 = Y[k] := fun k h => getD_of_lt Y 0 h
  have gX : ∀ k (h : k < X.length), X.getD k 0 = X[k] := fun k h => getD_of_lt X 0 h
  have ep : bilinPoint Y X lons lats i j fy[a] fx[b] = cellMean 6370997 (entries lons) (entries lats) i j
      ((fy[a] - Y[i]) / (Y[i + 1] - Y[i])) ((fx[b] - X[j]) / (X[j + 1] - X[j])) := by
    simp only [bilinPoint, bilin, cellMean, bilinear, entries, gY i (by omega), gY (i + 1) hi, gX j (by omega), gX (j + 1) hj]
  obtain ⟨A, B, hAB, hA, hB⟩ := C94_cell 6370997 e (by norm_num) he0 he4 (entries lons) (entries lats) i j
    ((fy[a] - Y[i]) / (Y[i + 1] - Y[i])) ((fx[b] - X[j]) / (X[j + 1] - X[j]))
    (div_nonneg (by linarith) (by linarith)) (by rw [div_le_one (by linarith)]; linarith)
    (div_nonneg (by linarith) (by linarith)) (by rw [div_le_one (by linarith)]; linarith) hcell
  rw [ep, hAB] at k1 k2
  exact ⟨A, B, k1, k2, hA, hB⟩

/-- **C94 (simple MODIS)**: a fine pixel of the simple MODIS interpolation between tie rows `a`, `a + 1` of its scan and tie columns `b`,
`b + 1`, in a cell of `e ≤ 4` degrees, is within `e² / 24` degrees of the bilinear interpolations of the longitudes and of the latitudes
at its place: row `(j + 1/2)/f - 1/2` of the scan and column `i/f`. -/
theorem C94_simple (c : SConv) (n C : Nat) (hC : 2 ≤ C) (lon lat : Nat → Nat → ℝ) (junk : Nat → Nat → Nat → Nat → FP ℝ) :
    ∃ out, c.run Verif.ModisSimple.mcLinear ⟨n * 10, C, fun i j => val (lon i j)⟩ ⟨n * 10, C, fun i j => val (lat i j)⟩ junk = .ok out ∧
      ∀ s < n, ∀ j < 10 * c.factor, ∀ i < C * c.factor, ∀ a b : ℕ, a + 1 < 10 → b + 1 < C → ∀ t x : ℝ,
        ((j : ℝ) + 1 / 2) / c.factor - 1 / 2 = a + t → (i : ℝ) / c.factor = b + x → 0 ≤ t → t ≤ 1 → 0 ≤ x → x ≤ 1 →
        ∀ e, 0 ≤ e → e ≤ 4 → CellDegrees e lon lat (s * 10 + a) b →
        ∃ A B, out.1.cell (s * (10 * c.factor) + j) i = val A ∧ out.2.cell (s * (10 * c.factor) + j) i = val B ∧
          |A - bilinear lon (s * 10 + a) b t x| ≤ e ^ 2 / 24 ∧ |B - bilinear lat (s * 10 + a) b t x| ≤ e ^ 2 / 24 := by
  obtain ⟨out, h1, h2⟩ := C36_bilinear c n C hC lon lat junk
  refine ⟨out, h1, ?_⟩
  intro s hs j hj i hi a b ha hb t x ht hx t0 t1 x0 x1 e he0 he4 hcell
  have h3 := h2 s j i hs hj hi
  rw [ht, hx] at h3
  have ext : ∀ V : Nat → Nat → ℝ, bilinExt 10 C (fun p q => V (s * 10 + p) q) (a + t) (b + x) = bilinear V (s * 10 + a) b t x := by
    intro V
    unfold bilinExt
    rw [lin1_cell (c := a) _ (by omega) (Or.inr (by linarith)) (Or.inr (by linarith))]
    rw [lin1_cell (c := b) _ (by omega) (Or.inr (by linarith)) (Or.inr (by linarith))]
    rw [lin1_cell (c := b) _ (by omega) (Or.inr (by linarith)) (Or.inr (by linarith))]
    simp only [bilinear, add_sub_cancel_left, Nat.add_assoc]
  obtain ⟨A, B, hAB, hA, hB⟩ := C94_cell 6370997 e (by norm_num) he0 he4 lon lat (s * 10 + a) b t x t0 t1 x0 x1 hcell
  have hp : bilinLonLat C s lon lat (a + t) (b + x)
      = xyz2lonlat (val 6370997) (val (8 / 10)) true (pt (cellMean 6370997 lon lat (s * 10 + a) b t x)) := by
    unfold bilinLonLat
    rw [ext (tieR lon lat 0), ext (tieR lon lat 1), ext (tieR lon lat 2)]
    rw [← (C06_copies_agree 6370997 (8 / 10) _ (by norm_num)).1 true, Verif.Modis.earthRadius_val, cyThr_eq, Verif.Modis.defaultThr_val,
      show (4 / 5 : ℝ) = 8 / 10 by norm_num]
    unfold cellMean pt spherePoint tieR
    simp
  rw [hp, hAB] at h3
  obtain ⟨e1, e2⟩ := Prod.mk.inj h3
  exact ⟨A, B, e1, e2, hA, hB⟩

/-- longitudes 0, 90 and 90 -/
def wideLon : Nat → Nat → ℝ := fun _ l => if l = 0 then 0 else 90

/-- latitude 0, but `b` in the third column -/
def columnLat (b : ℝ) : Nat → Nat → ℝ := fun _ l => if l = 2 then b else 0

/-- **C94 (negation)**: a pixel is not a function of the ties of its cell. With the code's thresholds and the same four ties in the
first cell, a latitude of 80 instead of 0 in the third column moves the second pixel away from longitude 22.5. -/
theorem C94_negation : ∃ lo la lo' la' A,
    tiePointsGeoInterpolation (numArray ("y", "x") (1 * 2) 3 wideLon) (numArray ("y", "x") (1 * 2) 3 (columnLat 0)) 2 4
      (val 60) (val (8 / 10)) = .ok (lo, la) ∧
    tiePointsGeoInterpolation (numArray ("y", "x") (1 * 2) 3 wideLon) (numArray ("y", "x") (1 * 2) 3 (columnLat 80)) 2 4
      (val 60) (val (8 / 10)) = .ok (lo', la') ∧
    lo.at 0 1 = val 22.5 ∧ lo'.at 0 1 = val A ∧ A ≠ 22.5 := by
  obtain ⟨lo, la, h1, h2⟩ := C42_direct 1 2 4 3 (by omega) (by omega) (by omega) (by omega) ("y", "x") wideLon (columnLat 0) 60 (8 / 10)
    (by intro i _ j _; simp [columnLat])
    (by intro i _ j _ i' _ j' _; simp only [wideLon]; split <;> split <;> norm_num)
  obtain ⟨lo', la', h1', h2'⟩ := C42_cartesian 1 2 4 3 (by omega) (by omega) (by omega) (by omega) ("y", "x") wideLon (columnLat 80) 60
    (8 / 10) (Or.inl ⟨0, by omega, 2, by omega, by norm_num [columnLat]⟩)
  have a1 := (h2 0 (by omega) 0 (by omega) 0 (by omega) 0 (by omega) 1 (by omega)).1
  have a2 := h2' 0 (by omega) 0 (by omega) 0 (by omega) 0 (by omega) 1 (by omega)
  have q : chordPoint (spherePoint viiRadius 0 0) (spherePoint viiRadius 90 0) (1 / 4)
      = cellMean viiRadius wideLon (columnLat 80) (0 * 2 + 0) 0 (((0 : ℕ) : ℝ) / ((4 : ℕ) : ℝ)) (((1 : ℕ) : ℝ) / ((4 : ℕ) : ℝ)) := by
    simp only [cellMean, bilinear, chordPoint, wideLon, columnLat]
    norm_num
  obtain ⟨A, hA, hne⟩ := C93_uniform_false viiRadius viiRadius_pos _ rfl
  rw [q] at hA
  rw [← (C06_copies_agree viiRadius (8 / 10) _ viiRadius_pos).2] at hA
  refine ⟨lo, la, lo', la', A, h1, h1', ?_, ?_, hne⟩
  · simp only [bilinear, wideLon] at a1
    norm_num at a1 ⊢
    exact a1
  · have := congrArg Prod.fst a2
    simp only at this
    norm_num at this ⊢
    rw [this, ← hA]
    simp only [cellMean, pt]
    norm_num

/-- a cell of ties one degree apart, in an array that reaches beyond 60 degrees of latitude further on -/
private theorem sample_cell : CellDegrees 1 (fun _ j => 10 + j) (fun i j => 40 + i + if j < 5 then 0 else 30) (0 * 2 + 0) 0 := by
  constructor
  · intro a ha b hb
    interval_cases a <;> interval_cases b <;> norm_num [abs_of_pos]
  · intro a ha b hb a' ha' b' hb'
    interval_cases a <;> interval_cases b <;> interval_cases a' <;> interval_cases b' <;> norm_num

/-- interpolated in cartesian coordinates, because of the latitude 70 -/
example : ∃ lo la, tiePointsGeoInterpolation (numArray ("y", "x") (1 * 2) 8 fun _ j => (10 + j : ℝ))
      (numArray ("y", "x") (1 * 2) 8 fun i j => 40 + i + if j < 5 then 0 else 30) 2 8 (val 60) (val (8 / 10)) = .ok (lo, la) ∧
    ∃ A B : ℝ, lo.at 3 5 = val A ∧ la.at 3 5 = val B ∧ |A - 10.625| ≤ 1 / 24 ∧ |B - 40.375| ≤ 1 / 24 := by
  obtain ⟨lo, la, h1, h2⟩ := C94_vii 1 2 8 8 (by omega) (by omega) (by omega) (by omega) ("y", "x") (fun _ j => 10 + j)
    (fun i j => 40 + i + if j < 5 then 0 else 30) 60
  obtain ⟨A, B, e1, e2, ha, hb⟩ := h2 0 (by omega) 0 (by omega) 3 (by omega) 0 (by omega) 5 (by omega) 1 (by norm_num) (by norm_num)
    sample_cell
  refine ⟨lo, la, h1, A, B, by simpa using e1, by simpa using e2, ?_, ?_⟩
  · norm_num [bilinear] at ha ⊢; exact ha
  · norm_num [bilinear] at hb ⊢; exact hb

/-- the same cell, further right in an array near the equator and the same longitudes -/
example := C94_local 1 1 2 2 8 8 3 (by omega) (by omega) (by omega) (by omega) (by omega) (by omega) (by omega) ("y", "x") ("y", "x")
  (fun _ j => 10 + j) (fun i j => 40 + i + if j < 5 then 0 else 30) (fun _ j => 9 + j) (fun i _ => 40 + i) 60 60

/-- the centre of a cell of two degrees -/
example (tok : TokIn Unit (FP ℝ) → Nat) : ∃ is lo la, mkGeo (singleGrid (fun _ => linearKernel) true none ([0, 10].map val) ([0, 8].map val))
      [.array (vals [[-1, 1], [-1, 1]]), .array (vals [[52, 52], [50, 50]])] = .ok is ∧
    interpolateGeo tok is [[5].map val, [4].map val] none () = .ok (lo, la) ∧
    ∃ A B : ℝ, el (row lo 0) 0 = val A ∧ el (row la 0) 0 = val B ∧ |A| ≤ 1 / 6 ∧ |B - 51| ≤ 1 / 6 := by
  obtain ⟨is, lo, la, e1, e2, _, _, e5⟩ := C94_grid tok true none [0, 10] [0, 8] (by norm_num) (by norm_num) (by simp) (by simp)
    [[-1, 1], [-1, 1]] [[52, 52], [50, 50]] ⟨rfl, by simp⟩ ⟨rfl, by simp⟩ [5] [4] (by
      intro _
      constructor <;> intro y hy _ <;> simp only [List.mem_cons, List.not_mem_nil, or_false] at hy <;> rw [hy] <;> norm_num)
  obtain ⟨A, B, k1, k2, k3, k4⟩ := e5 2 0 0 0 0 (by norm_num) (by norm_num) (by simp) (by simp) (by simp) (by simp)
    (by norm_num) (by norm_num) (by norm_num) (by norm_num) (by
      constructor
      · intro a ha b hb
        interval_cases a <;> interval_cases b <;> norm_num [entries, abs_of_pos]
      · intro a ha b hb a' ha' b' hb'
        interval_cases a <;> interval_cases b <;> interval_cases a' <;> interval_cases b' <;> norm_num [entries, abs_of_pos])
  refine ⟨is, lo, la, e1, e2, A, B, k1, k2, ?_, ?_⟩
  · norm_num [bilinear, entries] at k3 ⊢; exact k3
  · norm_num [bilinear, entries] at k4 ⊢; exact k4

/-- a pixel between four ties a tenth of a degree apart -/
example (junk : Nat → Nat → Nat → Nat → FP ℝ) :
    ∃ out, SConv.km1to500.run Verif.ModisSimple.mcLinear ⟨1 * 10, 3, fun _ j => val (20 + j / 10)⟩
        ⟨1 * 10, 3, fun i _ => val (50 - i / 10)⟩ junk = .ok out ∧
      ∃ A B : ℝ, out.1.cell (0 * (10 * 2) + 5) 3 = val A ∧ out.2.cell (0 * (10 * 2) + 5) 3 = val B ∧
        |A - 20.15| ≤ 0.1 ^ 2 / 24 ∧ |B - 49.775| ≤ 0.1 ^ 2 / 24 := by
  obtain ⟨out, h1, h2⟩ := C94_simple .km1to500 1 3 (by omega) (fun _ j => 20 + j / 10) (fun i _ => 50 - i / 10) junk
  have h : CellDegrees 0.1 (fun _ j => 20 + (j : ℝ) / 10) (fun i _ => 50 - (i : ℝ) / 10) (0 * 10 + 2) 1 := by
    constructor
    · intro a ha b hb
      interval_cases a <;> interval_cases b <;> norm_num [abs_of_pos]
    · intro a ha b hb a' ha' b' hb'
      interval_cases a <;> interval_cases b <;> interval_cases a' <;> interval_cases b' <;> norm_num [abs_of_pos]
  obtain ⟨A, B, e1, e2, hA, hB⟩ := h2 0 (by omega) 5 (by decide) 3 (by decide) 2 1 (by omega) (by omega) (1 / 4) (1 / 2)
    (by norm_num [SConv.factor]) (by norm_num [SConv.factor]) (by norm_num) (by norm_num) (by norm_num) (by norm_num)
    0.1 (by norm_num) (by norm_num) h
  refine ⟨out, h1, A, B, e1, e2, ?_, ?_⟩
  · norm_num [bilinear] at hA ⊢; exact hA
  · norm_num [bilinear] at hB ⊢; exact hB

example := C94_cell 1 1 (by norm_num) (by norm_num) (by norm_num) (fun _ j => 10 + j) (fun i j => 40 + i + if j < 5 then 0 else 30) _ _ (3 / 8) (5 / 8)
  (by norm_num) (by norm_num) (by norm_num) (by norm_num) sample_cell

end Verif.Props
