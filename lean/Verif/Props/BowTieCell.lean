import Verif.Props.BowTie
import Verif.Proofs.RowHit
import Mathlib.Analysis.SpecialFunctions.Complex.Arg

/-!
# C109: where the zenith-angle MODIS interpolator places the pixels of a cell, in space

Four tie points are seen along lines of sight half a row spacing on either side of the plane of the scan, at two scan angles.  A pixel
between them is seen along its own line of sight.  The point that the code makes of the four tie points (`_modis_interpolator.pyx`,
the weights with both coefficients and the bilinear sum) is compared with the point seen.
-/

namespace Verif.Props
open Verif Verif.Modis Verif.Spec.Modis Verif.Geo Verif.Spec FP Real

private theorem sq_le_of {η : ℝ} (h : |η| ≤ 0.001) : η ^ 2 ≤ 0.000001 := by
  rw [← sq_abs]
  calc _ ≤ (0.001 : ℝ) ^ 2 := pow_le_pow_left₀ (abs_nonneg _) h 2
    _ = _ := by norm_num

private theorem track_weight {T U : ℝ} (hU : 1 ≤ U) (hT : (2 * T - 1) ^ 2 ≤ U) : |T * (1 - T)| ≤ U / 4 := by
  have e : T * (1 - T) = (1 - (2 * T - 1) ^ 2) / 4 := by ring
  have := sq_nonneg (2 * T - 1)
  rw [e, abs_le]
  constructor <;> linarith

private theorem track_abs {u U : ℝ} (hU : 1 ≤ U) (hT : u ^ 2 ≤ U) (hU7 : U ≤ 7.3) : |u| ≤ 2.71 ∧ |u| ≤ U := by
  constructor
  · apply abs_le_of_sq_le_sq _ (by norm_num)
    norm_num
    linarith
  · apply abs_le_of_sq_le_sq _ (by linarith)
    nlinarith

private theorem track_small {u U η : ℝ} (hU : 1 ≤ U) (hT : u ^ 2 ≤ U) (hU7 : U ≤ 7.3) (hη : |η| ≤ 0.001) :
    |u * η| ≤ 0.003 ∧ (u * η) ^ 2 ≤ U * η ^ 2 ∧ (u * η) ^ 4 ≤ 7.3 * (U * η ^ 4) := by
  have hU0 : 0 ≤ U := by linarith
  have h4 : 0 ≤ η ^ 4 := by positivity
  refine ⟨?_, ?_, ?_⟩
  · rw [abs_mul]
    have := mul_le_mul (track_abs hU hT hU7).1 hη (abs_nonneg _) (by norm_num)
    linarith
  · rw [mul_pow]
    exact mul_le_mul_of_nonneg_right hT (sq_nonneg η)
  · have g := pow_le_pow_left₀ (sq_nonneg u) hT 2
    calc (u * η) ^ 4 = (u ^ 2) ^ 2 * η ^ 4 := by ring
      _ ≤ U ^ 2 * η ^ 4 := mul_le_mul_of_nonneg_right g h4
      _ = U * (U * η ^ 4) := by ring
      _ ≤ _ := mul_le_mul_of_nonneg_right hU7 (by positivity)

private theorem root_ratio {m x y : ℝ} (m0 : 0 < m) (m1 : m ≤ 1) (x0 : 0 ≤ x) (x1 : x ≤ 1) (h : x ≤ y) : 1 - y ≤ √(1 - x) / m := by
  rw [le_div_iff₀ m0]
  have g1 : 1 - x ≤ √(1 - x) := by
    apply le_sqrt_of_sq_le
    nlinarith
  rcases le_total 0 (1 - y) with g | g <;> nlinarith

private theorem abs_pair {x W : ℝ} (hW : 1 ≤ W) (h : |2 * x - 1| ≤ W) : |1 - x| + |x| ≤ W := by
  rw [abs_le] at h
  rcases abs_cases (1 - x) with ⟨e, -⟩ | ⟨e, -⟩ <;> rcases abs_cases x with ⟨e', -⟩ | ⟨e', -⟩ <;> rw [e, e'] <;> linarith [h.1, h.2]

/-- the weights along the scan -/
private theorem weight_abs {S S0 T ca U W : ℝ} (hU : 1 ≤ U) (hT : (2 * T - 1) ^ 2 ≤ U) (hW : 1 ≤ W) (hS : |2 * S0 - 1| ≤ W)
    (eS : S = S0 + T * (1 - T) * ca) : |1 - S| + |S| ≤ W + U * |ca| / 2 := by
  have g3 := mul_le_mul_of_nonneg_right (track_weight hU hT) (abs_nonneg ca)
  rw [← abs_mul] at g3
  have g0 := abs_pair hW hS
  have g1 : |1 - S| ≤ |1 - S0| + |T * (1 - T) * ca| := by
    rw [eS, show 1 - (S0 + T * (1 - T) * ca) = (1 - S0) + -(T * (1 - T) * ca) by ring]
    refine (abs_add_le _ _).trans ?_
    rw [abs_neg]
  have g2 : |S| ≤ |S0| + |T * (1 - T) * ca| := by
    rw [eS]
    exact abs_add_le _ _
  linarith

/-- the angles: the first-order part of the shift cancels against the alignment term -/
private theorem angle_core {θa θb θ S0 S T U W G ca η h A B M Q X Y D : ℝ} (hU : 1 ≤ U) (hT : (2 * T - 1) ^ 2 ≤ U) (hW : 1 ≤ W)
    (hS : |2 * S0 - 1| ≤ W) (h0 : 0 ≤ h) (eS : S = S0 + T * (1 - T) * ca) (hcub : |θa + S0 * (θb - θa) - θ| ≤ G)
    (hca : ca * (θa - θb) = 4 * X) (hcah : |ca| * h ≤ 56 * η ^ 2)
    (hA : |A - M| ≤ 24 * η ^ 2 * (h / 2)) (hB : |B - M| ≤ 24 * η ^ 2 * (h / 2)) (hM : |M - X| ≤ 1.6 * η ^ 4)
    (hQ : |Q - D| ≤ 11.7 * (U * η ^ 4)) (hD : |D - (2 * T - 1) ^ 2 * Y| ≤ 23 * (U * η ^ 4)) (hY : |Y - X| ≤ 6.4 * η ^ 2 * (1.8 * (W / 2 * h))) :
    |(θa + A) + S * ((θb + B) - (θa + A)) - (θ + Q)| ≤ G + 18 * (U * η ^ 2 * (W * h)) + 375 * (U * η ^ 4) := by
  have e : (θa + A) + S * ((θb + B) - (θa + A)) - (θ + Q)
      = (θa + S0 * (θb - θa) - θ) + ((1 - S) * (A - M) + S * (B - M)) + ((M - X) - (Q - D) - (D - (2 * T - 1) ^ 2 * Y) - (2 * T - 1) ^ 2 * (Y - X)) := by
    rw [eS]; linear_combination (-(T * (1 - T))) * hca
  rw [e]
  have hU0 : 0 ≤ U := by linarith
  have hW0 : 0 ≤ W := by linarith
  have hη := sq_nonneg η
  have hsum := weight_abs hU hT hW hS eS
  have t1 : |(1 - S) * (A - M) + S * (B - M)| ≤ 12 * (η ^ 2 * (W * h)) + 336 * (U * η ^ 4) := by
    refine (abs_add_le _ _).trans ?_
    rw [abs_mul, abs_mul]
    have g1 := mul_le_mul_of_nonneg_left hA (abs_nonneg (1 - S))
    have g2 := mul_le_mul_of_nonneg_left hB (abs_nonneg S)
    have g3 := mul_le_mul_of_nonneg_right hsum (show 0 ≤ 24 * η ^ 2 * (h / 2) by positivity)
    have g4 := mul_le_mul_of_nonneg_left hcah (show 0 ≤ 6 * U * η ^ 2 by positivity)
    have e4 : 6 * U * η ^ 2 * (56 * η ^ 2) = 336 * (U * η ^ 4) := by ring
    rw [e4] at g4
    linarith
  have t2 : |(2 * T - 1) ^ 2 * (Y - X)| ≤ 5.76 * (U * η ^ 2 * (W * h)) := by
    rw [abs_mul, abs_of_nonneg (sq_nonneg _)]
    calc _ ≤ U * (6.4 * η ^ 2 * (1.8 * (W / 2 * h))) := mul_le_mul hT hY (abs_nonneg _) hU0
      _ = _ := by ring
  have g8 : 0 ≤ η ^ 2 * (W * h) := by positivity
  have g5 : η ^ 2 * (W * h) ≤ U * η ^ 2 * (W * h) := by
    rw [mul_assoc U]
    exact le_mul_of_one_le_left g8 hU
  have g6 : η ^ 4 ≤ U * η ^ 4 := le_mul_of_one_le_left (by positivity) hU
  have g7 : 0 ≤ η ^ 4 := by positivity
  rw [abs_le] at *
  constructor <;> linarith [hcub.1, hcub.2, t1.1, t1.2, t2.1, t2.2, hM.1, hM.2, hQ.1, hQ.2, hD.1, hD.2]

/-- from the angles to the points: `m` and `n` are the radii of the circles of the tie points and of the pixel -/
private theorem point_core {x y S Θ h d η m n E U : ℝ} (h0 : 0 ≤ h) (h9 : h ≤ 0.09) (hd1 : d ≤ 0.072) (hη : |η| ≤ 0.001) (hU : 1 ≤ U) (hU7 : U ≤ 7.3)
    (hm : 0.999 ≤ m) (hn0 : 0.999 ≤ n) (hn : n ≤ 1)
    (hnm : n / m ≤ 1 + η ^ 2) (hnl : 1 - U * η ^ 2 ≤ n / m) (hk : |(y - x) / 2| ≤ 0.4005 * h) (hu : |(2 * S - 1) * ((y - x) / 2)| ≤ 0.4005 * h + 11.3 * (U * η ^ 2))
    (hkd : |(y - x) / 2| ≤ 0.501 * d) (hud : |(2 * S - 1) * ((y - x) / 2)| ≤ 0.501 * d + 1.7 * (U * η ^ 2))
    (hE : |x + S * (y - x) - Θ| ≤ E) :
    ∃ lam, 0 < lam ∧ |lam * (m * ((1 - S) * sin x + S * sin y)) - n * sin Θ| ≤ E + (0.2 * h ^ 3 + U * η ^ 2 * h + U * η ^ 4) ∧
      |lam * (m * ((1 - S) * cos x + S * cos y)) - n * cos Θ| ≤ E + (0.2 * h ^ 3 + U * η ^ 2 * h + U * η ^ 4) ∧
      |lam - 1| ≤ 0.15 * d ^ 2 + 1.2 * (U * η ^ 2) := by
  have hη2 := sq_le_of hη
  have hη0 := sq_nonneg η
  have hU0 : 0 ≤ U := by linarith
  have hUη : U * η ^ 2 ≤ 0.0000073 := by
    have := mul_le_mul hU7 hη2 hη0 (by norm_num)
    linarith
  have hUη0 : 0 ≤ U * η ^ 2 := by positivity
  have hUη1 : η ^ 2 ≤ U * η ^ 2 := le_mul_of_one_le_left hη0 hU
  obtain ⟨z, ez⟩ : ∃ z, z = |(2 * S - 1) * ((y - x) / 2)| := ⟨_, rfl⟩
  have hz0 : 0 ≤ z := by rw [ez]; exact abs_nonneg _
  have ez2 : ((2 * S - 1) * ((y - x) / 2)) ^ 2 = z ^ 2 := by rw [ez, sq_abs]
  obtain ⟨β, ρ, hρ, e1, e2, e3, e4, e5⟩ := chord_wide (x := x) (y := y) (t := S) (by linarith) (by linarith)
  rw [ez2] at e5
  rw [← ez] at hu hud e3
  have hk2 : ((y - x) / 2) ^ 2 ≤ 0.1605 * h ^ 2 := by
    rw [← sq_abs]
    calc _ ≤ (0.4005 * h) ^ 2 := pow_le_pow_left₀ (abs_nonneg _) hk 2
      _ ≤ _ := by rw [mul_pow]; exact mul_le_mul_of_nonneg_right (by norm_num) (sq_nonneg h)
  obtain ⟨v, ev⟩ : ∃ v, v = 11.3 * (U * η ^ 2) := ⟨_, rfl⟩
  have hv0 : 0 ≤ v := by rw [ev]; positivity
  have hv1 : v ≤ 0.0000825 := by rw [ev]; linarith
  rw [← ev] at hu
  have hz3 : z ^ 3 ≤ (0.4005 * h + v) ^ 3 := pow_le_pow_left₀ hz0 hu 3
  have hz3' : (0.4005 * h + v) ^ 3 ≤ 0.0644 * h ^ 3 + 0.06 * (v * h) + 0.0000825 * v ^ 2 := by
    have e : (0.4005 * h + v) ^ 3 = 0.4005 ^ 3 * h ^ 3 + (3 * 0.4005 ^ 2 * h + 3 * 0.4005 * v) * (v * h) + v * v ^ 2 := by ring
    rw [e]
    have g1 : (0.4005 : ℝ) ^ 3 * h ^ 3 ≤ 0.0644 * h ^ 3 := mul_le_mul_of_nonneg_right (by norm_num) (by positivity)
    have g2 : (3 * 0.4005 ^ 2 * h + 3 * 0.4005 * v) * (v * h) ≤ 0.06 * (v * h) := mul_le_mul_of_nonneg_right (by norm_num; linarith) (by positivity)
    have g3 : v * v ^ 2 ≤ 0.0000825 * v ^ 2 := mul_le_mul_of_nonneg_right hv1 (sq_nonneg v)
    linarith
  have hzk : z * ((y - x) / 2) ^ 2 ≤ (0.4005 * h + v) * (0.1605 * h ^ 2) := mul_le_mul hu hk2 (sq_nonneg _) (by positivity)
  have hβ : |β - (x + S * (y - x))| ≤ 0.2 * h ^ 3 + U * η ^ 2 * h + U * η ^ 4 := by
    refine e3.trans ?_
    have g1 : v * h ^ 2 ≤ 0.09 * (v * h) := by
      have := mul_le_mul_of_nonneg_left h9 (show 0 ≤ v * h by positivity)
      linarith
    have g2 : v * h = 11.3 * (U * η ^ 2 * h) := by rw [ev]; ring
    have g6 : 0 ≤ U * η ^ 4 := by positivity
    have g3 : v ^ 2 ≤ 933 * (U * η ^ 4) := by
      have e : v ^ 2 = 127.69 * (U * (U * η ^ 4)) := by rw [ev]; ring
      have := mul_le_mul_of_nonneg_right hU7 g6
      rw [e]
      linarith
    have g4 : 0 ≤ h ^ 3 := by positivity
    have g5 : 0 ≤ U * η ^ 2 * h := by positivity
    have g7 : (0.4005 * h + v) * (0.1605 * h ^ 2) = 0.06428025 * h ^ 3 + 0.1605 * (v * h ^ 2) := by ring
    rw [g7] at hzk
    linarith
  have hmp : 0 < m := by linarith
  have hlam : n / (m * ρ) = n / m * (1 / ρ) := by field_simp
  have hρ' : 0 < 1 / ρ := by positivity
  have hΘ : |β - Θ| ≤ E + (0.2 * h ^ 3 + U * η ^ 2 * h + U * η ^ 4) := by
    have := abs_add_le (β - (x + S * (y - x))) (x + S * (y - x) - Θ)
    rw [sub_add_sub_cancel] at this
    linarith
  refine ⟨n / (m * ρ), div_pos (by linarith) (mul_pos hmp hρ), ?_, ?_, ?_⟩
  · rw [e1, show n / (m * ρ) * (m * (ρ * sin β)) - n * sin Θ = n * (sin β - sin Θ) by field_simp, abs_mul, abs_of_pos (by linarith : 0 < n)]
    have := abs_sin_sub_sin_le β Θ
    have g := mul_le_mul hn this (abs_nonneg _) zero_le_one
    linarith
  · rw [e2, show n / (m * ρ) * (m * (ρ * cos β)) - n * cos Θ = n * (cos β - cos Θ) by field_simp, abs_mul, abs_of_pos (by linarith : 0 < n)]
    have := abs_cos_sub_cos_le β Θ
    have g := mul_le_mul hn this (abs_nonneg _) zero_le_one
    linarith
  · rw [hlam]
    have up : n / m * (1 / ρ) ≤ (1 + η ^ 2) * (1 + 0.51 * ((y - x) / 2) ^ 2) := mul_le_mul hnm e4 hρ'.le (by positivity)
    have lo : (1 - U * η ^ 2) * (1 / ρ) ≤ n / m * (1 / ρ) := mul_le_mul_of_nonneg_right hnl hρ'.le
    have hz2 : z ^ 2 ≤ (0.501 * d + 1.7 * (U * η ^ 2)) ^ 2 := pow_le_pow_left₀ hz0 hud 2
    have hz2' : (0.501 * d + 1.7 * (U * η ^ 2)) ^ 2 ≤ 0.251001 * d ^ 2 + 0.13 * (U * η ^ 2) := by
      have g1 : d * (U * η ^ 2) ≤ 0.072 * (U * η ^ 2) := mul_le_mul_of_nonneg_right hd1 hUη0
      have g2 : U * η ^ 2 * (U * η ^ 2) ≤ 0.0000073 * (U * η ^ 2) := mul_le_mul_of_nonneg_right hUη hUη0
      have e : (0.501 * d + 1.7 * (U * η ^ 2)) ^ 2 = 0.251001 * d ^ 2 + 1.7034 * (d * (U * η ^ 2)) + 2.89 * (U * η ^ 2 * (U * η ^ 2)) := by ring
      rw [e]
      linarith
    have hkd2 : ((y - x) / 2) ^ 2 ≤ 0.251001 * d ^ 2 := by
      rw [← sq_abs]
      calc _ ≤ (0.501 * d) ^ 2 := pow_le_pow_left₀ (abs_nonneg _) hkd 2
        _ = _ := by ring
    have hh0 := sq_nonneg d
    have g2 := mul_le_mul_of_nonneg_left (show 0.51 * ((y - x) / 2) ^ 2 ≤ 0.13 * d ^ 2 by linarith) (show 0 ≤ 1 + η ^ 2 by positivity)
    have g3 : η ^ 2 * d ^ 2 ≤ 0.000001 * d ^ 2 := mul_le_mul_of_nonneg_right hη2 hh0
    have g4 : U * η ^ 2 * (1 / ρ) ≤ U * η ^ 2 * (1 + 0.13 * d ^ 2) := mul_le_mul_of_nonneg_left (by linarith) hUη0
    have g5 : U * η ^ 2 * d ^ 2 ≤ 0.0000073 * d ^ 2 := mul_le_mul_of_nonneg_right hUη hh0
    rw [abs_le]
    constructor <;> linarith

private theorem weight_core {S S0 T U W ca k h κ v : ℝ} (hU : 1 ≤ U) (hT : (2 * T - 1) ^ 2 ≤ U) (hW : 1 ≤ W) (hS : |2 * S0 - 1| ≤ W)
    (eS : S = S0 + T * (1 - T) * ca) (hκ : 0 ≤ κ) (hcah : |ca| * h ≤ v) (hk : |k| ≤ κ * h) :
    |(2 * S - 1) * k| ≤ κ * (W * h) + κ / 2 * (U * v) := by
  have g1 : |2 * S - 1| ≤ W + U * |ca| / 2 := by
    have g := weight_abs hU hT hW hS eS
    have g' := abs_add_le S (-(1 - S))
    rw [abs_neg, show S + -(1 - S) = 2 * S - 1 by ring] at g'
    linarith
  rw [abs_mul]
  have hU0 : 0 ≤ U := by linarith
  have g4 := mul_le_mul g1 hk (abs_nonneg _) (by positivity)
  have g5 := mul_le_mul_of_nonneg_left hcah (show 0 ≤ κ / 2 * U by positivity)
  linarith

private theorem weight_sum {S S0 T U W ca d v : ℝ} (hU : 1 ≤ U) (hT : (2 * T - 1) ^ 2 ≤ U) (hW : 1 ≤ W) (hS : |2 * S0 - 1| ≤ W)
    (eS : S = S0 + T * (1 - T) * ca) (hd : 0 < d) (hcad : |ca| * d ≤ 2 * v) : |S| + |1 - S| ≤ W + U * v / d := by
  have g := weight_abs hU hT hW hS eS
  have hU0 : 0 ≤ U := by linarith
  have g4 : U * |ca| / 2 ≤ U * v / d := by
    rw [le_div_iff₀ hd]
    have := mul_le_mul_of_nonneg_left hcad hU0
    linarith
  linarith

private theorem across_core {R m n lam S T U W C A B A' h η : ℝ} (hR : 0 < R) (h0 : 0 ≤ h) (hU : 1 ≤ U) (hW : 1 ≤ W)
    (H : |lam * (m * ((1 - S) * A + S * B)) - n * A'| ≤ 18 * C * h ^ 3 + 18 * (U * η ^ 2 * (W * h)) + 375 * (U * η ^ 4)
      + (0.2 * (W * h) ^ 3 + U * η ^ 2 * (W * h) + U * η ^ 4)) :
    |lam * ((1 - T) * ((1 - S) * (R * m * A) + S * (R * m * B)) + T * ((1 - S) * (R * m * A) + S * (R * m * B))) - R * n * A'|
      ≤ R * ((18 * C + 0.2 * W ^ 3) * h ^ 3 + 20 * U * W * η ^ 2 * h + 400 * U * η ^ 4) := by
  rw [show lam * ((1 - T) * ((1 - S) * (R * m * A) + S * (R * m * B)) + T * ((1 - S) * (R * m * A) + S * (R * m * B))) - R * n * A'
    = R * (lam * (m * ((1 - S) * A + S * B)) - n * A') by ring, abs_mul, abs_of_pos hR]
  refine mul_le_mul_of_nonneg_left (H.trans ?_) hR.le
  have g2 : 0 ≤ U * W * η ^ 2 * h := by positivity
  have g3 : 0 ≤ U * η ^ 4 := by positivity
  linarith

private theorem along_core {R lam S T U E η : ℝ} (hR : 0 < R) (d0 : 0 ≤ η) (hu : |2 * T - 1| ≤ U) (H : |lam - 1| ≤ E) :
    |lam * ((1 - T) * ((1 - S) * -(R * η) + S * -(R * η)) + T * ((1 - S) * (R * η) + S * (R * η))) - (2 * T - 1) * (R * η)|
      ≤ R * (U * η * E) := by
  rw [show lam * ((1 - T) * ((1 - S) * -(R * η) + S * -(R * η)) + T * ((1 - S) * (R * η) + S * (R * η))) - (2 * T - 1) * (R * η)
    = R * (η * ((2 * T - 1) * (lam - 1))) by ring, abs_mul, abs_of_pos hR, abs_mul η, abs_of_nonneg d0, abs_mul, mul_comm U, mul_assoc η]
  refine mul_le_mul_of_nonneg_left (mul_le_mul_of_nonneg_left ?_ d0) hR.le
  exact mul_le_mul hu H (abs_nonneg _) ((abs_nonneg _).trans hu)

/-- the sides of a cell along the scan -/
private theorem side_core {R m x y u d : ℝ} (m0 : 0 ≤ m) (m1 : m ≤ 1) (h : |(y - x) / 2| ≤ 0.501 * d) :
    distSq (R * m * sin x, u, R * m * cos x) (R * m * sin y, u, R * m * cos y) ≤ (R * (1.002 * d)) ^ 2 := by
  have e : distSq (R * m * sin x, u, R * m * cos x) (R * m * sin y, u, R * m * cos y) = R ^ 2 * (m ^ 2 * (2 * (1 - cos (y - x)))) := by
    simp only [distSq]
    rw [cos_sub]
    linear_combination (R * m) ^ 2 * (sin_sq_add_cos_sq x) + (R * m) ^ 2 * (sin_sq_add_cos_sq y)
  have h1 := one_sub_sq_div_two_le_cos (x := y - x)
  have h2 : (y - x) ^ 2 ≤ (1.002 * d) ^ 2 := by
    have g : |y - x| ≤ 1.002 * d := by
      rw [abs_div, abs_of_pos (by norm_num : (0:ℝ) < 2), div_le_iff₀ (by norm_num)] at h
      linarith
    rw [← sq_abs]
    exact pow_le_pow_left₀ (abs_nonneg _) g 2
  rw [e, mul_pow]
  refine mul_le_mul_of_nonneg_left ?_ (sq_nonneg R)
  have h3 := cos_le_one (y - x)
  have h4 : m ^ 2 ≤ 1 := pow_le_one₀ m0 m1
  calc _ ≤ 1 * (2 * (1 - cos (y - x))) := mul_le_mul_of_nonneg_right h4 (by linarith)
    _ ≤ _ := by linarith

/-- the weight along the scan from the expansion coefficient alone, and the scan angle of the pixel -/
private theorem scan_weight (w : Nat) (hw : w ≤ 5) {a b φa φb θa θb σ W θ ζ : ℝ} (ha : |a| ≤ 70) (hb : |b| ≤ 70) (h0 : ¬ (a = 0 ∧ b = 0))
    (hW : 1 ≤ W) (hg : W * |a - b| ≤ 5) (hσ : 0 ≤ σ ∧ σ ≤ 1 ∨ 1.13 * |2 * σ - 1| ≤ W ∧ |ζ| ≤ rad 70)
    (sa : Seen Rk Hk φa θa (rad a)) (sb : Seen Rk Hk φb θb (rad b)) (sp : Seen Rk Hk (φa + σ * (φb - φa)) θ ζ) :
    ∃ ce, (expansionAlignment w (val a : FP ℝ) (val b)).1 = val ce ∧
      |θa + (σ + σ * (1 - σ) * ce) * (θb - θa) - θ| ≤ 18 * |σ * (σ - 1 / 2) * (σ - 1)| * |φb - φa| ^ 3 ∧
      |2 * (σ + σ * (1 - σ) * ce) - 1| ≤ W ∧ |2 * σ - 1| ≤ W ∧ |φa + σ * (φb - φa)| ≤ mTop := by
  have hab := abs_nonneg (a - b)
  have hg5 : |a - b| ≤ 5 := by nlinarith
  by_cases hin : 0 ≤ σ ∧ σ ≤ 1
  · obtain ⟨s0, s1⟩ := hin
    obtain ⟨ce, -, -, e1, w0, w1, -, -, -, -⟩ := C104_cell w hw 1 (1, 0, 0) (0, 1, 0) ha hb h0 hg5 sa sb s0 s1 sp
    obtain ⟨ce', e1', hcub⟩ := C104_coefficient w hw ha hb h0 sa sb s0 s1 sp
    obtain rfl : ce = ce' := by rw [e1, FP.val.injEq] at e1'; exact e1'
    refine ⟨ce, e1, hcub, ?_, ?_, scan_between (seen_phi ha sa).2.2 (seen_phi hb sb).2.2 s0 s1⟩ <;> rw [abs_le] <;> constructor <;> linarith
  · obtain ⟨hw1, hζ⟩ := hσ.resolve_left hin
    obtain ⟨ce, e1, hcub⟩ := C104_beyond w hw ha hb h0 sa sb sp hζ
    obtain ⟨ce', e1', hce⟩ := C101_expansion w hw ha hb h0 (hg5.trans (by norm_num))
    obtain rfl : ce = ce' := by rw [e1, FP.val.injEq] at e1'; exact e1'
    obtain ⟨v, ev⟩ : ∃ v, v = |2 * σ - 1| := ⟨_, rfl⟩
    have hv : 0 ≤ v := by rw [ev]; exact abs_nonneg _
    have ev2 : (2 * σ - 1) ^ 2 = v ^ 2 := by rw [ev, sq_abs]
    have hv1 : 1 ≤ v := by
      rw [ev]
      by_contra hn
      push Not at hn
      have := abs_lt.1 hn
      exact hin ⟨by linarith [this.1], by linarith [this.2]⟩
    rw [← ev] at hw1
    refine ⟨ce, e1, hcub, ?_, by linarith, scan_view sp hζ⟩
    have hss : |4 * (σ * (1 - σ))| ≤ v ^ 2 := by
      rw [show 4 * (σ * (1 - σ)) = 1 - (2 * σ - 1) ^ 2 by ring, ev2, abs_le]
      constructor <;> nlinarith
    rw [show 2 * (σ + σ * (1 - σ) * ce) - 1 = (2 * σ - 1) + 4 * (σ * (1 - σ)) * ce / 2 by ring]
    refine (abs_add_le _ _).trans ?_
    rw [← ev, abs_div, abs_mul, abs_of_pos (by norm_num : (0:ℝ) < 2)]
    have g1 := mul_le_mul hss hce (abs_nonneg _) (by positivity)
    have g2 : 1.13 * v * |a - b| ≤ 5 := (mul_le_mul_of_nonneg_right hw1 hab).trans hg
    have g3 : v * (1.13 * v * |a - b|) ≤ v * 5 := mul_le_mul_of_nonneg_left g2 hv
    linarith

set_option maxHeartbeats 1000000 in
/-- **C109 (cell)**: rows of tie points `w` kilometres apart (at the nadir).  The four tie points of a cell are those that are seen at
the scan angles `φa` and `φb`, half the row spacing on either side of the plane of the scan; the code uses the zenith angles `a` and `b`
degrees for them, different, of at most 70 and at most 5 apart.  The pixel, the fractions `σ` and `T` of the way along the scan and along
the track, is seen at the point `q`.  Both may lie outside the cell: the first and the last rows and columns of a scan are extrapolated.
`U` is at least 1 and at least `(2 T - 1)²` (1 for a pixel between the rows; at most 7.3 for every row of every conversion).  `W` is 1 for
a pixel between the columns, otherwise at least `1.13 |2 σ - 1|` (less than 4 for every column of every conversion); then the zenith angle
of the pixel must be at most 70 degrees, too, and those of the tie points at most `5 / W` degrees apart.

The point that the code makes, with both coefficients in the weight `S` along the scan, is, up to its
distance from the centre (which the conversion to longitude and latitude ignores to second order, C91), near `q`:
with `h` the difference of the scan angles and `η` the half spacing in units of the radius, the differences across the track are at most
`(18 |σ (σ - 1/2) (σ - 1)| + 0.2 W³) h³ + 20 U W η² h + 400 U η⁴` radii (the factor of `h³` is less than 1.07 between the columns) and along
the track at most `U η (0.15 (W d)² + 1.2 U η²)` radii, where `d` is the angle between the tie points at the centre; the factor is within
`0.15 (W d)² + 1.2 U η²` of 1.  The weights along the scan, without their signs, add up to at most `W + 3.2 U η² / d`.  The sides of the
cell are at most `1.002 d` along the scan and `2 η` along the track.  The alignment coefficient is at most `6.3 η² / d`. -/
theorem C109_cell (w : Nat) (hw : w ≤ 5) {a b φa φb θa θb σ T U W θ ζ θm ζm : ℝ} (ha : |a| ≤ 70) (hb : |b| ≤ 70) (hne : a ≠ b) (hW : 1 ≤ W)
    (hg : W * |a - b| ≤ 5) (sa : Seen Rk Hk φa θa (rad a)) (sb : Seen Rk Hk φb θb (rad b))
    (hσ : 0 ≤ σ ∧ σ ≤ 1 ∨ 1.13 * |2 * σ - 1| ≤ W ∧ |ζ| ≤ rad 70) (hU : 1 ≤ U) (hT : (2 * T - 1) ^ 2 ≤ U) (hU7 : U ≤ 7.3)
    (sp : Seen Rk Hk (φa + σ * (φb - φa)) θ ζ) (sm : Seen Rk Hk ((φa + φb) / 2) θm ζm) {p00 p01 p10 p11 q : ℝ × ℝ × ℝ}
    (h00 : Hit Rk Hk φa (-halfWidth w θm) p00) (h01 : Hit Rk Hk φb (-halfWidth w θm) p01)
    (h10 : Hit Rk Hk φa (halfWidth w θm) p10) (h11 : Hit Rk Hk φb (halfWidth w θm) p11)
    (hq : Hit Rk Hk (φa + σ * (φb - φa)) ((2 * T - 1) * halfWidth w θm) q) :
    ∃ ce ca S lam, expansionAlignment w (val a : FP ℝ) (val b) = (val ce, val ca) ∧ S = σ + σ * (1 - σ) * ce + T * (1 - T) * ca ∧ 0 < lam ∧
      |S| + |1 - S| ≤ W + 3.2 * U * (halfWidth w θm / Rk) ^ 2 / |θb - θa| ∧ |lam - 1| ≤ 0.15 * (W * |θb - θa|) ^ 2 + 1.2 * U * (halfWidth w θm / Rk) ^ 2 ∧
      |lam * (chordPoint (chordPoint p00 p01 S) (chordPoint p10 p11 S) T).1 - q.1|
        ≤ Rk * ((18 * |σ * (σ - 1 / 2) * (σ - 1)| + 0.2 * W ^ 3) * |φb - φa| ^ 3 + 20 * U * W * (halfWidth w θm / Rk) ^ 2 * |φb - φa|
          + 400 * U * (halfWidth w θm / Rk) ^ 4) ∧
      |lam * (chordPoint (chordPoint p00 p01 S) (chordPoint p10 p11 S) T).2.1 - q.2.1|
        ≤ Rk * (U * (halfWidth w θm / Rk) * (0.15 * (W * |θb - θa|) ^ 2 + 1.2 * U * (halfWidth w θm / Rk) ^ 2)) ∧
      |lam * (chordPoint (chordPoint p00 p01 S) (chordPoint p10 p11 S) T).2.2 - q.2.2|
        ≤ Rk * ((18 * |σ * (σ - 1 / 2) * (σ - 1)| + 0.2 * W ^ 3) * |φb - φa| ^ 3 + 20 * U * W * (halfWidth w θm / Rk) ^ 2 * |φb - φa|
          + 400 * U * (halfWidth w θm / Rk) ^ 4) ∧
      distSq p00 p01 ≤ (Rk * (1.002 * |θb - θa|)) ^ 2 ∧ distSq p10 p11 ≤ (Rk * (1.002 * |θb - θa|)) ^ 2 ∧
      distSq p00 p10 ≤ (Rk * (2 * (halfWidth w θm / Rk))) ^ 2 ∧ distSq p01 p11 ≤ (Rk * (2 * (halfWidth w θm / Rk))) ^ 2 ∧
      |ca| * |θb - θa| ≤ 6.3 * (halfWidth w θm / Rk) ^ 2 := by
  have hR : (0 : ℝ) < Rk := Rk_pos
  have h0 : ¬ (a = 0 ∧ b = 0) := fun h => hne (h.1.trans h.2.symm)
  obtain ⟨ce, e1, hcub, hS, hσW, mσ⟩ := scan_weight w hw ha hb h0 hW hg hσ sa sb sp
  have hW0 : 0 ≤ W := by linarith
  obtain ⟨pa, ta, ma⟩ := seen_phi ha sa
  obtain ⟨pb, tb, mb⟩ := seen_phi hb sb
  have mm : |(φa + φb) / 2| ≤ mTop := by
    rw [abs_le] at *
    constructor <;> linarith [ma.1, ma.2, mb.1, mb.2]
  obtain ⟨-, d0, d1, cm⟩ := half_small w hw mm sm
  obtain ⟨zσ, tσ⟩ := seen_iff sp
  obtain ⟨zm, -⟩ := seen_iff sm
  obtain ⟨za, ta'⟩ := seen_iff sa
  obtain ⟨zb, tb'⟩ := seen_iff sb
  have cσ : 0.327 ≤ cos ζ := by rw [zσ]; exact cos_zetaR mσ
  have cca : 0.327 ≤ cos (rad a) := by rw [za]; exact cos_zetaR ma
  have ccb : 0.327 ≤ cos (rad b) := by rw [zb]; exact cos_zetaR mb
  -- the alignment coefficient
  obtain ⟨pm, hpm⟩ := hit_row w hw (u := 1) mm sm (by norm_num)
  rw [one_mul] at hpm
  obtain ⟨ca, f1, f2⟩ := C105_coefficient w hw ha hb hne sa sb sm hpm
  have hyη : ∀ u : ℝ, u * halfWidth w θm / Rk = u * (halfWidth w θm / Rk) := fun u => mul_div_assoc _ _ _
  obtain ⟨η, eη⟩ : ∃ η, η = halfWidth w θm / Rk := ⟨_, rfl⟩
  have ey : halfWidth w θm = Rk * η := by rw [eη]; field_simp
  rw [← eη] at d0 d1 ⊢
  have hη1 : |η| ≤ 0.001 := by rwa [abs_of_nonneg d0]
  have hη3 : |η| ≤ 0.003 := hη1.trans (by norm_num)
  have hη2 := sq_le_of hη1
  have hη0 := sq_nonneg η
  have hbm := hit_beyond sm hpm (by
    rw [← eη]
    have : (0.327 : ℝ) ^ 2 ≤ cos ζm ^ 2 := pow_le_pow_left₀ (by norm_num) cm 2
    norm_num at this
    linarith)
  rw [← eη] at hbm
  have hca : ca * (θa - θb) = 4 * rowX ζm η := by
    apply mul_right_cancel₀ hR.ne'
    rw [f2, hbm]; unfold rowX; ring
  -- the sizes
  obtain ⟨h, eh⟩ : ∃ h, h = |φb - φa| := ⟨_, rfl⟩
  have hh0 : 0 ≤ h := by rw [eh]; exact abs_nonneg _
  have hkb := kap_bounds
  have hk0 := kap_pos
  have hφ : W * h ≤ 0.09 := by
    have := phiR_lip (rad b) (rad a)
    rw [← pa, ← pb, ← eh] at this
    have h3 : |rad b - rad a| = |a - b| * (π / 180) := by
      unfold rad
      rw [← sub_mul, abs_mul, abs_of_pos (show (0 : ℝ) < π / 180 by positivity), abs_sub_comm]
    rw [h3] at this
    have hpi := pi_lt_d2
    have h5 : W * |a - b| * (π / 180) ≤ 5 * (π / 180) := mul_le_mul_of_nonneg_right hg (by positivity)
    have h4 : kap * (W * |a - b| * (π / 180)) ≤ 1 * (5 * (π / 180)) := mul_le_mul (by linarith) h5 (by positivity) (by norm_num)
    have h6 := mul_le_mul_of_nonneg_left this hW0
    linarith
  have hhW : h ≤ W * h := le_mul_of_one_le_left hh0 hW
  have hθlow : 0.111 * h ≤ |θa - θb| := by
    have g1 := theta_expand (rad a) (rad b)
    rw [← ta, ← tb] at g1
    have g2 := phiR_lip (rad a) (rad b)
    rw [← pa, ← pb, abs_sub_comm, ← eh] at g2
    have g3 : 0 ≤ |rad a - rad b| := abs_nonneg _
    nlinarith
  have hcad : |ca| * |θa - θb| ≤ 6.3 * η ^ 2 := by
    have g1 := congrArg abs hca
    rw [abs_mul, abs_mul, abs_of_pos (by norm_num : (0:ℝ) < 4)] at g1
    have g2 := rowX_le cm hη3
    linarith
  have hcah : |ca| * h ≤ 56 * η ^ 2 := by
    have g1 := congrArg abs hca
    rw [abs_mul, abs_mul, abs_of_pos (by norm_num : (0:ℝ) < 4)] at g1
    have g2 := rowX_le cm hη3
    have g3 := mul_le_mul_of_nonneg_left hθlow (abs_nonneg ca)
    linarith
  have hθup : |θb - θa| ≤ 0.8 * h := by
    have := zeta_sub_lip mb ma
    rwa [← tb', ← ta', ← eh] at this
  -- the shifts
  have zlip : ∀ {x y : ℝ}, |x| ≤ mTop → |y| ≤ mTop → |zetaR x - zetaR y| ≤ 1.8 * |x - y| := fun hx hy => zeta_lip hx hy
  have shift : ∀ {x y : ℝ}, |x| ≤ mTop → |y| ≤ mTop → |rowShift (zetaR x) η - rowShift (zetaR y) η| ≤ 24 * η ^ 2 * |x - y| := by
    intro x y hx hy
    have g1 := rowShift_lip (cos_zetaR hx) (cos_zetaR hy) hη3
    have g2 := mul_le_mul_of_nonneg_left (zlip hx hy) (show 0 ≤ 13 * η ^ 2 by positivity)
    have : 0 ≤ η ^ 2 * |x - y| := by positivity
    linarith
  have am : |φa - (φa + φb) / 2| = h / 2 := by
    rw [show φa - (φa + φb) / 2 = -((φb - φa) / 2) by ring, abs_neg, abs_div, ← eh, abs_of_pos (by norm_num : (0:ℝ) < 2)]
  have bm : |φb - (φa + φb) / 2| = h / 2 := by
    rw [show φb - (φa + φb) / 2 = (φb - φa) / 2 by ring, abs_div, ← eh, abs_of_pos (by norm_num : (0:ℝ) < 2)]
  have hA := shift ma mm
  have hB := shift mb mm
  have hAB := shift mb ma
  rw [am, ← za, ← zm] at hA
  rw [bm, ← zb, ← zm] at hB
  rw [← zb, ← za, ← eh] at hAB
  have hU0 : 0 ≤ U := by linarith
  obtain ⟨hu1, huU⟩ := track_abs hU hT hU7
  obtain ⟨huη, huη2, huη4⟩ := track_small hU hT hU7 hη1
  have hM := (rowShift_sin cm hη3).2.2
  have hQ := (rowShift_sin cσ huη).2.2
  have hD : |rowX ζ ((2 * T - 1) * η) - (2 * T - 1) ^ 2 * rowX ζ η| ≤ 23 * (U * η ^ 4) := by
    have key := extra_square' (c := cos ζ) (d := η) cσ hη1 hU hT hU7
    unfold rowX
    rw [← mul_assoc, ← sub_mul, abs_mul]
    calc _ ≤ 23 * U * η ^ 4 * 1 := mul_le_mul key (abs_sin_le_one ζ) (abs_nonneg _) (by positivity)
      _ = _ := by ring
  have hY : |rowX ζ η - rowX ζm η| ≤ 6.4 * η ^ 2 * (1.8 * (W / 2 * h)) := by
    refine (rowX_lip cσ cm hη3).trans (mul_le_mul_of_nonneg_left ?_ (by positivity))
    have g1 := zlip mσ mm
    rw [← zσ, ← zm] at g1
    have g2 : |φa + σ * (φb - φa) - (φa + φb) / 2| ≤ W / 2 * h := by
      rw [show φa + σ * (φb - φa) - (φa + φb) / 2 = (2 * σ - 1) / 2 * (φb - φa) by ring, abs_mul, ← eh]
      refine mul_le_mul_of_nonneg_right ?_ hh0
      rw [abs_div, abs_of_pos (by norm_num : (0:ℝ) < 2)]
      linarith
    linarith
  rw [← eh] at hcub
  obtain ⟨S, eS⟩ : ∃ S, S = σ + σ * (1 - σ) * ce + T * (1 - T) * ca := ⟨_, rfl⟩
  have hang := angle_core hU hT hW hS hh0 eS hcub hca hcah hA hB hM (hQ.trans (by
    have : 0 ≤ U * η ^ 4 := by positivity
    linarith)) hD hY
  -- the points
  obtain ⟨m1, m2, m3⟩ := root_bounds hη3
  obtain ⟨n1, n2, -⟩ := root_bounds huη
  have hnm : √(1 - ((2 * T - 1) * η) ^ 2) / √(1 - η ^ 2) ≤ 1 + η ^ 2 := by
    refine le_trans ?_ m3
    exact div_le_div_of_nonneg_right n2 (by linarith)
  have hnl : 1 - U * η ^ 2 ≤ √(1 - ((2 * T - 1) * η) ^ 2) / √(1 - η ^ 2) :=
    root_ratio (by linarith) m2 (by positivity) (huη2.trans (by
      have := mul_le_mul hU7 hη2 hη0 (by norm_num)
      linarith)) huη2
  have hk : |((θb + rowShift (rad b) η) - (θa + rowShift (rad a) η)) / 2| ≤ 0.4005 * h := by
    rw [abs_div, abs_of_pos (by norm_num : (0:ℝ) < 2), div_le_iff₀ (by norm_num)]
    rw [show (θb + rowShift (rad b) η) - (θa + rowShift (rad a) η) = (θb - θa) + (rowShift (rad b) η - rowShift (rad a) η) by ring]
    refine (abs_add_le _ _).trans ?_
    have := mul_le_mul_of_nonneg_right hη2 hh0
    linarith
  have hu : |(2 * S - 1) * (((θb + rowShift (rad b) η) - (θa + rowShift (rad a) η)) / 2)| ≤ 0.4005 * (W * h) + 11.3 * (U * η ^ 2) := by
    refine (weight_core hU hT hW hS eS (by norm_num) hcah hk).trans ?_
    have : 0 ≤ U * η ^ 2 := by positivity
    linarith
  have hkd : |((θb + rowShift (rad b) η) - (θa + rowShift (rad a) η)) / 2| ≤ 0.501 * |θa - θb| := by
    rw [abs_div, abs_of_pos (by norm_num : (0:ℝ) < 2), div_le_iff₀ (by norm_num)]
    rw [show (θb + rowShift (rad b) η) - (θa + rowShift (rad a) η) = (θb - θa) + (rowShift (rad b) η - rowShift (rad a) η) by ring]
    refine (abs_add_le _ _).trans ?_
    have := mul_le_mul_of_nonneg_right hη2 hh0
    rw [abs_sub_comm θb θa]
    linarith
  have hud := (weight_core hU hT hW hS eS (by norm_num) hcad hkd).trans (show _ ≤ 0.501 * (W * |θa - θb|) + 1.7 * (U * η ^ 2) by
    have : 0 ≤ U * η ^ 2 := by positivity
    linarith)
  have hdW : |θa - θb| ≤ W * |θa - θb| := le_mul_of_one_le_left (abs_nonneg _) hW
  have hd7 : W * |θa - θb| ≤ 0.072 := by
    have := mul_le_mul_of_nonneg_left hθup hW0
    rw [abs_sub_comm]
    linarith
  obtain ⟨lam, l0, l1, l2, l3⟩ := point_core (by positivity) hφ hd7 hη1 hU hU7 m1 n1 n2 hnm hnl (hk.trans (by linarith)) hu
    (hkd.trans (by linarith)) hud hang
  rw [abs_sub_comm θa θb, ← mul_assoc 1.2] at l3
  have hdpos : 0 < |θb - θa| := by
    rw [abs_sub_comm]
    refine lt_of_lt_of_le ?_ hθlow
    have : 0 < h := by
      rw [eh, abs_pos, sub_ne_zero]
      intro h'
      apply hne
      rw [h', ← za] at zb
      have := pi_pos
      exact mul_right_cancel₀ (by positivity : (π / 180) ≠ 0) zb.symm
    positivity
  have hsum := weight_sum hU hT hW hS eS hdpos (v := 3.2 * η ^ 2) (by rw [abs_sub_comm θb θa]; linarith)
  rw [show U * (3.2 * η ^ 2) = 3.2 * U * η ^ 2 by ring] at hsum
  -- the tie points and the pixel
  have yη : halfWidth w θm / Rk = η := eη.symm
  have f00 := hit_form sa cca h00 (by rw [neg_div, abs_neg, yη]; exact hη3)
  have f01 := hit_form sb ccb h01 (by rw [neg_div, abs_neg, yη]; exact hη3)
  have f10 := hit_form sa cca h10 (by rw [yη]; exact hη3)
  have f11 := hit_form sb ccb h11 (by rw [yη]; exact hη3)
  have fq := hit_form sp cσ hq (by rw [hyη, yη]; exact huη)
  have hneg : ∀ z, rowShift z (-η) = rowShift z η := by intro z; unfold rowShift rowX extra; rw [neg_sq]
  rw [neg_div, yη, neg_sq, hneg] at f00 f01
  rw [yη] at f10 f11
  rw [hyη, yη] at fq
  refine ⟨ce, ca, S, lam, Prod.ext e1 f1, eS, l0, hsum, l3, ?_, ?_, ?_, ?_, ?_, ?_, ?_, by rw [abs_sub_comm θb θa]; exact hcad⟩
  · rw [f00, f01, f10, f11, fq, ← eh]
    exact across_core hR hh0 hU hW l1
  · rw [f00, f01, f10, f11, fq, ey]
    exact along_core hR d0 huU l3
  · rw [f00, f01, f10, f11, fq, ← eh]
    exact across_core hR hh0 hU hW l2
  · rw [f00, f01, abs_sub_comm θb θa]
    exact side_core ((by norm_num : (0 : ℝ) ≤ 0.999).trans m1) m2 hkd
  · rw [f10, f11, abs_sub_comm θb θa]
    exact side_core ((by norm_num : (0 : ℝ) ≤ 0.999).trans m1) m2 hkd
  · rw [f00, f10, ey]
    exact le_of_eq (by simp only [distSq]; ring)
  · rw [f01, f11, ey]
    exact le_of_eq (by simp only [distSq]; ring)

private theorem phi_top' {a : ℝ} (ha : |a| ≤ 70) : |phiR (rad a)| ≤ mTop := by
  have := phiR_70 ((abs_sin_70 ha).trans (by norm_num)); linarith

private theorem seg_top {x y s : ℝ} (hx : |x| ≤ mTop) (hy : |y| ≤ mTop) (s0 : 0 ≤ s) (s1 : s ≤ 1) : |x + s * (y - x)| ≤ mTop := by
  rw [abs_le] at hx hy ⊢
  constructor <;> nlinarith [hx.1, hx.2, hy.1, hy.2]

/-- there are such tie points and such a pixel -/
theorem cell_seen (w : Nat) (hw : w ≤ 5) {φa φb θ : ℝ} (u : ℝ) (ma : |φa| ≤ mTop) (mb : |φb| ≤ mTop) (hu : |u| ≤ 2.7)
    (sm : Seen Rk Hk ((φa + φb) / 2) θ (zetaR ((φa + φb) / 2))) {φ : ℝ} (mφ : |φ| ≤ mTop) : ∃ p, Hit Rk Hk φ (u * halfWidth w θ) p := by
  have mm : |(φa + φb) / 2| ≤ mTop := by
    rw [abs_le] at *
    constructor <;> linarith [ma.1, ma.2, mb.1, mb.2]
  obtain ⟨-, d0, d1, -⟩ := half_small w hw mm sm
  apply hit_exists (seen_of mφ)
  have hc := cos_zetaR mφ
  have g1 : |u * halfWidth w θ / Rk| ≤ 0.003 := by
    rw [mul_div_assoc, abs_mul, abs_of_nonneg d0]
    have := mul_le_mul hu d1 d0 (by norm_num)
    linarith
  have g2 : (0.327 : ℝ) ^ 2 ≤ cos (zetaR φ) ^ 2 := pow_le_pow_left₀ (by norm_num) hc 2
  have g3 := pow_le_pow_left₀ (abs_nonneg _) g1 2
  rw [sq_abs] at g3
  norm_num at g2 g3
  linarith

/-- tie points 5 km apart with the zenith angles 60 and 61 degrees, a fifth of the way along the scan, two fifths along the track -/
example : ∃ θ ζ θm ζm p00 p01 p10 p11 q ce ca S lam,
    Seen Rk Hk (phiR (rad 60) + 1 / 5 * (phiR (rad 61) - phiR (rad 60))) θ ζ ∧ Seen Rk Hk ((phiR (rad 60) + phiR (rad 61)) / 2) θm ζm ∧
    Hit Rk Hk (phiR (rad 60)) (-halfWidth 5 θm) p00 ∧ Hit Rk Hk (phiR (rad 61)) (-halfWidth 5 θm) p01 ∧
    Hit Rk Hk (phiR (rad 60)) (halfWidth 5 θm) p10 ∧ Hit Rk Hk (phiR (rad 61)) (halfWidth 5 θm) p11 ∧
    Hit Rk Hk (phiR (rad 60) + 1 / 5 * (phiR (rad 61) - phiR (rad 60))) ((2 * (2 / 5) - 1) * halfWidth 5 θm) q ∧
    expansionAlignment 5 (val 60 : FP ℝ) (val 61) = (val ce, val ca) ∧
    S = 1 / 5 + 1 / 5 * (1 - 1 / 5) * ce + 2 / 5 * (1 - 2 / 5) * ca ∧ 0 < lam ∧
    |lam * (chordPoint (chordPoint p00 p01 S) (chordPoint p10 p11 S) (2 / 5)).2.1 - q.2.1|
      ≤ Rk * (1 * (halfWidth 5 θm / Rk) * (0.15 * (1 * |(rad 61 - phiR (rad 61)) - (rad 60 - phiR (rad 60))|) ^ 2 + 1.2 * 1 * (halfWidth 5 θm / Rk) ^ 2)) := by
  have ha : |(60 : ℝ)| ≤ 70 := by norm_num [abs_le]
  have hb : |(61 : ℝ)| ≤ 70 := by norm_num [abs_le]
  have ma := phi_top' ha
  have mb := phi_top' hb
  have mm : |(phiR (rad 60) + phiR (rad 61)) / 2| ≤ mTop := by
    have := seg_top ma mb (s := 1 / 2) (by norm_num) (by norm_num)
    rwa [show phiR (rad 60) + 1 / 2 * (phiR (rad 61) - phiR (rad 60)) = (phiR (rad 60) + phiR (rad 61)) / 2 by ring] at this
  have mσ := seg_top ma mb (s := 1 / 5) (by norm_num) (by norm_num)
  have n1 : |(-1 : ℝ)| ≤ 2.7 := by norm_num
  have n2 : |(1 : ℝ)| ≤ 2.7 := by norm_num
  obtain ⟨p00, h00⟩ := cell_seen 5 le_rfl (-1) ma mb n1 (seen_of mm) ma
  obtain ⟨p01, h01⟩ := cell_seen 5 le_rfl (-1) ma mb n1 (seen_of mm) mb
  obtain ⟨p10, h10⟩ := cell_seen 5 le_rfl 1 ma mb n2 (seen_of mm) ma
  obtain ⟨p11, h11⟩ := cell_seen 5 le_rfl 1 ma mb n2 (seen_of mm) mb
  obtain ⟨q, hq⟩ := cell_seen 5 le_rfl (2 * (2 / 5) - 1) ma mb (by norm_num [abs_le]) (seen_of mm) mσ
  rw [neg_one_mul] at h00 h01
  rw [one_mul] at h10 h11
  obtain ⟨ce, ca, S, lam, e1, e2, l0, -, -, -, l2, -⟩ := C109_cell 5 le_rfl ha hb (by norm_num) (W := 1) le_rfl
    (by norm_num [abs_le]) (seen_zenith ha) (seen_zenith hb) (σ := 1 / 5) (T := 2 / 5) (U := 1) (Or.inl (by norm_num)) le_rfl (by norm_num) (by norm_num) (seen_of mσ) (seen_of mm) h00 h01 h10 h11 hq
  exact ⟨_, _, _, _, p00, p01, p10, p11, q, ce, ca, S, lam, seen_of mσ, seen_of mm, h00, h01, h10, h11, hq, e1, e2, l0, l2⟩

/-! ### whole runs -/

/-- a point given in the frame of the satellite (along the scan, along the track, up), in space -/
def inFrame (e g f p : ℝ × ℝ × ℝ) : ℝ × ℝ × ℝ :=
  (p.1 * e.1 + p.2.1 * g.1 + p.2.2 * f.1, p.1 * e.2.1 + p.2.1 * g.2.1 + p.2.2 * f.2.1, p.1 * e.2.2 + p.2.1 * g.2.2 + p.2.2 * f.2.2)

/-- three orthogonal directions -/
def Frame (e g f : ℝ × ℝ × ℝ) : Prop := Orthonormal e g ∧ Orthonormal g f ∧ Orthonormal e f

theorem frame_dist {e g f : ℝ × ℝ × ℝ} (h : Frame e g f) (p q : ℝ × ℝ × ℝ) : distSq (inFrame e g f p) (inFrame e g f q) = distSq p q := by
  obtain ⟨⟨h1, h2, h3⟩, ⟨-, h4, h5⟩, ⟨-, -, h6⟩⟩ := h
  simp only [dot] at *
  simp only [distSq, inFrame]
  linear_combination (p.1 - q.1) ^ 2 * h1 + (p.2.1 - q.2.1) ^ 2 * h2 + (p.2.2 - q.2.2) ^ 2 * h4 + 2 * (p.1 - q.1) * (p.2.1 - q.2.1) * h3 +
    2 * (p.2.1 - q.2.1) * (p.2.2 - q.2.2) * h5 + 2 * (p.1 - q.1) * (p.2.2 - q.2.2) * h6

/-- the rows of pixels are at most so far from the rows of tie points -/
theorem row_bound {T U : ℝ} (h0 : -0.5 ≤ T) (h1 : T ≤ 1.85) (hU : U = max 1 ((2 * T - 1) ^ 2)) : 1 ≤ U ∧ (2 * T - 1) ^ 2 ≤ U ∧ U ≤ 7.3 := by
  rw [hU]
  refine ⟨le_max_left _ _, le_max_right _ _, max_le (by norm_num) ?_⟩
  nlinarith

/-- **C109 (runs)**: every conversion of the zenith-angle MODIS interpolator, whole scans, every pixel.  If the four tie points are those seen as in `C109_cell`, in some position of the satellite, the pixel
is reported at the longitude and latitude that the conversion makes of a point `P`, and `P`, moved away from or towards the centre, is
near the point `q` that is seen (in metres; `h`, `η`, `W` and the bound on the factor as in `C109_cell`, with `U` the larger one of 1 and
`(2 T - 1)²`: 1 for a pixel between the rows of tie points).  The longitude is that of `P`. -/
theorem C109_run (c : Conv) (n w : Nat) (hw : c.WidthOk w) (lon lat satz : Nat → Nat → ℝ) (junk : Nat → Nat → Nat → Nat → FP ℝ) :
    ∃ out, c.run ⟨n * c.scanRows, w, fun i j => val (lon i j)⟩ ⟨n * c.scanRows, w, fun i j => val (lat i j)⟩
        ⟨n * c.scanRows, w, fun i j => val (satz i j)⟩ junk = .ok out ∧
      ∀ r k i j : Nat, r < n * c.scanRows * c.factor → k < c.outCols → i = tieRow c w r → j = tieCol c w k →
        ∃ T σ, rowPos c w (r % (c.scanRows * c.factor)) = val ((cellRow (c.cfg w) (r % (c.scanRows * c.factor)) : ℝ) + T) ∧
          colPos c w k = val ((j : ℝ) + σ) ∧
          ∀ (e g f : ℝ × ℝ × ℝ) (φa φb θa θb θ ζ θm ζm h η U W : ℝ) (p00 p01 p10 p11 q : ℝ × ℝ × ℝ), Frame e g f →
            1 ≤ W → 0 ≤ σ ∧ σ ≤ 1 ∨ 1.13 * |2 * σ - 1| ≤ W ∧ |ζ| ≤ rad 70 → U = max 1 ((2 * T - 1) ^ 2) →
            |satz i j| ≤ 70 → |satz i (j + 1)| ≤ 70 → satz i j ≠ satz i (j + 1) → W * |satz i j - satz i (j + 1)| ≤ 5 →
            Seen Rk Hk φa θa (rad (satz i j)) → Seen Rk Hk φb θb (rad (satz i (j + 1))) →
            Seen Rk Hk (φa + σ * (φb - φa)) θ ζ → Seen Rk Hk ((φa + φb) / 2) θm ζm →
            h = |φb - φa| → η = halfWidth (c.cfg w).perKm θm / Rk →
            Hit Rk Hk φa (-halfWidth (c.cfg w).perKm θm) p00 → Hit Rk Hk φb (-halfWidth (c.cfg w).perKm θm) p01 →
            Hit Rk Hk φa (halfWidth (c.cfg w).perKm θm) p10 → Hit Rk Hk φb (halfWidth (c.cfg w).perKm θm) p11 →
            Hit Rk Hk (φa + σ * (φb - φa)) ((2 * T - 1) * halfWidth (c.cfg w).perKm θm) q →
            spherePoint 6370997 (lon i j) (lat i j) = inFrame e g f (scale 1000 p00) →
            spherePoint 6370997 (lon i (j + 1)) (lat i (j + 1)) = inFrame e g f (scale 1000 p01) →
            spherePoint 6370997 (lon (i + 1) j) (lat (i + 1) j) = inFrame e g f (scale 1000 p10) →
            spherePoint 6370997 (lon (i + 1) (j + 1)) (lat (i + 1) (j + 1)) = inFrame e g f (scale 1000 p11) →
            ∃ P lam, 0 < lam ∧ |lam - 1| ≤ 0.15 * (W * |θb - θa|) ^ 2 + 1.2 * U * η ^ 2 ∧
              (out.1.cell r k, out.2.cell r k) = cyXyz2lonlat (val 6370997) (val (8 / 10)) true (pt P) ∧
              distSq (scale lam P) (inFrame e g f (scale 1000 q))
                ≤ 6370997 ^ 2 * (2 * ((18 * |σ * (σ - 1 / 2) * (σ - 1)| + 0.2 * W ^ 3) * h ^ 3 + 20 * U * W * η ^ 2 * h + 400 * U * η ^ 4) ^ 2
                  + (U * η * (0.15 * (W * |θb - θa|) ^ 2 + 1.2 * U * η ^ 2)) ^ 2) ∧
              (axisDistSq P ≠ 0 → ¬ onAntimeridian P → ∃ A, HasLon A P ∧ out.1.cell r k = val A) := by
  obtain ⟨out, eo, p1, p2⟩ := run_pixel c (n := n) (lon := ⟨n * c.scanRows, w, fun i j => (val (lon i j) : FP ℝ)⟩)
    (lat := ⟨n * c.scanRows, w, fun i j => val (lat i j)⟩) (satz := ⟨n * c.scanRows, w, fun i j => val (satz i j)⟩)
    ⟨hw, rfl, rfl, rfl, rfl, rfl⟩ junk
  refine ⟨out, eo, fun r k i j hr hk ei ej => ?_⟩
  have hpos : 0 < c.scanRows * c.factor := by cases c <;> decide
  have hper : (c.cfg w).perKm ≤ 5 := by cases c <;> simp [Conv.cfg]
  obtain ⟨T, σ, b1, b2, y1, x1, -, -, key⟩ := weights_val c w (r := r % (c.scanRows * c.factor)) (k := k) (Nat.mod_lt _ hpos) hk
    (r / (c.scanRows * c.factor) * c.scanRows)
  refine ⟨T, σ, y1, by rw [ej]; exact x1, ?_⟩
  intro e g f φa φb θa θb θ ζ θm ζm h η U W p00 p01 p10 p11 q hF hW hσ eU ha hb hne hg sa sb sp sm eh eη h00 h01 h10 h11 hq t00 t01 t10 t11
  obtain ⟨ce, ca, S, lam, ex, eS, l0, -, l9, l1, l2, l3, -⟩ := C109_cell _ hper ha hb hne hW hg sa sb hσ (row_bound b1 b2 eU).1
    (row_bound b1 b2 eU).2.1 (row_bound b1 b2 eU).2.2 sp sm h00 h01 h10 h11 hq
  obtain ⟨B, eB⟩ : ∃ B, B = chordPoint (chordPoint p00 p01 S) (chordPoint p10 p11 S) T := ⟨_, rfl⟩
  rw [← eη] at l9
  rw [← eB, ← eη] at l1 l2 l3
  rw [← eh] at l1 l3
  have hts := key (fun i j => val (satz i j)) ce ca (by
    rw [← ex, ei, ej]; rfl)
  rw [← eS] at hts
  have hpx : pixel (c.cfg w) (fun i j => (val (lon i j) : FP ℝ)) (fun i j => val (lat i j)) (fun i j => val (satz i j)) r k
      = cyXyz2lonlat (val 6370997) (val (8 / 10)) true (pt (inFrame e g f (scale 1000 B))) := by
    unfold pixel scanPixel
    rw [Verif.Modis.earthRadius_val, cyThr_eq, Verif.Modis.defaultThr_val, show ((4 : ℝ) / 5) = 8 / 10 by norm_num, c.cfg_len, c.cfg_f]
    have hx : ∀ l, fineXyz (c.cfg w) (ties (fun i j => (val (lon i j) : FP ℝ)) (fun i j => val (lat i j)))
        (fun i j => val (satz i j)) (r / (c.scanRows * c.factor) * c.scanRows) (r % (c.scanRows * c.factor)) k l
          = val ((1 - T) * ((1 - S) * tieR lon lat l i j + S * tieR lon lat l i (j + 1)) +
              T * ((1 - S) * tieR lon lat l (i + 1) j + S * tieR lon lat l (i + 1) (j + 1))) := by
      intro l
      unfold fineXyz
      simp only [hts, ties_val]
      unfold fineComponent
      simp only [FP.one_eq, FP.val_sub, FP.val_mul, FP.val_add]
      rw [ei, ej]
      rfl
    rw [hx, hx, hx]
    congr 1
    have q00 : (tieR lon lat 0 i j, tieR lon lat 1 i j, tieR lon lat 2 i j) = inFrame e g f (scale 1000 p00) := t00
    have q01 : (tieR lon lat 0 i (j + 1), tieR lon lat 1 i (j + 1), tieR lon lat 2 i (j + 1)) = inFrame e g f (scale 1000 p01) := t01
    have q10 : (tieR lon lat 0 (i + 1) j, tieR lon lat 1 (i + 1) j, tieR lon lat 2 (i + 1) j) = inFrame e g f (scale 1000 p10) := t10
    have q11 : (tieR lon lat 0 (i + 1) (j + 1), tieR lon lat 1 (i + 1) (j + 1), tieR lon lat 2 (i + 1) (j + 1))
      = inFrame e g f (scale 1000 p11) := t11
    simp only [inFrame, scale, Prod.mk.injEq] at q00 q01 q10 q11
    obtain ⟨u1, u2, u3⟩ := q00
    obtain ⟨v1, v2, v3⟩ := q01
    obtain ⟨w1, w2, w3⟩ := q10
    obtain ⟨z1, z2, z3⟩ := q11
    rw [u1, u2, u3, v1, v2, v3, w1, w2, w3, z1, z2, z3, eB]
    simp only [pt, inFrame, scale, chordPoint]
    refine Prod.ext (congrArg val ?_) (Prod.ext (congrArg val ?_) (congrArg val ?_)) <;> ring
  have hcell : (out.1.cell r k, out.2.cell r k) = cyXyz2lonlat (val 6370997) (val (8 / 10)) true (pt (inFrame e g f (scale 1000 B))) := by
    rw [p1.cell _ _ hr hk trivial, p2.cell _ _ hr hk trivial, ← hpx]
  refine ⟨inFrame e g f (scale 1000 B), lam, l0, l9, hcell, ?_, fun hax han => ?_⟩
  · have e1 : scale lam (inFrame e g f (scale 1000 B)) = inFrame e g f (scale 1000 (scale lam B)) := by
      simp only [inFrame, scale]
      refine Prod.ext ?_ (Prod.ext ?_ ?_) <;> ring
    rw [e1, frame_dist hF]
    have hRk : (6370997 : ℝ) = 1000 * Rk := by norm_num [Rk]
    have hR : (0 : ℝ) < Rk := Rk_pos
    rw [hRk]
    simp only [distSq, scale]
    have sq1 : ∀ {x y b : ℝ}, |lam * x - y| ≤ Rk * b → (1000 * (lam * x) - 1000 * y) ^ 2 ≤ (1000 * Rk) ^ 2 * b ^ 2 := by
      intro x y b hx
      have := pow_le_pow_left₀ (abs_nonneg _) hx 2
      rw [sq_abs] at this
      calc _ = 1000 ^ 2 * (lam * x - y) ^ 2 := by ring
        _ ≤ 1000 ^ 2 * (Rk * b) ^ 2 := by gcongr
        _ = _ := by ring
    have a1 := sq1 l1
    have a2 := sq1 l2
    have a3 := sq1 l3
    linarith
  · obtain ⟨A, hA, -, eA⟩ := C91_lon 6370997 (8 / 10) true _ (by norm_num) hax han
    exact ⟨A, hA, (congrArg Prod.fst hcell).trans eA⟩

/-- every point of the sphere has a longitude and a latitude -/
theorem sphere_lonlat {R : ℝ} (hR : 0 < R) {p : ℝ × ℝ × ℝ} (hp : normSq p = R ^ 2) : ∃ lo la, |lo| ≤ 180 ∧ |la| ≤ 90 ∧ spherePoint R lo la = p := by
  obtain ⟨x, y, z⟩ := p
  simp only [normSq] at hp
  have hd : ∀ t : ℝ, rad (deg t) = t := by
    intro t
    have := pi_ne_zero
    unfold rad deg
    field_simp
  have hz : (z / R) ^ 2 ≤ 1 := by
    rw [div_pow, div_le_one (by positivity)]
    nlinarith [sq_nonneg x, sq_nonneg y]
  obtain ⟨z1, z2⟩ := abs_le.1 ((sq_le_one_iff_abs_le_one _).1 hz)
  have hc : R * cos (arcsin (z / R)) = ‖(⟨x, y⟩ : ℂ)‖ := by
    rw [cos_arcsin, Complex.norm_def, Complex.normSq_mk, ← sqrt_sq hR.le, ← sqrt_mul (sq_nonneg _), sqrt_sq hR.le]
    congr 1
    field_simp
    linarith
  have hb : ∀ {t B : ℝ}, |t| ≤ B * π → |deg t| ≤ 180 * B := by
    intro t B ht
    have := pi_pos
    unfold deg
    rw [abs_mul, abs_of_pos (show (0 : ℝ) < 180 / π by positivity), mul_div_assoc', div_le_iff₀ this]
    linarith
  refine ⟨deg (Complex.arg ⟨x, y⟩), deg (arcsin (z / R)), ?_, ?_, ?_⟩
  · exact (hb (B := 1) (by rw [one_mul]; exact Complex.abs_arg_le_pi _)).trans (by norm_num)
  · refine (hb (B := 1 / 2) ?_).trans (by norm_num)
    rw [abs_le]
    constructor <;> linarith [neg_pi_div_two_le_arcsin (z / R), arcsin_le_pi_div_two (z / R)]
  simp only [spherePoint, hd, hc, sin_arcsin z1 z2, Complex.norm_mul_cos_arg, Complex.norm_mul_sin_arg]
  exact Prod.ext rfl (Prod.ext rfl (mul_div_cancel₀ _ hR.ne'))

/-- 5 km data at 1 km, the pixel in the corner: two fifths of the way before the first row and before the first column of tie points
(`U = 1.8² = 3.24`, `W = 2.034`) -/
example : ∃ (lon lat : Nat → Nat → ℝ) (q : ℝ × ℝ × ℝ) (θm ζm : ℝ), Seen Rk Hk ((phiR (rad 50) + phiR (rad 50.1)) / 2) θm ζm ∧
    Hit Rk Hk (phiR (rad 50) + -2 / 5 * (phiR (rad 50.1) - phiR (rad 50))) ((2 * (-2 / 5) - 1) * halfWidth 5 θm) q ∧
    ∀ junk, ∃ out, Conv.km5to1.run ⟨2, 270, fun i j => val (lon i j)⟩ ⟨2, 270, fun i j => val (lat i j)⟩
        ⟨2, 270, fun _ j => val (50 + 0.1 * (j : ℝ))⟩ junk = .ok out ∧
      ∃ P lam, 0 < lam ∧ (out.1.cell 0 0, out.2.cell 0 0) = cyXyz2lonlat (val 6370997) (val (8 / 10)) true (pt P) ∧
        distSq (scale lam P) (inFrame (1, 0, 0) (0, 1, 0) (0, 0, 1) (scale 1000 q)) ≤ 6370997 ^ 2 * (2 *
          ((18 * |(-2 / 5 : ℝ) * (-2 / 5 - 1 / 2) * (-2 / 5 - 1)| + 0.2 * 2.034 ^ 3) * |phiR (rad 50.1) - phiR (rad 50)| ^ 3 + 20 * 3.24 * 2.034 * (halfWidth 5 θm / Rk) ^ 2 * |phiR (rad 50.1) - phiR (rad 50)| +
            400 * 3.24 * (halfWidth 5 θm / Rk) ^ 4) ^ 2 +
          (3.24 * (halfWidth 5 θm / Rk) * (0.15 * (2.034 * |(rad 50.1 - phiR (rad 50.1)) - (rad 50 - phiR (rad 50))|) ^ 2 + 1.2 * 3.24 * (halfWidth 5 θm / Rk) ^ 2)) ^ 2) := by
  have ha : |(50 : ℝ)| ≤ 70 := by norm_num [abs_le]
  have hb : |(50.1 : ℝ)| ≤ 70 := by norm_num [abs_le]
  have ma := phi_top' ha
  have mb := phi_top' hb
  have mm : |(phiR (rad 50) + phiR (rad 50.1)) / 2| ≤ mTop := by
    have := seg_top ma mb (s := 1 / 2) (by norm_num) (by norm_num)
    rwa [show phiR (rad 50) + 1 / 2 * (phiR (rad 50.1) - phiR (rad 50)) = (phiR (rad 50) + phiR (rad 50.1)) / 2 by ring] at this
  have ms := scan_before (a := 50) (b := 50.1) (s := -2 / 5) (by norm_num) (by norm_num) (by norm_num) (by norm_num) (by norm_num) (by norm_num)
  have mσ := ms.trans ((le_abs_self _).trans ma)
  have hζ := (zeta_view (by norm_num) (by norm_num) ms).trans (show rad 50 ≤ rad 70 by have := pi_pos; unfold rad; linarith)
  have n1 : |(-1 : ℝ)| ≤ 2.7 := by norm_num
  have n2 : |(1 : ℝ)| ≤ 2.7 := by norm_num
  obtain ⟨p00, h00⟩ := cell_seen 5 le_rfl (-1) ma mb n1 (seen_of mm) ma
  obtain ⟨p01, h01⟩ := cell_seen 5 le_rfl (-1) ma mb n1 (seen_of mm) mb
  obtain ⟨p10, h10⟩ := cell_seen 5 le_rfl 1 ma mb n2 (seen_of mm) ma
  obtain ⟨p11, h11⟩ := cell_seen 5 le_rfl 1 ma mb n2 (seen_of mm) mb
  obtain ⟨q, hq⟩ := cell_seen 5 le_rfl (2 * (-2 / 5) - 1) ma mb (by norm_num [abs_le]) (seen_of mm) mσ
  rw [neg_one_mul] at h00 h01
  rw [one_mul] at h10 h11
  have hs : ∀ {φ y : ℝ} {p : ℝ × ℝ × ℝ}, Hit Rk Hk φ y p →
      ∃ lo la, |lo| ≤ 180 ∧ |la| ≤ 90 ∧ spherePoint 6370997 lo la = inFrame (1, 0, 0) (0, 1, 0) (0, 0, 1) (scale 1000 p) := by
    intro φ y p hp
    obtain ⟨l, -, -, hn, -⟩ := hp
    apply sphere_lonlat (by norm_num)
    have hRk : (6370997 : ℝ) = 1000 * Rk := by norm_num [Rk]
    rw [hRk]
    simp only [normSq, inFrame, scale]
    linear_combination 1000 ^ 2 * hn
  obtain ⟨a1, b1, -, -, t00⟩ := hs h00
  obtain ⟨a2, b2, -, -, t01⟩ := hs h01
  obtain ⟨a3, b3, -, -, t10⟩ := hs h10
  obtain ⟨a4, b4, -, -, t11⟩ := hs h11
  refine ⟨fun i j => if i = 0 then (if j = 0 then a1 else a2) else (if j = 0 then a3 else a4),
    fun i j => if i = 0 then (if j = 0 then b1 else b2) else (if j = 0 then b3 else b4), q, _, _, seen_of mm, hq, fun junk => ?_⟩
  obtain ⟨out, eo, ho⟩ := C109_run .km5to1 1 270 (Or.inl rfl) (fun i j => if i = 0 then (if j = 0 then a1 else a2) else (if j = 0 then a3 else a4))
    (fun i j => if i = 0 then (if j = 0 then b1 else b2) else (if j = 0 then b3 else b4)) (fun _ j => 50 + 0.1 * (j : ℝ)) junk
  refine ⟨out, eo, ?_⟩
  obtain ⟨T, σ, h2, h3, h4⟩ := ho 0 0 0 0 (by decide) (by decide) (by decide) (by decide)
  rw [show 0 % (Conv.km5to1.scanRows * Conv.km5to1.factor) = 0 by decide, (C31_5km_to_1km_partial 270 (Or.inl rfl)).1 0 (by decide),
    FP.val.injEq] at h2
  rw [(C31_5km_to_1km_partial 270 (Or.inl rfl)).2 0 (by decide), FP.val.injEq] at h3
  obtain rfl : T = -2 / 5 := by norm_num [cellRow, Conv.cfg] at h2; linarith
  obtain rfl : σ = -2 / 5 := by norm_num at h3; linarith
  have c0 : (50 + 0.1 * ((0 : ℕ) : ℝ)) = 50 := by norm_num
  have c1 : (50 + 0.1 * ((0 + 1 : ℕ) : ℝ)) = 50.1 := by norm_num
  simp only [c0, c1] at h4
  obtain ⟨P, lam, l0, -, l1, l2, -⟩ := h4 (1, 0, 0) (0, 1, 0) (0, 0, 1) _ _ _ _ _ _ _ _ _ _ 3.24 2.034 p00 p01 p10 p11 q (by norm_num [Frame, Orthonormal, dot])
    (by norm_num) (Or.inr ⟨by norm_num [abs_of_neg], hζ⟩) (by norm_num) ha hb (by norm_num) (by norm_num [abs_le]) (seen_zenith ha) (seen_zenith hb)
    (seen_of mσ) (seen_of mm) rfl rfl h00 h01 h10 h11 hq t00 t01 t10 t11
  exact ⟨P, lam, l0, l1, l2⟩

end Verif.Props
