import Verif.Props.ScanGeom
import Verif.Proofs.RayHit

/-!
# C105: the alignment coefficient reproduces the curvature of the rows

A row of the instrument that looks beside the plane of the scan meets the Earth further out: the lines of sight of the detectors are
parallel to that plane and the sphere falls away from it.  The alignment coefficient (_modis_interpolator.pyx:66-70) shifts the pixels
between two rows of tie points back by this amount.
-/

namespace Verif.Props
open Verif Verif.Modis Verif.Spec.Modis Verif.Geo Verif.Spec FP Real

private theorem phi_top {a : ℝ} (ha : |a| ≤ 70) : |phiR (rad a)| ≤ mTop := by
  have := phiR_70 ((abs_sin_70 ha).trans (by norm_num)); linarith

private theorem mid_top {x y : ℝ} (hx : |x| ≤ mTop) (hy : |y| ≤ mTop) : |(x + y) / 2| ≤ mTop := by
  rw [abs_le] at *
  constructor <;> linarith [hx.1, hx.2, hy.1, hy.2]

/-- half the length along the track of what a detector of `w` kilometres at the nadir sees at the angle `θ` -/
noncomputable def halfWidth (w : Nat) (θ : ℝ) : ℝ := slant Rk Hk θ * (w / (2 * Hk))

theorem half_small (w : Nat) (hw : w ≤ 5) {φ θ ζ : ℝ} (hφ : |φ| ≤ mTop) (h : Seen Rk Hk φ θ ζ) :
    halfWidth w θ / Rk = ((Rk + Hk) / Rk * cos φ - cos ζ) * ((w : ℝ) / (2 * Hk)) ∧ 0 ≤ halfWidth w θ / Rk ∧ halfWidth w θ / Rk ≤ 0.001 ∧
      0.327 ≤ cos ζ := by
  have hR : (0 : ℝ) < Rk := Rk_pos
  have hH : (Hk : ℝ) = 709 := by norm_num [Hk]
  obtain ⟨e1, -⟩ := seen_iff h
  have e : halfWidth w θ / Rk = ((Rk + Hk) / Rk * cos φ - cos ζ) * ((w : ℝ) / (2 * Hk)) := by
    unfold halfWidth
    rw [(slant_eq h).1]
    field_simp
  have hG := align_bounds hφ
  have hk : kap⁻¹ = (Rk + Hk) / Rk := by unfold kap; rw [inv_div]
  rw [hk, ← e1] at hG
  have hw' : (w : ℝ) ≤ 5 := by exact_mod_cast hw
  have hw0 : (0 : ℝ) ≤ w := Nat.cast_nonneg w
  refine ⟨e, ?_, ?_, by rw [e1]; exact cos_zetaR hφ⟩
  · rw [e]; exact mul_nonneg hG.1 (by rw [hH]; positivity)
  · have h5 : (w : ℝ) / (2 * Hk) ≤ 5 / (2 * 709) := by rw [hH]; gcongr
    rw [e]
    refine (mul_le_mul hG.2 h5 (by rw [hH]; positivity) (by norm_num)).trans ?_
    norm_num

/-- the lines of sight beside the plane of the scan meet the sphere -/
theorem hit_row (w : Nat) (hw : w ≤ 5) {φ θ ζ u : ℝ} (hφ : |φ| ≤ mTop) (h : Seen Rk Hk φ θ ζ) (hu : |u| ≤ 1) :
    ∃ p, Hit Rk Hk φ (u * halfWidth w θ) p := by
  obtain ⟨-, h0, h1, hc⟩ := half_small w hw hφ h
  apply hit_exists h
  rw [mul_div_assoc, mul_pow, ← sq_abs u]
  have g1 : |u| ^ 2 ≤ 1 := pow_le_one₀ (abs_nonneg u) hu
  have g2 : (halfWidth w θ / Rk) ^ 2 ≤ 0.001 ^ 2 := pow_le_pow_left₀ h0 h1 2
  have g3 : (0.327 : ℝ) ^ 2 ≤ cos ζ ^ 2 := pow_le_pow_left₀ (by norm_num) hc 2
  have := mul_le_mul g1 g2 (sq_nonneg _) zero_le_one
  rw [sq_abs] at this ⊢
  norm_num at this g3
  linarith

private theorem beyond_row (w : Nat) (hw : w ≤ 5) {φ θ ζ u : ℝ} (hφ : |φ| ≤ mTop) (h : Seen Rk Hk φ θ ζ) (hu : |u| ≤ 1) {p : ℝ × ℝ × ℝ}
    (hp : Hit Rk Hk φ (u * halfWidth w θ) p) : outBy Rk θ p = Rk * (extra (cos ζ) (u * (halfWidth w θ / Rk)) * sin ζ) := by
  obtain ⟨-, h0, h1, hc⟩ := half_small w hw hφ h
  rw [hit_beyond h hp ?_, mul_div_assoc]
  rw [mul_div_assoc, mul_pow, ← sq_abs u]
  have g1 : |u| ^ 2 ≤ 1 := pow_le_one₀ (abs_nonneg u) hu
  have g2 : (halfWidth w θ / Rk) ^ 2 ≤ 0.001 ^ 2 := pow_le_pow_left₀ h0 h1 2
  have g3 : (0.327 : ℝ) ^ 2 ≤ cos ζ ^ 2 := pow_le_pow_left₀ (by norm_num) hc 2
  have := mul_le_mul g1 g2 (sq_nonneg _) zero_le_one
  rw [sq_abs] at this ⊢
  norm_num at this g3
  linarith

/-! ### the coefficient -/

/-- **C105 (coefficient)**: two tie points with different zenith angles `a` and `b` degrees, of at most 70, on the same side of the nadir.
Half way between their scan angles the ground is seen at the angle `θ` from the nadir.  The alignment coefficient for rows of tie points
`w` kilometres apart, times the angle between the two tie points, is, in units of the radius, exactly four times the distance by which
the line of sight half a row spacing beside the plane of the scan meets the sphere further out.  (Half way between the two rows, where
the coefficient is multiplied by 1/4, the shift is exactly this distance, towards the nadir.) -/
theorem C105_coefficient (w : Nat) (hw : w ≤ 5) {a b φa φb θa θb θ ζ : ℝ} (ha : |a| ≤ 70) (hb : |b| ≤ 70) (hne : a ≠ b)
    (sa : Seen Rk Hk φa θa (rad a)) (sb : Seen Rk Hk φb θb (rad b)) (sm : Seen Rk Hk ((φa + φb) / 2) θ ζ) {p : ℝ × ℝ × ℝ}
    (hp : Hit Rk Hk ((φa + φb) / 2) (halfWidth w θ) p) :
    ∃ ca, (expansionAlignment w (val a : FP ℝ) (val b)).2 = val ca ∧ ca * (θa - θb) * Rk = 4 * outBy Rk θ p := by
  have hex := Mx.expansionAlignment_exact w hw ha hb (fun e => absurd e hne)
  simp only at hex
  rw [hex]
  refine ⟨_, rfl, ?_⟩
  obtain ⟨pa, ta, ma⟩ := seen_phi ha sa
  obtain ⟨pb, tb, mb⟩ := seen_phi hb sb
  have hm := mid_top ma mb
  obtain ⟨e1, h0, h1, hc⟩ := half_small w hw hm sm
  have hb' := beyond_row w hw (u := 1) hm sm (by norm_num) (by rwa [one_mul])
  rw [one_mul, e1] at hb'
  have eζ := (seen_iff sm).1
  rw [hb', ← ta, ← tb, ← pa, ← pb, if_neg hne, ← eζ]
  have hd : θa - θb ≠ 0 := by
    intro e'
    have h2 : a * (π / 180) = b * (π / 180) := theta_inj (ta.symm.trans ((sub_eq_zero.1 e').trans tb))
    exact hne (mul_right_cancel₀ (by positivity) h2)
  unfold extra
  rw [show ((w : ℤ) : ℝ) = (w : ℝ) by push_cast; rfl, div_mul_cancel₀ _ hd]
  simp only [pow_two]
  ring

/-- rows 5 km apart, zenith angles 60 and 61 degrees -/
example : ∃ θ ζ p ca, Seen Rk Hk ((phiR (rad 60) + phiR (rad 61)) / 2) θ ζ ∧ Hit Rk Hk ((phiR (rad 60) + phiR (rad 61)) / 2) (halfWidth 5 θ) p ∧
    (expansionAlignment 5 (val 60 : FP ℝ) (val 61)).2 = val ca ∧
    ca * ((rad 60 - phiR (rad 60)) - (rad 61 - phiR (rad 61))) * Rk = 4 * outBy Rk θ p := by
  have ha : |(60 : ℝ)| ≤ 70 := by norm_num [abs_le]
  have hb : |(61 : ℝ)| ≤ 70 := by norm_num [abs_le]
  have hm := mid_top (phi_top ha) (phi_top hb)
  obtain ⟨p, hp⟩ := hit_row 5 le_rfl (u := 1) hm (seen_of hm) (by norm_num)
  rw [one_mul] at hp
  obtain ⟨ca, h1, h2⟩ := C105_coefficient 5 le_rfl ha hb (by norm_num) (seen_zenith ha) (seen_zenith hb) (seen_of hm) hp
  exact ⟨_, _, p, ca, seen_of hm, hp, h1, h2⟩

/-- **C105 (sign)**: the line of sight beside the plane of the scan meets the sphere further out, strictly so off the nadir. -/
theorem C105_outward (w : Nat) (h0 : 0 < w) (hw : w ≤ 5) {φ θ ζ u : ℝ} (hφ : |φ| ≤ mTop) (h : Seen Rk Hk φ θ ζ) (hu : |u| ≤ 1) (hu0 : u ≠ 0)
    {p : ℝ × ℝ × ℝ} (hp : Hit Rk Hk φ (u * halfWidth w θ) p) :
    (0 < φ → 0 < outBy Rk θ p) ∧ (φ < 0 → outBy Rk θ p < 0) ∧ (φ = 0 → outBy Rk θ p = 0) := by
  have hR : (0 : ℝ) < Rk := Rk_pos
  have hH : (0 : ℝ) < Hk := by norm_num [Hk]
  rw [beyond_row w hw hφ h hu hp]
  obtain ⟨-, -, -, hc⟩ := half_small w hw hφ h
  have hpos : 0 < halfWidth w θ / Rk := by
    have := (slant_eq h).2
    unfold halfWidth
    positivity
  have hx : 0 < extra (cos ζ) (u * (halfWidth w θ / Rk)) := by
    unfold extra
    rw [sub_pos, sqrt_lt' (by linarith)]
    have : 0 < (u * (halfWidth w θ / Rk)) ^ 2 := by positivity
    linarith
  -- the zenith angle has the sign of the scan angle
  have hs : Rk * sin ζ = (Rk + Hk) * sin φ := by
    obtain ⟨e1, -⟩ := seen_iff h
    have := sin_zetaR hφ
    rw [← e1] at this
    rw [this]
    unfold kap
    rw [inv_div]
    field_simp
  have hφ' := abs_lt.1 h.1
  refine ⟨fun hp => ?_, fun hn => ?_, fun hz => ?_⟩
  · have : 0 < sin φ := sin_pos_of_pos_of_lt_pi hp (by linarith [pi_pos])
    have h2 : 0 < Rk * sin ζ := by rw [hs]; positivity
    have := pos_of_mul_pos_right h2 hR.le
    positivity
  · have : sin φ < 0 := sin_neg_of_neg_of_neg_pi_lt hn (by linarith [pi_pos])
    have h2 : Rk * sin ζ < 0 := by rw [hs]; exact mul_neg_of_pos_of_neg (by positivity) this
    have h3 : sin ζ < 0 := by
      by_contra hh
      exact absurd (mul_nonneg hR.le (not_lt.1 hh)) (not_le.2 h2)
    exact mul_neg_of_pos_of_neg hR (mul_neg_of_pos_of_neg hx h3)
  · rw [hz, sin_zero, mul_zero] at hs
    rw [(mul_eq_zero.1 hs).resolve_left hR.ne', mul_zero, mul_zero]

example : ∃ θ ζ p, Seen Rk Hk (phiR (rad 60)) θ ζ ∧ Hit Rk Hk (phiR (rad 60)) (1 * halfWidth 1 θ) p ∧ 0 < outBy Rk θ p := by
  have ha : |(60 : ℝ)| ≤ 70 := by norm_num [abs_le]
  obtain ⟨p, hp⟩ := hit_row 1 (by norm_num) (u := 1) (phi_top ha) (seen_of (phi_top ha)) (by norm_num)
  refine ⟨_, _, p, seen_of (phi_top ha), hp, (C105_outward 1 one_pos (by norm_num) (phi_top ha) (seen_of (phi_top ha)) (by norm_num)
    one_ne_zero hp).1 ?_⟩
  unfold phiR
  rw [arcsin_pos]
  refine mul_pos kap_pos (sin_pos_of_pos_of_lt_pi ?_ ?_) <;> unfold rad <;> linarith [pi_pos]

/-! ### between two rows -/

/-- **C105 (rows)**: as in `C105_coefficient`; a pixel the fraction `T` of the way between the two rows of tie points looks
`(2 T - 1)` times half the spacing beside the plane of the scan through the middle, the tie points look half the spacing beside it.
The alignment term `T (1 - T)` times the coefficient moves it by the difference of the two distances, with an error of at most ten
times the fourth power of the half spacing (all in units of the radius). -/
theorem C105_rows (w : Nat) (hw : w ≤ 5) {a b φa φb θa θb θ ζ T : ℝ} (ha : |a| ≤ 70) (hb : |b| ≤ 70) (hne : a ≠ b)
    (sa : Seen Rk Hk φa θa (rad a)) (sb : Seen Rk Hk φb θb (rad b)) (sm : Seen Rk Hk ((φa + φb) / 2) θ ζ) (T0 : 0 ≤ T) (T1 : T ≤ 1)
    {p q : ℝ × ℝ × ℝ} (hp : Hit Rk Hk ((φa + φb) / 2) (halfWidth w θ) p) (hq : Hit Rk Hk ((φa + φb) / 2) ((2 * T - 1) * halfWidth w θ) q) :
    ∃ ca, (expansionAlignment w (val a : FP ℝ) (val b)).2 = val ca ∧
      |T * (1 - T) * ca * (θb - θa) - (outBy Rk θ q - outBy Rk θ p) / Rk| ≤ 10 * (halfWidth w θ / Rk) ^ 4 := by
  have hR : (0 : ℝ) < Rk := Rk_pos
  obtain ⟨ca, h1, h2⟩ := C105_coefficient w hw ha hb hne sa sb sm hp
  refine ⟨ca, h1, ?_⟩
  have hm := mid_top (seen_phi ha sa).2.2 (seen_phi hb sb).2.2
  obtain ⟨-, d0, d1, hc⟩ := half_small w hw hm sm
  have hu : |2 * T - 1| ≤ 1 := by rw [abs_le]; constructor <;> linarith
  have bp := beyond_row w hw (u := 1) hm sm (by norm_num) (by rwa [one_mul])
  have bq := beyond_row w hw hm sm hu hq
  rw [one_mul] at bp
  rw [bp] at h2
  rw [bp, bq]
  generalize halfWidth w θ / Rk = d at *
  have key := extra_square (c := cos ζ) (d := d) (by linarith) (by rw [abs_of_nonneg d0]; linarith) hu
  have hca : ca * (θa - θb) = 4 * (extra (cos ζ) d * sin ζ) := by
    apply mul_right_cancel₀ hR.ne'
    rw [h2]; ring
  have e : T * (1 - T) * ca * (θb - θa) - (Rk * (extra (cos ζ) ((2 * T - 1) * d) * sin ζ) - Rk * (extra (cos ζ) d * sin ζ)) / Rk
      = -((extra (cos ζ) ((2 * T - 1) * d) - (2 * T - 1) ^ 2 * extra (cos ζ) d) * sin ζ) := by
    rw [← mul_sub, mul_div_cancel_left₀ _ hR.ne']
    linear_combination (-(T * (1 - T))) * hca
  rw [e, abs_neg, abs_mul]
  have hd4 : 0 ≤ d ^ 4 := by positivity
  calc _ ≤ d ^ 4 / (3 * cos ζ ^ 3) * 1 := mul_le_mul key (abs_sin_le_one ζ) (abs_nonneg _) (by positivity)
    _ ≤ _ := by
      rw [mul_one, div_le_iff₀ (by positivity)]
      have : (0.327 : ℝ) ^ 3 ≤ cos ζ ^ 3 := pow_le_pow_left₀ (by norm_num) hc 3
      nlinarith

/-- rows 5 km apart, a fifth of the way -/
example : ∃ θ ζ p q ca, Seen Rk Hk ((phiR (rad 60) + phiR (rad 61)) / 2) θ ζ ∧ Hit Rk Hk ((phiR (rad 60) + phiR (rad 61)) / 2) (halfWidth 5 θ) p ∧
    Hit Rk Hk ((phiR (rad 60) + phiR (rad 61)) / 2) ((2 * (1 / 5) - 1) * halfWidth 5 θ) q ∧
    (expansionAlignment 5 (val 60 : FP ℝ) (val 61)).2 = val ca ∧
    |1 / 5 * (1 - 1 / 5) * ca * ((rad 61 - phiR (rad 61)) - (rad 60 - phiR (rad 60))) - (outBy Rk θ q - outBy Rk θ p) / Rk| ≤ 1e-11 := by
  have ha : |(60 : ℝ)| ≤ 70 := by norm_num [abs_le]
  have hb : |(61 : ℝ)| ≤ 70 := by norm_num [abs_le]
  have hm := mid_top (phi_top ha) (phi_top hb)
  obtain ⟨p, hp⟩ := hit_row 5 le_rfl (u := 1) hm (seen_of hm) (by norm_num)
  obtain ⟨q, hq⟩ := hit_row 5 le_rfl (u := 2 * (1 / 5) - 1) hm (seen_of hm) (by norm_num [abs_le])
  rw [one_mul] at hp
  obtain ⟨ca, h1, h2⟩ := C105_rows 5 le_rfl (T := 1 / 5) ha hb (by norm_num) (seen_zenith ha) (seen_zenith hb) (seen_of hm) (by norm_num)
    (by norm_num) hp hq
  refine ⟨_, _, p, q, ca, seen_of hm, hp, hq, h1, h2.trans ?_⟩
  obtain ⟨-, d0, d1, -⟩ := half_small 5 le_rfl hm (seen_of hm)
  have := pow_le_pow_left₀ d0 d1 4
  norm_num at this ⊢
  linarith

/-! ### both terms -/

/-- **C105 (pixels)**: every conversion, every pixel between the rows and between the columns of its cell, if the two zenith angles of
the cell differ.  Its scan weight places it where it is seen: at the angle `θ` of the scan angle the fraction `σ` between those of the
tie points, moved by the curvature of the rows. -/
theorem C105_pixels (c : Conv) (w : Nat) {r k : Nat} (hr : r < c.scanRows * c.factor) (hk : k < c.outCols)
    (satz : Nat → Nat → ℝ) (i0 : Nat) {a b : ℝ} (ea : a = satz (i0 + cellRow (c.cfg w) r) (cellCol (c.cfg w) k))
    (eb : b = satz (i0 + cellRow (c.cfg w) r) (cellCol (c.cfg w) k + 1)) (ha : |a| ≤ 70) (hb : |b| ≤ 70) (hne : a ≠ b) :
    ∃ T S σ, trackScan (c.cfg w) (fun i j => (val (satz i j) : FP ℝ)) i0 r k = (val T, val S) ∧
      rowPos c w r = val ((cellRow (c.cfg w) r : ℝ) + T) ∧ colPos c w k = val ((cellCol (c.cfg w) k : ℝ) + σ) ∧
      ∀ φa φb θa θb θ ζ θm ζm p q, 0 ≤ σ → σ ≤ 1 → 0 ≤ T → T ≤ 1 → Seen Rk Hk φa θa (rad a) → Seen Rk Hk φb θb (rad b) →
        Seen Rk Hk (φa + σ * (φb - φa)) θ ζ → Seen Rk Hk ((φa + φb) / 2) θm ζm →
        Hit Rk Hk ((φa + φb) / 2) (halfWidth (c.cfg w).perKm θm) p →
        Hit Rk Hk ((φa + φb) / 2) ((2 * T - 1) * halfWidth (c.cfg w).perKm θm) q →
        |θa + S * (θb - θa) - (θ + (outBy Rk θm q - outBy Rk θm p) / Rk)|
          ≤ 18 * |σ * (σ - 1 / 2) * (σ - 1)| * |φb - φa| ^ 3 + 10 * (halfWidth (c.cfg w).perKm θm / Rk) ^ 4 := by
  have hper : (c.cfg w).perKm ≤ 5 := by cases c <;> simp [Conv.cfg]
  obtain ⟨T, S, σ, ca, h1, h2, h3, h4, h5⟩ := C104_pixels c w hr hk satz i0 ea eb ha hb (fun h => hne (h.1.trans h.2.symm))
  refine ⟨T, S, σ, h1, h2, h3, fun φa φb θa θb θ ζ θm ζm p q s0 s1 T0 T1 sa sb sp sm hp hq => ?_⟩
  have g1 := h5 φa φb θa θb θ ζ s0 s1 sa sb sp
  obtain ⟨ca', f1, g2⟩ := C105_rows _ hper ha hb hne sa sb sm T0 T1 hp hq
  obtain rfl : ca = ca' := by rw [h4, FP.val.injEq] at f1; exact f1
  have := abs_add_le (θa + (S - T * (1 - T) * ca) * (θb - θa) - θ) (T * (1 - T) * ca * (θb - θa) - (outBy Rk θm q - outBy Rk θm p) / Rk)
  rw [show θa + (S - T * (1 - T) * ca) * (θb - θa) - θ + (T * (1 - T) * ca * (θb - θa) - (outBy Rk θm q - outBy Rk θm p) / Rk)
    = θa + S * (θb - θa) - (θ + (outBy Rk θm q - outBy Rk θm p) / Rk) by ring] at this
  linarith

/-- 5 km data at 1 km, the pixel in row 3 and column 4: a fifth of the way between the rows, two fifths between the columns -/
example : ∃ S θ ζ θm ζm p q, trackScan (Conv.km5to1.cfg 270) (fun _ j => (val (50 + 0.1 * (j : ℝ)) : FP ℝ)) 0 3 4 = (val (1 / 5), val S) ∧
    Seen Rk Hk (phiR (rad 50) + 2 / 5 * (phiR (rad 50.1) - phiR (rad 50))) θ ζ ∧
    Seen Rk Hk ((phiR (rad 50) + phiR (rad 50.1)) / 2) θm ζm ∧
    Hit Rk Hk ((phiR (rad 50) + phiR (rad 50.1)) / 2) (halfWidth 5 θm) p ∧
    Hit Rk Hk ((phiR (rad 50) + phiR (rad 50.1)) / 2) ((2 * (1 / 5) - 1) * halfWidth 5 θm) q ∧
    |(rad 50 - phiR (rad 50)) + S * ((rad 50.1 - phiR (rad 50.1)) - (rad 50 - phiR (rad 50)))
      - (θ + (outBy Rk θm q - outBy Rk θm p) / Rk)|
      ≤ 18 * |2 / 5 * (2 / 5 - 1 / 2) * (2 / 5 - 1)| * |phiR (rad 50.1) - phiR (rad 50)| ^ 3 + 10 * (halfWidth 5 θm / Rk) ^ 4 := by
  have ha : |(50 : ℝ)| ≤ 70 := by norm_num [abs_le]
  have hb : |(50.1 : ℝ)| ≤ 70 := by norm_num [abs_le]
  have hm := mid_top (phi_top ha) (phi_top hb)
  have hs : |phiR (rad 50) + 2 / 5 * (phiR (rad 50.1) - phiR (rad 50))| ≤ mTop := by
    have h1 := abs_le.1 (phi_top ha)
    have h2 := abs_le.1 (phi_top hb)
    rw [abs_le]
    constructor <;> linarith [h1.1, h1.2, h2.1, h2.2]
  obtain ⟨p, hp⟩ := hit_row 5 le_rfl (u := 1) hm (seen_of hm) (by norm_num)
  obtain ⟨q, hq⟩ := hit_row 5 le_rfl (u := 2 * (1 / 5) - 1) hm (seen_of hm) (by norm_num [abs_le])
  rw [one_mul] at hp
  obtain ⟨T, S, σ, h1, h2, h3, h4⟩ := C105_pixels .km5to1 270 (r := 3) (k := 4) (by decide) (by decide)
    (fun _ j => 50 + 0.1 * (j : ℝ)) 0 (a := 50) (b := 50.1) (by norm_num [cellCol, Conv.cfg]) (by norm_num [cellCol, Conv.cfg])
    ha hb (by norm_num)
  rw [(C31_5km_to_1km_partial 270 (Or.inl rfl)).1 3 (by decide), FP.val.injEq] at h2
  rw [(C31_5km_to_1km_partial 270 (Or.inl rfl)).2 4 (by decide), FP.val.injEq] at h3
  obtain rfl : T = 1 / 5 := by norm_num [cellRow, Conv.cfg] at h2; linarith
  obtain rfl : σ = 2 / 5 := by norm_num [cellCol, Conv.cfg] at h3; linarith
  exact ⟨S, _, _, _, _, p, q, h1, seen_of hs, seen_of hm, hp, hq, h4 _ _ _ _ _ _ _ _ p q (by norm_num) (by norm_num) (by norm_num) (by norm_num)
    (seen_zenith ha) (seen_zenith hb) (seen_of hs) (seen_of hm) hp hq⟩

end Verif.Props
