import Verif.Props.ScanGeom
import Verif.Props.MxPipeline

/-!
# C106: computed positions against the points that the instrument sees, with rounding

`C69` bounds the error of the rounded computation against the exact interpolation, `C104` the error of the exact interpolation against the
viewing geometry.  Together: what `modis_5km_to_1km` returns for float32 arrays is near the point that the instrument sees.
-/

namespace Verif.Props
open Verif Verif.Modis Verif.Spec.Modis Verif.Geo Verif.Spec Real

/-- a point of the chord is nearly as far from the centre as its ends -/
theorem chord_radius {R : ℝ} (hR : 0 < R) {e f : ℝ × ℝ × ℝ} (h : Orthonormal e f) {x y t ρ β : ℝ} (hd : |y - x| ≤ 1 / 2) (t0 : 0 ≤ t) (t1 : t ≤ 1)
    (hρ : 0 < ρ) (hc : chordPoint (scanPoint R e f x) (scanPoint R e f y) t = scale ρ (scanPoint R e f β)) :
    |1 - ρ| ≤ (y - x) ^ 2 / 7 ∧ ρ ≤ 1 := by
  have dx := dot_scanPoint (R := R) h x x
  have dy := dot_scanPoint (R := R) h y y
  have dxy := dot_scanPoint (R := R) h y x
  have db := dot_scanPoint (R := R) h β β
  rw [sub_self, cos_zero] at dx dy db
  have e1 : dot (chordPoint (scanPoint R e f x) (scanPoint R e f y) t) (chordPoint (scanPoint R e f x) (scanPoint R e f y) t)
      = R ^ 2 * (1 - 2 * (t * (1 - t)) * (1 - cos (y - x))) := by
    simp only [dot, chordPoint] at *
    linear_combination (1 - t) ^ 2 * dx + t ^ 2 * dy + 2 * t * (1 - t) * dxy
  have e2 : dot (scale ρ (scanPoint R e f β)) (scale ρ (scanPoint R e f β)) = R ^ 2 * ρ ^ 2 := by
    simp only [dot, scale] at *
    linear_combination ρ ^ 2 * db
  rw [hc, e2] at e1
  have e3 := mul_left_cancel₀ (pow_ne_zero 2 hR.ne') e1
  have hcos := one_sub_sq_div_two_le_cos (x := y - x)
  have hcos1 := cos_le_one (y - x)
  have hq : t * (1 - t) ≤ 1 / 4 := by nlinarith [sq_nonneg (t - 1 / 2)]
  have hq0 : 0 ≤ t * (1 - t) := mul_nonneg t0 (by linarith)
  have hd2 : (y - x) ^ 2 ≤ 1 / 4 := by
    rw [← sq_abs]
    have := pow_le_pow_left₀ (abs_nonneg _) hd 2
    linarith [show ((1 : ℝ) / 2) ^ 2 = 1 / 4 by norm_num]
  have h1 : 2 * (t * (1 - t)) * (1 - cos (y - x)) ≤ (y - x) ^ 2 / 4 := by nlinarith
  have h2 : 0 ≤ 2 * (t * (1 - t)) * (1 - cos (y - x)) := mul_nonneg (by linarith) (by linarith)
  have h3 : ρ ≤ 1 := by nlinarith
  have h4 : 0.75 ≤ ρ := by nlinarith
  refine ⟨?_, h3⟩
  rw [abs_of_nonneg (by linarith)]
  nlinarith

/-- distance of a multiple of a point of the scan from another point of the scan -/
theorem dist_scan {R : ℝ} {e f : ℝ × ℝ × ℝ} (h : Orthonormal e f) {β θ ρ : ℝ} (h0 : 0 ≤ ρ) (h1 : ρ ≤ 1) :
    distSq (scale ρ (scanPoint R e f β)) (scanPoint R e f θ) ≤ (R * (|1 - ρ| + |β - θ|)) ^ 2 := by
  have db := dot_scanPoint (R := R) h β β
  have dt := dot_scanPoint (R := R) h θ θ
  have dbt := dot_scanPoint (R := R) h β θ
  rw [sub_self, cos_zero] at db dt
  have e1 : distSq (scale ρ (scanPoint R e f β)) (scanPoint R e f θ) = R ^ 2 * ((1 - ρ) ^ 2 + 2 * ρ * (1 - cos (β - θ))) := by
    simp only [dot, scale, distSq] at *
    linear_combination ρ ^ 2 * db + dt - 2 * ρ * dbt
  rw [e1, mul_pow]
  have hcos := one_sub_sq_div_two_le_cos (x := β - θ)
  have hs : (β - θ) ^ 2 = |β - θ| ^ 2 := (sq_abs _).symm
  have hr : (1 - ρ) ^ 2 = |1 - ρ| ^ 2 := (sq_abs _).symm
  have hc : 2 * ρ * (1 - cos (β - θ)) ≤ |β - θ| ^ 2 := by
    rw [← hs]
    have := cos_le_one (β - θ)
    nlinarith
  have hp : 0 ≤ |1 - ρ| * |β - θ| := by positivity
  refine mul_le_mul_of_nonneg_left ?_ (sq_nonneg R)
  rw [hr]
  nlinarith

open Mx in
set_option maxHeartbeats 1000000 in
/-- **C106**: `modis_5km_to_1km` as the code runs it (float32 arrays, double constants and functions), on the rows of the tie points and
between the first and the last column of tie points, for tie points on the circle of a scan in agreement with the zenith angles used for
them.  The instrument sees the point at longitude `lon'` and latitude `lat'` a fraction `m / 5` of the way between the two tie points in scan
angle.  The reported longitude is within `270 sqrt εd + 98 η' + 190 ε` degrees of `lon'` on the circle and the latitude within
`115 η' + 95 ε` degrees of `lat'`, where `η'` is, over the cosine of the latitude, the sum of the cube of the scan angle between the tie
points (C104), a seventh of the square of their distance (the chord), and 1.42 times the rounding error `δ` (C69). -/
theorem C106_run {q : Mixed} {ε : ℝ} (h : Prec q ε) {εd : ℝ} (hd : Err.LibRel q.d εd) (hεd : εd ≤ ε / 1000) (n w : Nat) (hw : w = 270 ∨ w = 271)
    (lon lat satz : Nat → Nat → ℝ) (junk : Nat → Nat → Nat → Nat → Mx q) :
    ∃ out, modis5kmTo1km ⟨n * 2, w, fun i j => sgl (lon i j)⟩ ⟨n * 2, w, fun i j => sgl (lat i j)⟩
        ⟨n * 2, w, fun i j => sgl (satz i j)⟩ junk = .ok out ∧
      ∀ i j m i0 : Nat, i < n * 2 → j + 1 < w → m < 5 → i0 = i / 2 * 2 →
        (∀ i' j', (i' = i0 ∨ i' = i0 + 1) → (j' = j ∨ j' = j + 1) → |lon i' j'| ≤ 180 ∧ |lat i' j'| ≤ 90) →
        ZenithsOk ε (satz i0 j) (satz i0 (j + 1)) → |satz i0 j - satz i0 (j + 1)| ≤ 5 →
        ∀ ω, CellSize lon lat i0 j (ω * 6370997) →
        ∀ (e f : ℝ × ℝ × ℝ) (φa φb θa θb θ ζ lon' lat' : ℝ), Orthonormal e f →
          Seen Rk Hk φa θa (rad (satz i0 j)) → Seen Rk Hk φb θb (rad (satz i0 (j + 1))) →
          spherePoint 6370997 (lon i j) (lat i j) = scanPoint 6370997 e f θa →
          spherePoint 6370997 (lon i (j + 1)) (lat i (j + 1)) = scanPoint 6370997 e f θb →
          Seen Rk Hk (φa + m / 5 * (φb - φa)) θ ζ →
          |lon'| ≤ 180 → |lat'| < 90 → spherePoint 6370997 lon' lat' = scanPoint 6370997 e f θ →
          ∀ es δ η', es = (48000 * |(m : ℝ) / 5 * (1 - m / 5)| + 2500) * (ε / zenithGap (satz i0 j) (satz i0 (j + 1))) + 80 * ε →
            δ = 20 * ε * (1 + 2 * es) + ω * (1.001 * es + 1.85 * ε) →
            η' = (|φb - φa| ^ 3 + (θb - θa) ^ 2 / 7 + 1.42 * δ) / cos (rad lat') → η' ≤ 1 / 100 →
            (∃ L, out.1.cell (5 * i + 2) (5 * j + 2 + m) = sgl L ∧
              (LonWithin (270 * √εd + 98 * η' + 190 * ε) L lon' ∨ (L = 0 ∧ 180 - 90 * η' ≤ |lon'|))) ∧
            (∃ B, out.2.cell (5 * i + 2) (5 * j + 2 + m) = sgl B ∧ |B - lat'| ≤ 115 * η' + 95 * ε) := by
  obtain ⟨out, eo, key69⟩ := C69_modis_pixel h hd hεd .km5to1 n w hw lon lat satz junk
  refine ⟨out, eo, ?_⟩
  intro i j m i0 hi hj hm hi0 hv hz hg ω hω e f φa φb θa θb θ ζ lon' lat' hon sa sb ta tb sp hlon hlat hsee es δ η' hes hδ hη hη1
  have hε0 := h.pos
  have s0 : (0 : ℝ) ≤ m / 5 := by positivity
  have s1 : (m : ℝ) / 5 ≤ 1 := by
    rw [div_le_one (by norm_num)]
    exact_mod_cast hm.le
  have h0 : ¬ (satz i0 j = 0 ∧ satz i0 (j + 1) = 0) := by
    rintro ⟨z1, z2⟩
    have := hz.gap
    rw [z1, z2] at this
    simp only [zenithGap, if_true, abs_zero, mul_zero] at this
    linarith
  obtain ⟨ce, β, ρ, e1, w0, w1, hρ, hδθ, hch, hβ⟩ := C104_cell 5 le_rfl 6370997 e f hz.ha hz.hb h0 hg sa sb s0 s1 sp
  have hr : 5 * i + 2 < n * 2 * 5 := by omega
  have hc : 5 * j + 2 + m < 1354 := by omega
  have hcc : cellCol (Conv.km5to1.cfg w) (5 * j + 2 + m) = j := by
    simp only [cellCol, Conv.cfg, show ¬ ((2:Nat) = 10) by omega, if_false]
    rw [show (5 * j + 2 + m - 2) / 5 = j by omega]
    omega
  have hcr : cellRow (Conv.km5to1.cfg w) (5 * (i % 2) + 2) = 0 := rfl
  have hrow : i0 = tieRow .km5to1 w (5 * i + 2) := by
    simp only [tieRow, Conv.scanRows, Conv.factor]
    rw [show (5 * i + 2) % (2 * 5) = 5 * (i % 2) + 2 by omega, hcr]
    omega
  obtain ⟨T, S, σ, k1, k2, -, k4⟩ := key69 (5 * i + 2) (5 * j + 2 + m) i0 j hr hc hrow hcc.symm hv hz ω hω
  -- the weights
  obtain ⟨T', σ', -, -, y1, x1, -, -, key⟩ := weights_val .km5to1 w (r := 5 * (i % 2) + 2) (k := 5 * j + 2 + m)
    (by simp only [Conv.scanRows, Conv.factor]; omega) hc i0
  rw [(C31_5km_to_1km_partial w hw).2 _ hc, hcc, FP.val.injEq] at x1
  rw [(C31_5km_to_1km_partial w hw).1 _ (by omega), hcr, FP.val.injEq] at y1
  obtain rfl : σ' = m / 5 := by push_cast at x1; linarith
  have hT' : T' = ((i % 2 : ℕ) : ℝ) := by push_cast at y1 ⊢; linarith
  have hσ : σ = m / 5 := by
    rw [(C31_5km_to_1km_partial w hw).2 _ hc, FP.val.injEq] at k2
    push_cast at k2 x1; linarith
  obtain ⟨ca, f1, -⟩ := C98_alignment 5 le_rfl hz.ha hz.hb h0
  have hts := key (fun i j => FP.val (satz i j)) ce ca (by rw [hcr, hcc, ← e1, ← f1]; rfl)
  have hT0 : T' * (1 - T') = 0 := by
    rw [hT']; rcases Nat.mod_two_eq_zero_or_one i with h | h <;> rw [h] <;> norm_num
  rw [hT0, zero_mul, add_zero] at hts
  simp only [Conv.scanRows, Conv.factor] at k1
  rw [show (5 * i + 2) / (2 * 5) * 2 = i0 by omega, show (5 * i + 2) % (2 * 5) = 5 * (i % 2) + 2 by omega, hts, Prod.mk.injEq,
    FP.val.injEq, FP.val.injEq] at k1
  obtain ⟨rfl, rfl⟩ := k1
  obtain ⟨S, hS⟩ : ∃ S, S = (m : ℝ) / 5 + m / 5 * (1 - m / 5) * ce := ⟨_, rfl⟩
  rw [← hS] at k4 w0 w1 hch
  have hKt : |T'| + |1 - T'| = 1 := by
    rw [hT']; rcases Nat.mod_two_eq_zero_or_one i with h | h <;> rw [h] <;> norm_num
  have hKs : |S| + |1 - S| = 1 := by rw [abs_of_nonneg w0, abs_of_nonneg (by linarith)]; ring
  -- the point of the cell
  have hcell : cellPoint lon lat i0 j T' S = scale ρ (scanPoint 6370997 e f β) := by
    rw [← hch, ← ta, ← tb]
    unfold cellPoint
    simp only [coord, chordPoint]
    rw [hT']
    rcases Nat.mod_two_eq_zero_or_one i with h | h
    · rw [h, show i = i0 by omega]; push_cast
      exact Prod.ext (by simp) (Prod.ext (by simp) (by simp))
    · rw [h, show i = i0 + 1 by omega]; push_cast
      exact Prod.ext (by simp) (Prod.ext (by simp) (by simp))
  obtain ⟨hrad, hρ1⟩ := chord_radius (by norm_num : (0 : ℝ) < 6370997) hon (hδθ.trans (by norm_num)) w0 w1 hρ hch
  have hcl : 0 < cos (rad lat') := by
    have := abs_lt.1 hlat
    have hpi := pi_pos
    apply cos_pos_of_mem_Ioo
    unfold rad
    constructor <;> nlinarith
  have hdist := dist_scan (R := 6370997) hon (β := β) (θ := θ) hρ.le hρ1
  obtain ⟨D, hD⟩ : ∃ D, D = |φb - φa| ^ 3 + (θb - θa) ^ 2 / 7 := ⟨_, rfl⟩
  have hD0 : 0 ≤ D := by rw [hD]; positivity
  have hdist' : distSq (scale ρ (scanPoint 6370997 e f β)) (scanPoint 6370997 e f θ) ≤ (6370997 * D) ^ 2 := by
    refine hdist.trans (pow_le_pow_left₀ (by positivity) ?_ 2)
    rw [hD]
    exact mul_le_mul_of_nonneg_left (by linarith) (by norm_num)
  have hnear : NearSphere 6370997 (D / cos (rad lat')) lon' lat' (cellPoint lon lat i0 j T' S) := by
    rw [hcell]
    unfold NearSphere
    rw [hsee]
    obtain ⟨P, hP⟩ : ∃ P, P = scale ρ (scanPoint 6370997 e f β) := ⟨_, rfl⟩
    obtain ⟨Q, hQ⟩ : ∃ Q, Q = scanPoint 6370997 e f θ := ⟨_, rfl⟩
    rw [← hP, ← hQ] at hdist' ⊢
    rw [show D / cos (rad lat') * (6370997 * cos (rad lat')) = 6370997 * D by field_simp]
    simp only [distSq] at hdist'
    constructor
    · linarith [sq_nonneg (P.2.2 - Q.2.2)]
    · have : |P.2.2 - Q.2.2| ≤ 6370997 * D := by
        apply abs_le_of_sq_le_sq _ (by positivity)
        linarith [sq_nonneg (P.1 - Q.1), sq_nonneg (P.2.1 - Q.2.1)]
      refine this.trans ?_
      have : D ≤ D / cos (rad lat') := le_div_self hD0 hcl (cos_le_one _)
      linarith
  refine k4 es δ (D / cos (rad lat')) η' lon' lat' (by rw [hes, hσ]) ?_ hlon hlat hnear ?_ hη1
  · rw [hδ, hKt, hKs]; ring
  · rw [hη, hD]; ring

open Mx in
set_option maxHeartbeats 1000000 in
/-- float32 arrays: a scan along the equator with zenith angles from 40 degrees on; the pixel in row 2, a fifth of the way from tie column 100
to 101, is reported within 0.002 degrees of the longitude seen -/
example (junk : Nat → Nat → Nat → Nat → Mx Mixed.ieee) : ∃ out θ ζ,
    modis5kmTo1km ⟨2, 270, fun _ j => sgl (deg (rad (40 + 0.1 * j) - phiR (rad (40 + 0.1 * j))))⟩ ⟨2, 270, fun _ _ => sgl 0⟩
      ⟨2, 270, fun _ j => sgl (40 + 0.1 * j)⟩ junk = .ok out ∧
    Seen Rk Hk (phiR (rad 50) + ((1 : ℕ) : ℝ) / 5 * (phiR (rad 50.1) - phiR (rad 50))) θ ζ ∧
    ∃ L, out.1.cell 2 503 = sgl L ∧ LonWithin 0.002 L (deg θ) := by
  have hpi := pi_gt_three
  have hpi' := pi_lt_d2
  have ha : |(50 : ℝ)| ≤ 70 := by norm_num [abs_le]
  have hb : |(50.1 : ℝ)| ≤ 70 := by norm_num [abs_le]
  have top : ∀ {a : ℝ}, |a| ≤ 70 → |phiR (rad a)| ≤ mTop := by
    intro a ha
    have := phiR_70 ((abs_sin_70 ha).trans (by norm_num)); linarith
  have hp : |phiR (rad 50) + ((1 : ℕ) : ℝ) / 5 * (phiR (rad 50.1) - phiR (rad 50))| ≤ mTop := by
    have m1 := abs_le.1 (top ha)
    have m2 := abs_le.1 (top hb)
    rw [abs_le]
    push_cast
    constructor <;> linarith [m1.1, m1.2, m2.1, m2.2]
  have sp := seen_of hp
  obtain ⟨θ, eθ⟩ : ∃ θ, θ = zetaR (phiR (rad 50) + ((1 : ℕ) : ℝ) / 5 * (phiR (rad 50.1) - phiR (rad 50)))
    - (phiR (rad 50) + ((1 : ℕ) : ℝ) / 5 * (phiR (rad 50.1) - phiR (rad 50))) := ⟨_, rfl⟩
  rw [← eθ] at sp
  obtain ⟨out, e1, e2⟩ := C106_run prec_ieee lib_ieee (by norm_num) 1 270 (Or.inl rfl) (fun _ j => deg (rad (40 + 0.1 * j) - phiR (rad (40 + 0.1 * j))))
    (fun _ _ => 0) (fun _ j => 40 + 0.1 * j) junk
  refine ⟨out, θ, _, e1, sp, ?_⟩
  have hrd : ∀ x : ℝ, rad (deg x) = x := by
    intro x
    have := pi_ne_zero
    unfold rad deg
    field_simp
  have h0 : rad 0 = 0 := by unfold rad; ring
  have hsp : ∀ x : ℝ, spherePoint 6370997 (deg x) 0 = scanPoint 6370997 (1, 0, 0) (0, 1, 0) x := by
    intro x
    simp [spherePoint, scanPoint, hrd, h0]
  have c1 : (40 + 0.1 * ((100 : ℕ) : ℝ)) = 50 := by norm_num
  have c2 : (40 + 0.1 * ((100 + 1 : ℕ) : ℝ)) = 50.1 := by norm_num
  -- sizes
  have hφ : |phiR (rad 50.1) - phiR (rad 50)| ≤ 0.0016 := by
    have := phiR_lip (rad 50.1) (rad 50)
    have e : |rad 50.1 - rad 50| = 0.1 * (π / 180) := by
      unfold rad
      rw [show (50.1 : ℝ) * (π / 180) - 50 * (π / 180) = 0.1 * (π / 180) by ring, abs_of_pos (by positivity)]
    rw [e] at this
    have hk := kap_bounds.2
    have h3 : kap * (0.1 * (π / 180)) ≤ 0.9 * (0.1 * (π / 180)) := by gcongr; linarith
    linarith
  have za : zetaR (phiR (rad 50)) = rad 50 := zeta_phi (by unfold rad; rw [abs_of_pos (by positivity)]; linarith)
  have zb : zetaR (phiR (rad 50.1)) = rad 50.1 := zeta_phi (by unfold rad; rw [abs_of_pos (by positivity)]; linarith)
  have hθ : |(rad 50.1 - phiR (rad 50.1)) - (rad 50 - phiR (rad 50))| ≤ 0.0013 := by
    have := zeta_sub_lip (top hb) (top ha)
    rw [za, zb] at this
    linarith
  have small : ∀ {p : ℝ}, |p| ≤ mTop → |zetaR p - p| ≤ 0.84 := by
    intro p hp
    have h0 := zeta_sub_lip hp (y := 0) (by rw [abs_zero]; exact mTop_nonneg)
    have z0 : zetaR 0 = 0 := by simp [zetaR]
    rw [z0, sub_zero, sub_zero, sub_zero] at h0
    have hm := mTop_lt
    linarith
  have hdeg : ∀ x : ℝ, |x| ≤ 0.84 → |deg x| ≤ 60 := by
    intro x hx
    unfold deg
    rw [abs_mul, abs_of_pos (show (0 : ℝ) < 180 / π by positivity)]
    have h3 : 180 / π ≤ 180 / 3 := by gcongr
    have := mul_le_mul hx h3 (by positivity) (by norm_num)
    norm_num at this ⊢
    linarith
  have hd50 := hdeg _ (by have := small (top ha); rwa [za] at this)
  have hd51 := hdeg _ (by have := small (top hb); rwa [zb] at this)
  have hdθ := hdeg θ (by rw [eθ]; exact small hp)
  have hgap : zenithGap 50 50.1 = 0.1 := by norm_num [zenithGap, abs_of_neg]
  obtain ⟨es, hes⟩ : ∃ es : ℝ, es = (48000 * |((1 : ℕ) : ℝ) / 5 * (1 - ((1 : ℕ) : ℝ) / 5)| + 2500) * (1 / 2 ^ 24 / zenithGap 50 50.1) + 80 * (1 / 2 ^ 24) := ⟨_, rfl⟩
  obtain ⟨δ, hδ⟩ : ∃ δ : ℝ, δ = 20 * (1 / 2 ^ 24) * (1 + 2 * es) + 0.0013 * (1.001 * es + 1.85 * (1 / 2 ^ 24)) := ⟨_, rfl⟩
  obtain ⟨η', hη⟩ : ∃ η', η' = (|phiR (rad 50.1) - phiR (rad 50)| ^ 3
    + ((rad 50.1 - phiR (rad 50.1)) - (rad 50 - phiR (rad 50))) ^ 2 / 7 + 1.42 * δ) / cos (rad 0) := ⟨_, rfl⟩
  have bes : es ≤ 0.00608 := by
    rw [hes, hgap]
    norm_num [abs_of_pos]
  have bδ : δ ≤ 1e-5 := by rw [hδ]; norm_num at bes ⊢; linarith
  have bη : η' ≤ 1.5e-5 := by
    rw [hη, h0, cos_zero, div_one]
    have g1 : |phiR (rad 50.1) - phiR (rad 50)| ^ 3 ≤ 0.0016 ^ 3 := by gcongr
    have g2 : ((rad 50.1 - phiR (rad 50.1)) - (rad 50 - phiR (rad 50))) ^ 2 ≤ 0.0013 ^ 2 := by
      rw [← sq_abs]; gcongr
    norm_num at g1 g2 bδ ⊢
    linarith
  have hcell : CellSize (fun _ j => deg (rad (40 + 0.1 * (j : ℝ)) - phiR (rad (40 + 0.1 * (j : ℝ))))) (fun _ _ => 0) 0 100 (0.0013 * 6370997) := by
    have hx := abs_cos_sub_cos_le (rad 50.1 - phiR (rad 50.1)) (rad 50 - phiR (rad 50))
    have hy := abs_sin_sub_sin_le (rad 50.1 - phiR (rad 50.1)) (rad 50 - phiR (rad 50))
    have hW : (0 : ℝ) ≤ 0.0013 * 6370997 := by norm_num
    have key : ∀ l, |coord (spherePoint 6370997 (deg (rad 50.1 - phiR (rad 50.1))) 0) l - coord (spherePoint 6370997 (deg (rad 50 - phiR (rad 50))) 0) l|
        ≤ 0.0013 * 6370997 := by
      intro l
      rw [hsp, hsp]
      have hR : |(6370997 : ℝ)| = 6370997 := abs_of_pos (by norm_num)
      rcases l with _ | _ | l
      · simp only [coord, scanPoint, mul_one, mul_zero, add_zero, if_true]
        rw [← mul_sub, abs_mul, hR, mul_comm]
        gcongr
        exact hx.trans hθ
      · simp only [coord, scanPoint, mul_one, mul_zero, zero_add, Nat.one_ne_zero, if_false, if_true]
        rw [← mul_sub, abs_mul, hR, mul_comm]
        gcongr
        exact hy.trans hθ
      · simp only [coord, scanPoint, mul_zero, add_zero, show ¬ (l + 1 + 1 = 0) by omega, show ¬ (l + 1 + 1 = 1) by omega, if_false, sub_self,
          abs_zero]
        exact hW
    intro l
    simp only [c1, c2]
    refine ⟨key l, key l, ?_, ?_⟩ <;> rw [sub_self, abs_zero] <;> exact hW
  have fin := (e2 0 100 1 0 (by norm_num) (by norm_num) (by norm_num) rfl
    (by
      rintro i' j' - (rfl | rfl)
      · simp only [c1]; exact ⟨hd50.trans (by norm_num), by norm_num⟩
      · simp only [c2]; exact ⟨hd51.trans (by norm_num), by norm_num⟩)
    (by
      simp only [c1, c2]
      exact ⟨ha, hb, by rw [hgap]; norm_num, Or.inl (by rw [hgap]; norm_num)⟩)
    (by simp only [c1, c2]; norm_num [abs_le]) 0.0013 hcell (1, 0, 0) (0, 1, 0) (phiR (rad 50)) (phiR (rad 50.1)) (rad 50 - phiR (rad 50))
    (rad 50.1 - phiR (rad 50.1)) θ _ (deg θ) 0 (by norm_num [Orthonormal, dot]) (by simp only [c1]; exact seen_zenith ha)
    (by simp only [c2]; exact seen_zenith hb) (by simp only [c1]; exact hsp _) (by simp only [c2]; exact hsp _) sp (hdθ.trans (by norm_num))
    (by norm_num) (hsp θ) es δ η' (by simp only [c1, c2]; exact hes) hδ hη (bη.trans (by norm_num))).1
  obtain ⟨L, hL, hcase⟩ := fin
  refine ⟨L, hL, ?_⟩
  have hsq : √((1 : ℝ) / 2 ^ 53) ≤ 1e-7 := by
    rw [sqrt_le_left (by norm_num)]
    norm_num
  rcases hcase with ⟨k, hk, hk'⟩ | ⟨-, hc⟩
  · refine ⟨k, hk, hk'.trans ?_⟩
    norm_num at bη hsq ⊢
    linarith
  · exfalso
    norm_num at bη
    linarith

end Verif.Props
