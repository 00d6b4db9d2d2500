import Verif.Props.BowTieCell
import Verif.Props.ScanRounded

/-!
# C110: computed positions of the pixels of a cell against the points that the instrument sees, with rounding

`C69` bounds the error of the rounded computation against the exact interpolation, `C109` the error of the exact interpolation against the
viewing geometry, in both directions of the scan.  Together: what every conversion of the zenith-angle MODIS interpolator returns for
float32 arrays, for every pixel of a cell of tie points, is near the point that the instrument sees.
-/

namespace Verif.Props
open Verif Verif.Modis Verif.Spec.Modis Verif.Geo Verif.Spec Real

/-- the sum of two vectors is at most as long as both together -/
theorem sum_len {x y z x' y' z' U V : ℝ} (hU : 0 ≤ U) (hV : 0 ≤ V) (h1 : x ^ 2 + y ^ 2 + z ^ 2 ≤ U ^ 2) (h2 : x' ^ 2 + y' ^ 2 + z' ^ 2 ≤ V ^ 2) :
    (x + x') ^ 2 + (y + y') ^ 2 + (z + z') ^ 2 ≤ (U + V) ^ 2 := by
  have h3 : (x * x' + y * y' + z * z') ^ 2 ≤ (U * V) ^ 2 := by
    have e : (x * x' + y * y' + z * z') ^ 2 = (x ^ 2 + y ^ 2 + z ^ 2) * (x' ^ 2 + y' ^ 2 + z' ^ 2)
        - ((x * y' - y * x') ^ 2 + (y * z' - z * y') ^ 2 + (z * x' - x * z') ^ 2) := by ring
    have g := mul_le_mul h1 h2 (by positivity) (sq_nonneg U)
    have g1 := sq_nonneg (x * y' - y * x')
    have g2 := sq_nonneg (y * z' - z * y')
    have g3 := sq_nonneg (z * x' - x * z')
    rw [e, mul_pow]
    linarith
  have h4 := abs_le_of_sq_le_sq h3 (mul_nonneg hU hV)
  have h5 := le_abs_self (x * x' + y * y' + z * z')
  linarith

/-- a point near `q` up to a factor near 1 is near `q` -/
private theorem unscale {R U V lam : ℝ} {B q : ℝ × ℝ × ℝ} (hR : 0 < R) (hU : 0 ≤ U) (hV : |lam - 1| ≤ V) (hV1 : V ≤ 0.0008)
    (h1 : distSq (scale lam B) q ≤ (R * U) ^ 2) (hq : normSq q = R ^ 2) : distSq B q ≤ (R * (1.001 * (U + V))) ^ 2 := by
  have hV0 : 0 ≤ V := (abs_nonneg _).trans hV
  have hl : 0.9992 ≤ lam := by have := (abs_le.1 hV).1; linarith
  have h2 : ((1 - lam) * q.1) ^ 2 + ((1 - lam) * q.2.1) ^ 2 + ((1 - lam) * q.2.2) ^ 2 ≤ (R * V) ^ 2 := by
    have e : ((1 - lam) * q.1) ^ 2 + ((1 - lam) * q.2.1) ^ 2 + ((1 - lam) * q.2.2) ^ 2 = R ^ 2 * |lam - 1| ^ 2 := by
      rw [sq_abs, ← hq]; unfold normSq; ring
    rw [e, mul_pow]
    exact mul_le_mul_of_nonneg_left (pow_le_pow_left₀ (abs_nonneg _) hV 2) (sq_nonneg R)
  have h3 := sum_len (mul_nonneg hR.le hU) (mul_nonneg hR.le hV0) h1 h2
  have e : (lam * B.1 - q.1 + (1 - lam) * q.1) ^ 2 + (lam * B.2.1 - q.2.1 + (1 - lam) * q.2.1) ^ 2
      + (lam * B.2.2 - q.2.2 + (1 - lam) * q.2.2) ^ 2 = lam ^ 2 * distSq B q := by
    unfold distSq; ring
  simp only [scale] at h3
  rw [e] at h3
  have hl2 : (0.9992 : ℝ) ^ 2 ≤ lam ^ 2 := pow_le_pow_left₀ (by norm_num) hl 2
  have h4 := mul_le_mul_of_nonneg_right hl2 (show 0 ≤ distSq B q by unfold distSq; positivity)
  have h5 : (0.9992 : ℝ) ^ 2 * distSq B q ≤ 0.9992 ^ 2 * (R * (1.001 * (U + V))) ^ 2 := by
    refine (h4.trans h3).trans ?_
    rw [← mul_pow]
    refine pow_le_pow_left₀ (by positivity) ?_ 2
    have := mul_nonneg hR.le (add_nonneg hU hV0)
    linarith
  exact le_of_mul_le_mul_left h5 (by norm_num)

/-- the sizes -/
private theorem size_core {R h η d L U W G : ℝ} (h0 : 0 ≤ h) (hη0 : 0 ≤ η) (hη : η ≤ 0.001) (hU0 : 0 ≤ U) (hU7 : U ≤ 7.3) (hW0 : 0 ≤ W) (hG : 0 ≤ G)
    (hL : L ≤ R ^ 2 * (2 * (G * h ^ 3 + 20 * U * W * η ^ 2 * h + 400 * U * η ^ 4) ^ 2 + (U * η * (0.15 * d ^ 2 + 1.2 * U * η ^ 2)) ^ 2)) :
    L ≤ (R * (1.415 * (G * h ^ 3 + 20 * U * W * η ^ 2 * h + 400 * U * η ^ 4) + 0.0073 * (0.15 * d ^ 2 + 1.2 * U * η ^ 2))) ^ 2 ∧
      1.001 * ((1.415 * (G * h ^ 3 + 20 * U * W * η ^ 2 * h + 400 * U * η ^ 4) + 0.0073 * (0.15 * d ^ 2 + 1.2 * U * η ^ 2))
          + (0.15 * d ^ 2 + 1.2 * U * η ^ 2))
        ≤ 1.42 * G * h ^ 3 + d ^ 2 / 6 + U * η ^ 2 * (1.3 + 29 * W * h) := by
  obtain ⟨E, eE⟩ : ∃ E, E = G * h ^ 3 + 20 * U * W * η ^ 2 * h + 400 * U * η ^ 4 := ⟨_, rfl⟩
  obtain ⟨V, eV⟩ : ∃ V, V = 0.15 * d ^ 2 + 1.2 * U * η ^ 2 := ⟨_, rfl⟩
  have hE : 0 ≤ E := by rw [eE]; positivity
  have hV : 0 ≤ V := by rw [eV]; positivity
  constructor
  · rw [← eE, ← eV] at hL ⊢
    refine hL.trans ?_
    rw [mul_pow R]
    refine mul_le_mul_of_nonneg_left ?_ (sq_nonneg R)
    have g0 : U * η ≤ 0.0073 := (mul_le_mul hU7 hη hη0 (by norm_num)).trans (by norm_num)
    have g1 : (U * η * V) ^ 2 ≤ (0.0073 * V) ^ 2 := pow_le_pow_left₀ (by positivity) (mul_le_mul_of_nonneg_right g0 hV) 2
    have g2 := mul_nonneg hE hV
    have g3 := sq_nonneg E
    nlinarith
  · have g1 : 0 ≤ G * h ^ 3 := by positivity
    have g2 : 0 ≤ U * W * η ^ 2 * h := by positivity
    have g5 : 0 ≤ U * η ^ 2 := by positivity
    have g3 : U * η ^ 4 ≤ 0.000001 * (U * η ^ 2) := by
      have : η ^ 2 ≤ 0.000001 := (pow_le_pow_left₀ hη0 hη 2).trans (by norm_num)
      have := mul_le_mul_of_nonneg_right this g5
      calc _ = η ^ 2 * (U * η ^ 2) := by ring
        _ ≤ _ := this
    have g4 := sq_nonneg d
    linarith

theorem cos_lat_pos {la : ℝ} (h : |la| < 90) : 0 < cos (rad la) := by
  have := abs_lt.1 h
  have hpi := pi_pos
  apply cos_pos_of_mem_Ioo
  unfold rad
  constructor <;> nlinarith

/-- neighbouring tie points are near each other -/
private theorem near_core {W x y d : ℝ} (hW : 0 ≤ W) (hg : W * |x| ≤ 5) (h1 : d ≤ 0.8 * y) (h2 : y ≤ kap * (|x| * (π / 180))) : W * d ≤ 0.072 := by
  have hpi := pi_lt_d2
  have hpi0 := pi_pos
  have hkb := kap_bounds
  have h5 : W * |x| * (π / 180) ≤ 5 * (π / 180) := mul_le_mul_of_nonneg_right hg (by positivity)
  have h4 : kap * (W * |x| * (π / 180)) ≤ 1 * (5 * (π / 180)) := mul_le_mul (by linarith) h5 (by positivity) (by norm_num)
  have h6 := mul_le_mul_of_nonneg_left h2 hW
  have h7 := mul_le_mul_of_nonneg_left h1 hW
  linarith

/-- neighbouring tie points, coordinate by coordinate -/
theorem side_coord {e g f p q : ℝ × ℝ × ℝ} {s ω : ℝ} (hF : Frame e g f) (hs : 0 ≤ s) (h : s ≤ ω) (hd : distSq p q ≤ (Rk * s) ^ 2) (l : Nat) :
    |coord (inFrame e g f (scale 1000 q)) l - coord (inFrame e g f (scale 1000 p)) l| ≤ ω * 6370997 := by
  have hR : (0 : ℝ) < Rk := Rk_pos
  have e0 : distSq (inFrame e g f (scale 1000 p)) (inFrame e g f (scale 1000 q)) ≤ (s * 6370997) ^ 2 := by
    rw [frame_dist hF]
    have e1 : distSq (scale 1000 p) (scale 1000 q) = 1000 ^ 2 * distSq p q := by simp only [distSq, scale]; ring
    have hRk : (6370997 : ℝ) = 1000 * Rk := by norm_num [Rk]
    rw [e1, hRk]
    calc _ ≤ 1000 ^ 2 * (Rk * s) ^ 2 := by gcongr
      _ = _ := by ring
  generalize inFrame e g f (scale 1000 p) = P at *
  generalize inFrame e g f (scale 1000 q) = Q at *
  simp only [distSq] at e0
  refine le_trans ?_ (mul_le_mul_of_nonneg_right h (by norm_num))
  apply abs_le_of_sq_le_sq _ (by positivity)
  have s1 := sq_nonneg (P.1 - Q.1)
  have s2 := sq_nonneg (P.2.1 - Q.2.1)
  have s3 := sq_nonneg (P.2.2 - Q.2.2)
  unfold coord
  split_ifs <;> linarith

/-- near a point of the sphere in space, hence in longitude and latitude -/
theorem near_of_dist {R D lo la : ℝ} {P q : ℝ × ℝ × ℝ} (hR : 0 < R) (hD : 0 ≤ D) (hla : |la| < 90) (hq : spherePoint R lo la = q)
    (h : distSq P q ≤ (R * D) ^ 2) : NearSphere R (D / cos (rad la)) lo la P := by
  have hcl := cos_lat_pos hla
  unfold NearSphere
  rw [hq, show D / cos (rad la) * (R * cos (rad la)) = R * D by field_simp]
  simp only [distSq] at h
  constructor
  · linarith [sq_nonneg (P.2.2 - q.2.2)]
  · have : |P.2.2 - q.2.2| ≤ R * D := by
      apply abs_le_of_sq_le_sq _ (by positivity)
      linarith [sq_nonneg (P.1 - q.1), sq_nonneg (P.2.1 - q.2.1)]
    refine this.trans ?_
    have := mul_le_mul_of_nonneg_left (le_div_self hD hcl (cos_le_one (rad la))) hR.le
    linarith

/-- the rounding error grows with the weights -/
private theorem round_core {ε es ω κ K K' : ℝ} (hε : 0 ≤ ε) (hω : 0 ≤ ω) (hκ : 0 ≤ κ) (hK : K ≤ K') :
    20 * ε * (κ * (K + 2 * es)) + ω * (1.001 * κ * es + 1.85 * K * ε) ≤ 20 * ε * (κ * (K' + 2 * es)) + ω * (1.001 * κ * es + 1.85 * K' * ε) := by
  have g1 := mul_le_mul_of_nonneg_left hK hε
  have g3 := mul_le_mul_of_nonneg_left g1 hκ
  have g2 := mul_le_mul_of_nonneg_left g1 hω
  linarith

set_option maxHeartbeats 1000000 in
/-- the distance of the point that the code makes of four tie points from the point seen, for the geometry of `C109_cell` in some position
of the satellite -/
theorem cell_near (w : Nat) (hw : w ≤ 5) {a b φa φb θa θb σ T U W G θ ζ θm ζm h d η : ℝ} {e g f p00 p01 p10 p11 p : ℝ × ℝ × ℝ} (hF : Frame e g f)
    (ha : |a| ≤ 70) (hb : |b| ≤ 70) (hne : a ≠ b) (hW : 1 ≤ W) (hg : W * |a - b| ≤ 5) (sa : Seen Rk Hk φa θa (rad a)) (sb : Seen Rk Hk φb θb (rad b))
    (hσ : 0 ≤ σ ∧ σ ≤ 1 ∨ 1.13 * |2 * σ - 1| ≤ W ∧ |ζ| ≤ rad 70) (hU1 : 1 ≤ U) (hUT : (2 * T - 1) ^ 2 ≤ U) (hU7 : U ≤ 7.3)
    (eG : G = 18 * |σ * (σ - 1 / 2) * (σ - 1)| + 0.2 * W ^ 3) (eh : h = |φb - φa|) (ed : d = |θb - θa|) (eη : η = halfWidth w θm / Rk)
    (sp : Seen Rk Hk (φa + σ * (φb - φa)) θ ζ) (sm : Seen Rk Hk ((φa + φb) / 2) θm ζm)
    (h00 : Hit Rk Hk φa (-halfWidth w θm) p00) (h01 : Hit Rk Hk φb (-halfWidth w θm) p01)
    (h10 : Hit Rk Hk φa (halfWidth w θm) p10) (h11 : Hit Rk Hk φb (halfWidth w θm) p11)
    (hp : Hit Rk Hk (φa + σ * (φb - φa)) ((2 * T - 1) * halfWidth w θm) p) :
    ∃ ce ca S, expansionAlignment w (FP.val a : FP ℝ) (FP.val b) = (FP.val ce, FP.val ca) ∧ S = σ + σ * (1 - σ) * ce + T * (1 - T) * ca ∧
      |S| + |1 - S| ≤ W + 3.2 * U * η ^ 2 / d ∧ |ca| * d ≤ 6.3 * η ^ 2 ∧ 0 ≤ η ∧
      (distSq p00 p01 ≤ (Rk * (1.002 * d)) ^ 2 ∧ distSq p10 p11 ≤ (Rk * (1.002 * d)) ^ 2 ∧
        distSq p00 p10 ≤ (Rk * (2 * η)) ^ 2 ∧ distSq p01 p11 ≤ (Rk * (2 * η)) ^ 2) ∧
      distSq (inFrame e g f (scale 1000 (chordPoint (chordPoint p00 p01 S) (chordPoint p10 p11 S) T))) (inFrame e g f (scale 1000 p))
        ≤ (6370997 * (1.42 * G * h ^ 3 + (W * d) ^ 2 / 6 + U * η ^ 2 * (1.3 + 29 * W * h))) ^ 2 := by
  have hU0 : 0 ≤ U := by linarith
  have hW0 : 0 ≤ W := by linarith
  have hG0 : 0 ≤ G := by rw [eG]; positivity
  obtain ⟨ce, ca, S, lam, ex, eS, l0, ls, l9, l1, l2, l3, v1, v2, v3, v4, v5⟩ := C109_cell w hw ha hb hne hW hg sa sb hσ
    hU1 hUT hU7 sp sm h00 h01 h10 h11 hp
  obtain ⟨B, eB⟩ : ∃ B, B = chordPoint (chordPoint p00 p01 S) (chordPoint p10 p11 S) T := ⟨_, rfl⟩
  -- the sizes
  have mm : |(φa + φb) / 2| ≤ mTop := by
    have ma := (seen_phi ha sa).2.2
    have mb := (seen_phi hb sb).2.2
    rw [abs_le] at *
    constructor <;> linarith [ma.1, ma.2, mb.1, mb.2]
  obtain ⟨-, d0, d1, -⟩ := half_small w hw mm sm
  rw [← eη] at d0 d1 ls l9 v3 v4 v5
  rw [← ed] at ls l9 l2 v1 v2 v5
  rw [← eB, ← eη] at l1 l2 l3
  rw [← eh, ← eG] at l1 l3
  have hh0 : 0 ≤ h := by rw [eh]; exact abs_nonneg _
  have hdup : W * d ≤ 0.072 := by
    have ma := seen_phi ha sa
    have mb := seen_phi hb sb
    have g1 := zeta_sub_lip mb.2.2 ma.2.2
    obtain ⟨za, ta'⟩ := seen_iff sa
    obtain ⟨zb, tb'⟩ := seen_iff sb
    rw [← tb', ← ta', ← ed] at g1
    have g2 := phiR_lip (rad b) (rad a)
    rw [← ma.1, ← mb.1] at g2
    have h3 : |rad (b) - rad (a)| = |a - b| * (π / 180) := by
      unfold rad
      rw [← sub_mul, abs_mul, abs_of_pos (show (0 : ℝ) < π / 180 by positivity), abs_sub_comm]
    rw [h3] at g2
    exact near_core hW0 hg g1 g2
  have hd0 : 0 ≤ d := by rw [ed]; exact abs_nonneg _
  have hV1 : 0.15 * (W * d) ^ 2 + 1.2 * U * η ^ 2 ≤ 0.0008 := by
    have g1 : (W * d) ^ 2 ≤ 0.072 ^ 2 := pow_le_pow_left₀ (by positivity) hdup 2
    have g2 : η ^ 2 ≤ 0.001 ^ 2 := pow_le_pow_left₀ d0 d1 2
    have g3 := mul_le_mul hU7 g2 (sq_nonneg η) (by norm_num)
    norm_num at g1 g3 ⊢
    linarith
  have hRk : (6370997 : ℝ) = 1000 * Rk := by norm_num [Rk]
  have hR : (0 : ℝ) < Rk := Rk_pos
  have hdist : distSq (scale lam (inFrame e g f (scale 1000 B))) (inFrame e g f (scale 1000 p)) ≤ 6370997 ^ 2 *
      (2 * (G * h ^ 3 + 20 * U * W * η ^ 2 * h + 400 * U * η ^ 4) ^ 2 + (U * η * (0.15 * (W * d) ^ 2 + 1.2 * U * η ^ 2)) ^ 2) := by
    have e1 : scale lam (inFrame e g f (scale 1000 B)) = inFrame e g f (scale 1000 (scale lam B)) := by
      simp only [inFrame, scale]
      refine Prod.ext ?_ (Prod.ext ?_ ?_) <;> ring
    rw [e1, frame_dist hF, hRk]
    simp only [distSq, scale]
    have sq1 : ∀ {x y b : ℝ}, |lam * x - y| ≤ Rk * b → (1000 * (lam * x) - 1000 * y) ^ 2 ≤ (1000 * Rk) ^ 2 * b ^ 2 := by
      intro x y b hx
      have := pow_le_pow_left₀ (abs_nonneg _) hx 2
      rw [sq_abs] at this
      calc _ = 1000 ^ 2 * (lam * x - y) ^ 2 := by ring
        _ ≤ 1000 ^ 2 * (Rk * b) ^ 2 := by gcongr
        _ = _ := by ring
    have a1 := sq1 l1
    have a2 := sq1 l2
    have a3 := sq1 l3
    linarith
  obtain ⟨z1, z2⟩ := size_core hh0 d0 d1 hU0 hU7 hW0 hG0 hdist
  have hnorm : normSq (inFrame e g f (scale 1000 p)) = 6370997 ^ 2 := by
    obtain ⟨l, -, -, hn, -⟩ := hp
    have g0 := frame_dist hF (scale 1000 p) (0, 0, 0)
    have g1 : distSq (inFrame e g f (scale 1000 p)) (inFrame e g f (0, 0, 0)) = normSq (inFrame e g f (scale 1000 p)) := by
      simp only [distSq, normSq, inFrame]
      ring
    rw [← g1, g0, hRk]
    simp only [distSq, scale]
    linear_combination 1000 ^ 2 * hn
  have hun := unscale (by norm_num) (by positivity) l9 hV1 z1 hnorm
  rw [eB] at hun
  exact ⟨ce, ca, S, ex, eS, ls, v5, d0, ⟨v1, v2, v3, v4⟩,
    hun.trans (pow_le_pow_left₀ (by positivity) (mul_le_mul_of_nonneg_left z2 (by norm_num)) 2)⟩

open Mx in
set_option maxHeartbeats 1000000 in
/-- **C110**: every conversion of the zenith-angle MODIS interpolator as the code runs it (float32 arrays, double constants and functions),
whole scans, every pixel, the fraction `T` of the way along the track and `σ` along the scan (both outside the cell of tie points
in the first and the last rows and columns of a scan).  The tie points are those seen as in `C109_cell`, in some position of the satellite;
the pixel is seen at longitude `lon'` and latitude `lat'`.  With `h` the difference of the scan angles of the tie points, `d` their distance
along the scan and `η` half their distance along the track in units of the radius, the longitude reported is within
`270 sqrt εd + 98 η' + 190 ε` degrees of `lon'` on the circle and the latitude within `115 η' + 95 ε` degrees of `lat'`, where
`η' = (1.42 G h³ + (W d)² / 6 + U η² (1.3 + 29 W h) + 1.42 δ) / cos lat'`, `G = 18 |σ (σ - 1/2) (σ - 1)| + 0.2 W³`, `U` is the larger one of
1 and `(2 T - 1)²`, `W` is as in `C109_cell` (1 between the columns, where `G` is less than 1.07) and
`δ` is the rounding error (C69, for a cell of size `ω = 1.002 d + 2 η`, weights along the track that add up to `κ = |T| + |1 - T|` and
weights along the scan that add up to at most `K = W + 3.2 U η² / d`); only within `90 η'` degrees of the
180-degree meridian longitude 0 may be reported instead (C07). -/
theorem C110_run {q : Mixed} {ε : ℝ} (hP : Prec q ε) {εd : ℝ} (hd : Err.LibRel q.d εd) (hεd : εd ≤ ε / 1000) (c : Conv) (n w : Nat)
    (hw : c.WidthOk w) (lon lat satz : Nat → Nat → ℝ) (junk : Nat → Nat → Nat → Nat → Mx q) :
    ∃ out, c.run ⟨n * c.scanRows, w, fun i j => sgl (lon i j)⟩ ⟨n * c.scanRows, w, fun i j => sgl (lat i j)⟩
        ⟨n * c.scanRows, w, fun i j => sgl (satz i j)⟩ junk = .ok out ∧
      ∀ r k i j : Nat, r < n * c.scanRows * c.factor → k < c.outCols → i = tieRow c w r → j = tieCol c w k →
        ∃ T σ, rowPos c w (r % (c.scanRows * c.factor)) = FP.val ((cellRow (c.cfg w) (r % (c.scanRows * c.factor)) : ℝ) + T) ∧
          colPos c w k = FP.val ((j : ℝ) + σ) ∧
          ∀ (e g f : ℝ × ℝ × ℝ) (φa φb θa θb θ ζ θm ζm h d η U W G κ : ℝ) (p00 p01 p10 p11 p : ℝ × ℝ × ℝ), Frame e g f →
            1 ≤ W → 0 ≤ σ ∧ σ ≤ 1 ∨ 1.13 * |2 * σ - 1| ≤ W ∧ |ζ| ≤ rad 70 → U = max 1 ((2 * T - 1) ^ 2) →
            G = 18 * |σ * (σ - 1 / 2) * (σ - 1)| + 0.2 * W ^ 3 → κ = |T| + |1 - T| →
            (∀ i' j', (i' = i ∨ i' = i + 1) → (j' = j ∨ j' = j + 1) → |lon i' j'| ≤ 180 ∧ |lat i' j'| ≤ 90) →
            ZenithsOk ε (satz i j) (satz i (j + 1)) → satz i j ≠ satz i (j + 1) → W * |satz i j - satz i (j + 1)| ≤ 5 →
            Seen Rk Hk φa θa (rad (satz i j)) → Seen Rk Hk φb θb (rad (satz i (j + 1))) →
            Seen Rk Hk (φa + σ * (φb - φa)) θ ζ → Seen Rk Hk ((φa + φb) / 2) θm ζm →
            h = |φb - φa| → d = |θb - θa| → η = halfWidth (c.cfg w).perKm θm / Rk →
            Hit Rk Hk φa (-halfWidth (c.cfg w).perKm θm) p00 → Hit Rk Hk φb (-halfWidth (c.cfg w).perKm θm) p01 →
            Hit Rk Hk φa (halfWidth (c.cfg w).perKm θm) p10 → Hit Rk Hk φb (halfWidth (c.cfg w).perKm θm) p11 →
            Hit Rk Hk (φa + σ * (φb - φa)) ((2 * T - 1) * halfWidth (c.cfg w).perKm θm) p →
            spherePoint 6370997 (lon i j) (lat i j) = inFrame e g f (scale 1000 p00) →
            spherePoint 6370997 (lon i (j + 1)) (lat i (j + 1)) = inFrame e g f (scale 1000 p01) →
            spherePoint 6370997 (lon (i + 1) j) (lat (i + 1) j) = inFrame e g f (scale 1000 p10) →
            spherePoint 6370997 (lon (i + 1) (j + 1)) (lat (i + 1) (j + 1)) = inFrame e g f (scale 1000 p11) →
            ∀ lon' lat', |lon'| ≤ 180 → |lat'| < 90 → spherePoint 6370997 lon' lat' = inFrame e g f (scale 1000 p) →
            ∀ es K ω δ η', es = (48000 * |σ * (1 - σ)| + 2500) * (ε / zenithGap (satz i j) (satz i (j + 1))) + 80 * ε →
              K = W + 3.2 * U * η ^ 2 / d → ω = 1.002 * d + 2 * η → δ = 20 * ε * (κ * (K + 2 * es)) + ω * (1.001 * κ * es + 1.85 * K * ε) →
              η' = (1.42 * G * h ^ 3 + (W * d) ^ 2 / 6 + U * η ^ 2 * (1.3 + 29 * W * h) + 1.42 * δ) / cos (rad lat') → η' ≤ 1 / 100 →
              (∃ L, out.1.cell r k = sgl L ∧ (LonWithin (270 * √εd + 98 * η' + 190 * ε) L lon' ∨ (L = 0 ∧ 180 - 90 * η' ≤ |lon'|))) ∧
              (∃ B, out.2.cell r k = sgl B ∧ |B - lat'| ≤ 115 * η' + 95 * ε) := by
  obtain ⟨out, eo, key69⟩ := C69_modis_pixel hP hd hεd c n w hw lon lat satz junk
  refine ⟨out, eo, fun r k i j hr hk ei ej => ?_⟩
  have hpos : 0 < c.scanRows * c.factor := by cases c <;> decide
  have hper : (c.cfg w).perKm ≤ 5 := by cases c <;> simp [Conv.cfg]
  obtain ⟨T, σ, b1, b2, y1, x1, -, -, key⟩ := weights_val c w (r := r % (c.scanRows * c.factor)) (k := k) (Nat.mod_lt _ hpos) hk
    (r / (c.scanRows * c.factor) * c.scanRows)
  refine ⟨T, σ, y1, by rw [ej]; exact x1, ?_⟩
  intro e g f φa φb θa θb θ ζ θm ζm h d η U W G κ p00 p01 p10 p11 p hF hW hσ eU eG eκ hv hz hne hg sa sb sp sm eh ed eη h00 h01 h10 h11 hp
    t00 t01 t10 t11 lon' lat' hlon hlat hsee es K ω δ η' hes hK eω hδ hη' hη1
  have hε0 := hP.pos
  obtain ⟨hU1, hUT, hU7⟩ := row_bound b1 b2 eU
  have hW0 : 0 ≤ W := by linarith
  have hU0 : 0 ≤ U := by linarith
  obtain ⟨ce, ca, S, ex, eS, ls, -, d0, ⟨v1, v2, v3, v4⟩, hun⟩ := cell_near _ hper hF hz.ha hz.hb hne hW hg sa sb hσ hU1 hUT hU7 eG eh ed eη sp sm
    h00 h01 h10 h11 hp
  have hts := key (fun i j => FP.val (satz i j)) ce ca (by rw [← ex, ei, ej]; rfl)
  rw [← eS] at hts
  have hd0 : 0 ≤ d := by rw [ed]; exact abs_nonneg _
  -- the cell
  have hω0 : 0 ≤ ω := by rw [eω]; positivity
  have hω : CellSize lon lat i j (ω * 6370997) := by
    have g1 : 1.002 * d ≤ ω := by rw [eω]; exact le_add_of_nonneg_right (by positivity)
    have g2 : 2 * η ≤ ω := by rw [eω]; exact le_add_of_nonneg_left (by positivity)
    intro l
    simp only [t00, t01, t10, t11]
    exact ⟨side_coord hF (by positivity) g1 v1 l, side_coord hF (by positivity) g1 v2 l, side_coord hF (by positivity) g2 v3 l, side_coord hF (by positivity) g2 v4 l⟩
  obtain ⟨T', S', σ', k1, k2, -, k4⟩ := key69 r k i j hr hk ei ej hv hz ω hω
  rw [hts, Prod.mk.injEq, FP.val.injEq, FP.val.injEq] at k1
  obtain ⟨rfl, rfl⟩ := k1
  obtain rfl : σ' = σ := by
    rw [x1, FP.val.injEq] at k2
    rw [ej] at k2
    have : tieCol c w k = cellCol (c.cfg w) k := rfl
    rw [this] at k2
    linarith
  -- the point of the cell
  have hcell : cellPoint lon lat i j T S = inFrame e g f (scale 1000 (chordPoint (chordPoint p00 p01 S) (chordPoint p10 p11 S) T)) := by
    unfold cellPoint
    rw [t00, t01, t10, t11]
    simp only [coord, inFrame, scale, chordPoint, if_true, Nat.one_ne_zero, if_false, OfNat.ofNat_ne_zero, OfNat.ofNat_ne_one]
    refine Prod.ext ?_ (Prod.ext ?_ ?_) <;> ring
  obtain ⟨D, eD⟩ : ∃ D, D = 1.42 * G * h ^ 3 + (W * d) ^ 2 / 6 + U * η ^ 2 * (1.3 + 29 * W * h) := ⟨_, rfl⟩
  rw [← eD] at hun hη'
  have hD0 : 0 ≤ D := by
    have hG0 : 0 ≤ G := by rw [eG]; positivity
    have hh0 : 0 ≤ h := by rw [eh]; exact abs_nonneg _
    rw [eD]; positivity
  have hnear := near_of_dist (by norm_num) hD0 hlat hsee hun
  rw [← hcell] at hnear
  -- the rounding error
  obtain ⟨δ0, hδ0⟩ : ∃ δ0, δ0 = 20 * ε * ((|T| + |1 - T|) * (|S| + |1 - S| + 2 * es))
    + ω * (1.001 * (|T| + |1 - T|) * es + 1.85 * (|S| + |1 - S|) * ε) := ⟨_, rfl⟩
  have hle : δ0 ≤ δ := by
    rw [hδ0, hδ, ← eκ]
    exact round_core hε0.le hω0 (by rw [eκ]; positivity) (by rw [hK]; exact ls)
  have hcl := cos_lat_pos hlat
  have hη0 : D / cos (rad lat') + 1.42 * δ0 / cos (rad lat') ≤ η' := by
    rw [hη', ← add_div]
    exact div_le_div_of_nonneg_right (by linarith) hcl.le
  obtain ⟨⟨L, c1, c2⟩, ⟨M, c3, c4⟩⟩ := k4 es δ0 (D / cos (rad lat')) _ lon' lat' hes hδ0 hlon hlat hnear rfl (hη0.trans hη1)
  refine ⟨⟨L, c1, ?_⟩, ⟨M, c3, c4.trans (by linarith)⟩⟩
  rcases c2 with ⟨m, m1, m2⟩ | ⟨m1, m2⟩
  · exact Or.inl ⟨m, m1, m2.trans (by linarith)⟩
  · exact Or.inr ⟨m1, by linarith⟩

/-- the pixel of the example below lies east of the satellite, near the equator -/
theorem pixel_place {x y z lo la : ℝ} (hx : 0 < z) (hy : |y| ≤ 0.001 * 6370997) (hlo : |lo| ≤ 180) (hla : |la| ≤ 90)
    (h : spherePoint 6370997 lo la = (z, x, y)) : |lo| ≤ 90 ∧ |la| < 90 ∧ 0.999 ≤ cos (rad la) := by
  simp only [spherePoint, Prod.mk.injEq] at h
  obtain ⟨h1, -, h3⟩ := h
  have hpi := pi_pos
  have hs : |sin (rad la)| ≤ 0.001 := by
    rw [← h3, abs_mul, abs_of_pos (by norm_num : (0:ℝ) < 6370997)] at hy
    linarith
  have hla2 : |rad la| ≤ π / 2 := by
    unfold rad
    rw [abs_mul, abs_of_pos (by positivity : 0 < π / 180)]
    nlinarith
  have hc0 : 0 ≤ cos (rad la) := cos_nonneg_of_mem_Icc ⟨(abs_le.1 hla2).1, (abs_le.1 hla2).2⟩
  have hc : 0.999 ≤ cos (rad la) := by
    have g := sin_sq_add_cos_sq (rad la)
    have g2 : sin (rad la) ^ 2 ≤ 0.001 ^ 2 := by rw [← sq_abs]; exact pow_le_pow_left₀ (abs_nonneg _) hs 2
    nlinarith
  refine ⟨?_, lt_of_le_of_ne hla ?_, hc⟩
  · by_contra hn
    push Not at hn
    have : cos (rad lo) ≤ 0 := by
      rw [← cos_abs]
      have e : |rad lo| = |lo| * (π / 180) := by unfold rad; rw [abs_mul, abs_of_pos (by positivity : 0 < π / 180)]
      rw [e]
      exact cos_nonpos_of_pi_div_two_le_of_le (by nlinarith) (by nlinarith)
    have : 6370997 * cos (rad la) * cos (rad lo) ≤ 0 := mul_nonpos_of_nonneg_of_nonpos (by positivity) this
    linarith
  · intro h90
    have : cos (rad la) = 0 := by
      rw [← cos_abs]
      have e : |rad la| = |la| * (π / 180) := by unfold rad; rw [abs_mul, abs_of_pos (by positivity : 0 < π / 180)]
      rw [e, h90, show (90 : ℝ) * (π / 180) = π / 2 by ring, cos_pi_div_two]
    linarith

/-- the numbers of the example below -/
private theorem numbers {h d η es δ η' C : ℝ} (h0 : 0 ≤ h) (hh : h ≤ 0.0016) (d0 : 0.00016 ≤ d) (hd : d ≤ 0.0013) (η0 : 0 ≤ η) (hη : η ≤ 0.001)
    (hC : 0.999 ≤ C) (hes : es = (48000 * |(2 : ℝ) / 5 * (1 - 2 / 5)| + 2500) * (1 / 2 ^ 24 / 0.1) + 80 * (1 / 2 ^ 24))
    (hδ : δ = 20 * (1 / 2 ^ 24) * (1 * ((1 + 3.2 * 1 * η ^ 2 / d) + 2 * es))
      + (1.002 * d + 2 * η) * (1.001 * 1 * es + 1.85 * (1 + 3.2 * 1 * η ^ 2 / d) * (1 / 2 ^ 24)))
    (hη' : η' = (1.42 * 0.632 * h ^ 3 + (1 * d) ^ 2 / 6 + 1 * η ^ 2 * (1.3 + 29 * 1 * h) + 1.42 * δ) / C) : η' ≤ 4.6e-5 := by
  rw [one_mul, one_mul, mul_one] at hη'
  rw [one_mul, mul_one, mul_one] at hδ
  have g1 : es ≤ 0.00837 := by rw [hes]; norm_num [abs_of_pos]
  have g2 : 0 ≤ es := by rw [hes]; positivity
  have g3 : η ^ 2 ≤ 0.000001 := (pow_le_pow_left₀ η0 hη 2).trans (by norm_num)
  have g4 : 3.2 * η ^ 2 / d ≤ 0.02 := by rw [div_le_iff₀ (by linarith)]; linarith
  have g5 : 0 ≤ 3.2 * η ^ 2 / d := by positivity
  have g6 : δ ≤ 3e-5 := by
    rw [hδ]
    have a : 20 * (1 / 2 ^ 24) * ((1 + 3.2 * η ^ 2 / d) + 2 * es) ≤ 20 * (1 / 2 ^ 24) * (1.02 + 2 * 0.00837) := by gcongr; linarith
    have b : (1.002 * d + 2 * η) * (1.001 * es + 1.85 * (1 + 3.2 * η ^ 2 / d) * (1 / 2 ^ 24))
        ≤ (1.002 * 0.0013 + 2 * 0.001) * (1.001 * 0.00837 + 1.85 * (1 + 0.02) * (1 / 2 ^ 24)) := by gcongr
    norm_num at a b ⊢
    linarith
  have g7 : h ^ 3 ≤ 0.0016 ^ 3 := by gcongr
  have g8 : d ^ 2 ≤ 0.0013 ^ 2 := by gcongr
  have g9 : η ^ 2 * (1.3 + 29 * h) ≤ 0.000001 * (1.3 + 29 * 0.0016) := by gcongr
  rw [hη', div_le_iff₀ (by linarith)]
  norm_num at g6 g7 g8 g9 ⊢
  linarith

set_option maxHeartbeats 1000000 in
open Mx in
/-- float32 arrays, 5 km data at 1 km, zenith angles from 50 degrees on, the pixel in row 3 and column 4 (a fifth of the way between the rows
and two fifths between the columns): it is reported within 0.006 degrees of the longitude and latitude at which it is seen -/
example : ∃ (lon lat : Nat → Nat → ℝ) (p : ℝ × ℝ × ℝ) (θm ζm lo la : ℝ), Seen Rk Hk ((phiR (rad 50) + phiR (rad 50.1)) / 2) θm ζm ∧
    Hit Rk Hk (phiR (rad 50) + 2 / 5 * (phiR (rad 50.1) - phiR (rad 50))) ((2 * (1 / 5) - 1) * halfWidth 5 θm) p ∧
    spherePoint 6370997 lo la = inFrame (0, 1, 0) (0, 0, 1) (1, 0, 0) (scale 1000 p) ∧
    ∀ junk : Nat → Nat → Nat → Nat → Mx Mixed.ieee, ∃ out, Conv.km5to1.run ⟨2, 270, fun i j => sgl (lon i j)⟩ ⟨2, 270, fun i j => sgl (lat i j)⟩
        ⟨2, 270, fun _ j => sgl (50 + 0.1 * (j : ℝ))⟩ junk = .ok out ∧
      (∃ L, out.1.cell 3 4 = sgl L ∧ LonWithin 0.006 L lo) ∧ ∃ B, out.2.cell 3 4 = sgl B ∧ |B - la| ≤ 0.006 := by
  have hpi := pi_gt_three
  have hpi' := pi_lt_d2
  have ha : |(50 : ℝ)| ≤ 70 := by norm_num [abs_le]
  have hb : |(50.1 : ℝ)| ≤ 70 := by norm_num [abs_le]
  have top : ∀ {a : ℝ}, |a| ≤ 70 → |phiR (rad a)| ≤ mTop := by
    intro a ha
    have := phiR_70 ((abs_sin_70 ha).trans (by norm_num)); linarith
  have ma := top ha
  have mb := top hb
  have seg : ∀ {s : ℝ}, 0 ≤ s → s ≤ 1 → |phiR (rad 50) + s * (phiR (rad 50.1) - phiR (rad 50))| ≤ mTop := by
    intro s s0 s1
    rw [abs_le] at ma mb ⊢
    constructor <;> nlinarith [ma.1, ma.2, mb.1, mb.2]
  have mm : |(phiR (rad 50) + phiR (rad 50.1)) / 2| ≤ mTop := by
    have := seg (s := 1 / 2) (by norm_num) (by norm_num)
    rwa [show phiR (rad 50) + 1 / 2 * (phiR (rad 50.1) - phiR (rad 50)) = (phiR (rad 50) + phiR (rad 50.1)) / 2 by ring] at this
  have mσ := seg (s := 2 / 5) (by norm_num) (by norm_num)
  have n1 : |(-1 : ℝ)| ≤ 2.7 := by norm_num
  have n2 : |(1 : ℝ)| ≤ 2.7 := by norm_num
  obtain ⟨p00, h00⟩ := cell_seen 5 le_rfl (-1) ma mb n1 (seen_of mm) ma
  obtain ⟨p01, h01⟩ := cell_seen 5 le_rfl (-1) ma mb n1 (seen_of mm) mb
  obtain ⟨p10, h10⟩ := cell_seen 5 le_rfl 1 ma mb n2 (seen_of mm) ma
  obtain ⟨p11, h11⟩ := cell_seen 5 le_rfl 1 ma mb n2 (seen_of mm) mb
  obtain ⟨p, hp⟩ := cell_seen 5 le_rfl (2 * (1 / 5) - 1) ma mb (by norm_num [abs_le]) (seen_of mm) mσ
  rw [neg_one_mul] at h00 h01
  rw [one_mul] at h10 h11
  have hs : ∀ {φ y : ℝ} {p : ℝ × ℝ × ℝ}, Hit Rk Hk φ y p →
      ∃ lo la, |lo| ≤ 180 ∧ |la| ≤ 90 ∧ spherePoint 6370997 lo la = inFrame (0, 1, 0) (0, 0, 1) (1, 0, 0) (scale 1000 p) := by
    intro φ y p hp
    obtain ⟨l, -, -, hn, -⟩ := hp
    apply sphere_lonlat (by norm_num)
    have hRk : (6370997 : ℝ) = 1000 * Rk := by norm_num [Rk]
    rw [hRk]
    simp only [normSq, inFrame, scale]
    linear_combination 1000 ^ 2 * hn
  obtain ⟨a1, b1, u1, v1, t00⟩ := hs h00
  obtain ⟨a2, b2, u2, v2, t01⟩ := hs h01
  obtain ⟨a3, b3, u3, v3, t10⟩ := hs h10
  obtain ⟨a4, b4, u4, v4, t11⟩ := hs h11
  obtain ⟨lo, la, u, v, t⟩ := hs hp
  obtain ⟨-, d0, d1, -⟩ := half_small 5 le_rfl mm (seen_of mm)
  obtain ⟨θm, eθm⟩ : ∃ θm, θm = zetaR ((phiR (rad 50) + phiR (rad 50.1)) / 2) - (phiR (rad 50) + phiR (rad 50.1)) / 2 := ⟨_, rfl⟩
  have sm := seen_of mm
  rw [← eθm] at sm d0 d1 h00 h01 h10 h11 hp
  -- the place of the pixel
  obtain ⟨q1, q2, q3⟩ : |lo| ≤ 90 ∧ |la| < 90 ∧ 0.999 ≤ cos (rad la) := by
    have hR : (0 : ℝ) < Rk := Rk_pos
    have hRk : (6370997 : ℝ) = 1000 * Rk := by norm_num [Rk]
    have hyR : |(2 * (1 / 5) - 1) * halfWidth 5 θm / Rk| ≤ 0.001 := by
      rw [mul_div_assoc, abs_mul, abs_of_nonneg d0, show |(2 * (1 / 5) - 1 : ℝ)| = 3 / 5 by norm_num [abs_of_neg]]
      linarith
    have hf := hit_form (seen_of mσ) (cos_zetaR mσ) hp (hyR.trans (by norm_num))
    refine pixel_place (x := 1000 * p.1) (y := 1000 * p.2.1) (z := 1000 * p.2.2) ?_ ?_ u v (t.trans ?_)
    · rw [hf]
      have g1 := (rowShift_sin (cos_zetaR mσ) (hyR.trans (by norm_num))).2.1
      have g2 := (root_bounds (hyR.trans (by norm_num))).1
      have g3 : |zetaR (phiR (rad 50) + 2 / 5 * (phiR (rad 50.1) - phiR (rad 50))) - (phiR (rad 50) + 2 / 5 * (phiR (rad 50.1) - phiR (rad 50)))|
          ≤ 0.84 := by
        have h0 := zeta_sub_lip mσ (y := 0) (by rw [abs_zero]; exact mTop_nonneg)
        have z0 : zetaR 0 = 0 := by simp [zetaR]
        rw [z0, sub_zero, sub_zero, sub_zero] at h0
        have hm := mTop_lt
        linarith
      have g4 : ((2 * (1 / 5) - 1) * halfWidth 5 θm / Rk) ^ 2 ≤ 0.001 ^ 2 := by
        rw [← sq_abs]; exact pow_le_pow_left₀ (abs_nonneg _) hyR 2
      rw [abs_le] at g1 g3
      norm_num at g4
      have := cos_pos_of_mem_Ioo (x := zetaR (phiR (rad 50) + 2 / 5 * (phiR (rad 50.1) - phiR (rad 50)))
        - (phiR (rad 50) + 2 / 5 * (phiR (rad 50.1) - phiR (rad 50)))
        + rowShift (zetaR (phiR (rad 50) + 2 / 5 * (phiR (rad 50.1) - phiR (rad 50)))) ((2 * (1 / 5) - 1) * halfWidth 5 θm / Rk))
        ⟨by norm_num at *; linarith [g1.1, g3.1], by norm_num at *; linarith [g1.2, g3.2]⟩
      have hsq : 0 < √(1 - ((2 * (1 / 5) - 1) * halfWidth 5 θm / Rk) ^ 2) := by linarith
      positivity
    · rw [hf, hRk, abs_mul, abs_of_pos (by norm_num : (0:ℝ) < 1000)]
      rw [abs_div, abs_of_pos hR, div_le_iff₀ hR] at hyR
      linarith
    · simp only [inFrame, scale]
      refine Prod.ext ?_ (Prod.ext ?_ ?_) <;> ring
  refine ⟨fun i j => if i = 0 then (if j = 0 then a1 else a2) else (if j = 0 then a3 else a4),
    fun i j => if i = 0 then (if j = 0 then b1 else b2) else (if j = 0 then b3 else b4), p, θm, _, lo, la, sm, hp, t, fun junk => ?_⟩
  obtain ⟨out, eo, ho⟩ := C110_run prec_ieee lib_ieee (by norm_num) .km5to1 1 270 (Or.inl rfl)
    (fun i j => if i = 0 then (if j = 0 then a1 else a2) else (if j = 0 then a3 else a4))
    (fun i j => if i = 0 then (if j = 0 then b1 else b2) else (if j = 0 then b3 else b4)) (fun _ j => 50 + 0.1 * (j : ℝ)) junk
  refine ⟨out, eo, ?_⟩
  obtain ⟨T, σ, h2, h3, h4⟩ := ho 3 4 0 0 (by decide) (by decide) (by decide) (by decide)
  rw [show 3 % (Conv.km5to1.scanRows * Conv.km5to1.factor) = 3 by decide, (C31_5km_to_1km_partial 270 (Or.inl rfl)).1 3 (by decide),
    FP.val.injEq] at h2
  rw [(C31_5km_to_1km_partial 270 (Or.inl rfl)).2 4 (by decide), FP.val.injEq] at h3
  obtain rfl : T = 1 / 5 := by norm_num [cellRow, Conv.cfg] at h2; linarith
  obtain rfl : σ = 2 / 5 := by norm_num at h3; linarith
  have c0 : (50 + 0.1 * ((0 : ℕ) : ℝ)) = 50 := by norm_num
  have c1 : (50 + 0.1 * ((0 + 1 : ℕ) : ℝ)) = 50.1 := by norm_num
  simp only [c0, c1] at h4
  have hgap : zenithGap 50 50.1 = 0.1 := by norm_num [zenithGap, abs_of_neg]
  -- sizes
  have er : |rad 50.1 - rad 50| = 0.1 * (π / 180) := by
    unfold rad
    rw [show (50.1 : ℝ) * (π / 180) - 50 * (π / 180) = 0.1 * (π / 180) by ring, abs_of_pos (by positivity)]
  have hk := kap_bounds
  have hφ : |phiR (rad 50.1) - phiR (rad 50)| ≤ 0.0016 := by
    have := phiR_lip (rad 50.1) (rad 50)
    rw [er] at this
    have h3 : kap * (0.1 * (π / 180)) ≤ 0.9 * (0.1 * (π / 180)) := by gcongr; linarith
    linarith
  have za : zetaR (phiR (rad 50)) = rad 50 := zeta_phi (by unfold rad; rw [abs_of_pos (by positivity)]; linarith)
  have zb : zetaR (phiR (rad 50.1)) = rad 50.1 := zeta_phi (by unfold rad; rw [abs_of_pos (by positivity)]; linarith)
  have hθ : |(rad 50.1 - phiR (rad 50.1)) - (rad 50 - phiR (rad 50))| ≤ 0.0013 := by
    have := zeta_sub_lip mb ma
    rw [za, zb] at this
    linarith
  have hθ' : 0.00016 ≤ |(rad 50.1 - phiR (rad 50.1)) - (rad 50 - phiR (rad 50))| := by
    have := theta_expand (rad 50.1) (rad 50)
    rw [er] at this
    nlinarith
  obtain ⟨es, hes⟩ : ∃ es : ℝ, es = (48000 * |(2 : ℝ) / 5 * (1 - 2 / 5)| + 2500) * (1 / 2 ^ 24 / 0.1) + 80 * (1 / 2 ^ 24) := ⟨_, rfl⟩
  obtain ⟨δ, hδ⟩ : ∃ δ : ℝ, δ = 20 * (1 / 2 ^ 24) * (1 * ((1 + 3.2 * 1 * (halfWidth 5 θm / Rk) ^ 2 / |(rad 50.1 - phiR (rad 50.1)) - (rad 50 - phiR (rad 50))|) + 2 * es))
      + (1.002 * |(rad 50.1 - phiR (rad 50.1)) - (rad 50 - phiR (rad 50))| + 2 * (halfWidth 5 θm / Rk)) * (1.001 * 1 * es + 1.85 *
        (1 + 3.2 * 1 * (halfWidth 5 θm / Rk) ^ 2 / |(rad 50.1 - phiR (rad 50.1)) - (rad 50 - phiR (rad 50))|) * (1 / 2 ^ 24)) := ⟨_, rfl⟩
  obtain ⟨η', hη'⟩ : ∃ η' : ℝ, η' = (1.42 * 0.632 * |phiR (rad 50.1) - phiR (rad 50)| ^ 3 + (1 * |(rad 50.1 - phiR (rad 50.1)) - (rad 50 - phiR (rad 50))|) ^ 2 / 6
      + 1 * (halfWidth 5 θm / Rk) ^ 2 * (1.3 + 29 * 1 * |phiR (rad 50.1) - phiR (rad 50)|) + 1.42 * δ) / cos (rad la) := ⟨_, rfl⟩
  have bη := numbers (abs_nonneg _) hφ hθ' hθ d0 d1 q3 hes hδ hη'
  have fin := h4 (0, 1, 0) (0, 0, 1) (1, 0, 0) _ _ _ _ _ _ _ _ _ _ _ 1 1 0.632 1 p00 p01 p10 p11 p (by norm_num [Frame, Orthonormal, dot])
    le_rfl (Or.inl (by norm_num)) (by norm_num) (by norm_num [abs_of_pos]) (by norm_num [abs_of_pos])
    (by
      rintro i' j' (rfl | rfl) (rfl | rfl)
      · exact ⟨u1, v1⟩
      · exact ⟨u2, v2⟩
      · exact ⟨u3, v3⟩
      · exact ⟨u4, v4⟩)
    ⟨ha, hb, by rw [hgap]; norm_num, Or.inl (by rw [hgap]; norm_num)⟩ (by norm_num) (by norm_num [abs_le]) (seen_zenith ha) (seen_zenith hb)
    (seen_of mσ) sm rfl rfl rfl h00 h01 h10 h11 hp t00 t01 t10 t11 lo la u q2 t es _ _ δ η' (by rw [hgap]; exact hes) rfl rfl hδ hη'
    (bη.trans (by norm_num))
  have hsq : √((1 : ℝ) / 2 ^ 53) ≤ 1e-7 := by
    rw [sqrt_le_left (by norm_num)]
    norm_num
  obtain ⟨⟨L, c3, c4⟩, ⟨M, c5, c6⟩⟩ := fin
  refine ⟨⟨L, c3, ?_⟩, M, c5, c6.trans ?_⟩
  · rcases c4 with ⟨m, m1, m2⟩ | ⟨-, m2⟩
    · refine ⟨m, m1, m2.trans ?_⟩
      clear * - bη hsq
      norm_num at bη hsq ⊢
      linarith
    · exfalso
      clear * - bη q1 m2
      norm_num at bη
      linarith
  · clear * - bη
    norm_num at bη ⊢
    linarith

end Verif.Props
