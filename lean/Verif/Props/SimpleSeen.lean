import Verif.Props.BowTieRounded
import Verif.Props.ScanSimple
import Verif.Props.MxSimple

/-!
# C111: computed positions of the simple MODIS interpolator against the points that the instrument sees, with rounding

The simple interpolator (_simple_modis_interpolator.pyx:13-277) makes of the four tie points of a cell the same combination as the
zenith-angle interpolator, without the two coefficients in the weight along the scan.
-/

namespace Verif.Props
open Verif Verif.Modis Verif.ModisSimple Verif.Spec Verif.Spec.Modis Verif.Geo Verif.Err Real

/-- distances add up -/
private theorem dist_add {A B C : ℝ × ℝ × ℝ} {u v : ℝ} (hu : 0 ≤ u) (hv : 0 ≤ v) (h1 : distSq A B ≤ u ^ 2) (h2 : distSq B C ≤ v ^ 2) :
    distSq A C ≤ (u + v) ^ 2 := by
  simp only [distSq] at *
  have := sum_len hu hv h1 h2
  simpa only [sub_add_sub_cancel] using this

/-- the expansion coefficient is at most of the order of the scan angle between the tie points -/
private theorem expansion_le (w : Nat) (hw : w ≤ 5) {a b φa φb θa θb θm ζm ce ca : ℝ} (ha : |a| ≤ 70) (hb : |b| ≤ 70) (h0 : ¬ (a = 0 ∧ b = 0))
    (sa : Seen Rk Hk φa θa (rad a)) (sb : Seen Rk Hk φb θb (rad b)) (sm : Seen Rk Hk ((φa + φb) / 2) θm ζm)
    (ex : expansionAlignment w (FP.val a : FP ℝ) (FP.val b) = (FP.val ce, FP.val ca)) : |ce| * |θb - θa| ≤ 3.2 * |φb - φa| ^ 2 := by
  obtain ⟨ce', e1, e2⟩ := C104_half w hw ha hb h0 sa sb sm
  rw [ex, FP.val.injEq] at e1
  subst e1
  have h1 := C108_steps ha hb sa sb (s := 1 / 2) (by norm_num) (by norm_num)
    (by rw [show φa + 1 / 2 * (φb - φa) = (φa + φb) / 2 by ring]; exact sm)
  rw [← e2, show θa + 1 / 2 * (θb - θa) - (θa + (1 / 2 + 1 / 2 * (1 - 1 / 2) * ce) * (θb - θa)) = -(1 / 4 * (ce * (θb - θa))) by ring, abs_neg,
    abs_mul, abs_mul, abs_of_pos (by norm_num : (0:ℝ) < 1 / 4)] at h1
  rw [sq_abs]
  linarith

/-- the point moves along the scan with its weight -/
private theorem weight_move {e g f p00 p01 p10 p11 : ℝ × ℝ × ℝ} (hF : Frame e g f) {d σ S T m κ : ℝ} (hd : 0 ≤ d) (hm : |σ - S| * d ≤ m)
    (eκ : κ = |T| + |1 - T|) (v1 : distSq p00 p01 ≤ (Rk * (1.002 * d)) ^ 2) (v2 : distSq p10 p11 ≤ (Rk * (1.002 * d)) ^ 2) :
    distSq (inFrame e g f (scale 1000 (chordPoint (chordPoint p00 p01 σ) (chordPoint p10 p11 σ) T)))
      (inFrame e g f (scale 1000 (chordPoint (chordPoint p00 p01 S) (chordPoint p10 p11 S) T))) ≤ (6370997 * (1.002 * κ * m)) ^ 2 := by
  have hR : (0 : ℝ) < Rk := Rk_pos
  have hRk : (6370997 : ℝ) = 1000 * Rk := by norm_num [Rk]
  have len : ∀ (t : ℝ) {p q : ℝ × ℝ × ℝ}, distSq p q ≤ (Rk * (1.002 * d)) ^ 2 →
      (t * (q.1 - p.1)) ^ 2 + (t * (q.2.1 - p.2.1)) ^ 2 + (t * (q.2.2 - p.2.2)) ^ 2 ≤ (|t| * (Rk * (1.002 * d))) ^ 2 := by
    intro t p q h
    rw [mul_pow |t|, sq_abs]
    simp only [distSq] at h
    have := mul_le_mul_of_nonneg_left h (sq_nonneg t)
    linarith
  have h1 := sum_len (by positivity) (by positivity) (len (1 - T) v1) (len T v2)
  rw [frame_dist hF, hRk]
  have e1 : distSq (scale 1000 (chordPoint (chordPoint p00 p01 σ) (chordPoint p10 p11 σ) T))
      (scale 1000 (chordPoint (chordPoint p00 p01 S) (chordPoint p10 p11 S) T))
      = (1000 * (σ - S)) ^ 2 * (((1 - T) * (p01.1 - p00.1) + T * (p11.1 - p10.1)) ^ 2 + ((1 - T) * (p01.2.1 - p00.2.1) + T * (p11.2.1 - p10.2.1)) ^ 2
        + ((1 - T) * (p01.2.2 - p00.2.2) + T * (p11.2.2 - p10.2.2)) ^ 2) := by
    simp only [distSq, scale, chordPoint]; ring
  rw [e1]
  refine (mul_le_mul_of_nonneg_left h1 (sq_nonneg _)).trans ?_
  rw [← sq_abs (1000 * (σ - S)), ← mul_pow, abs_mul, abs_of_pos (by norm_num : (0:ℝ) < 1000)]
  refine pow_le_pow_left₀ (by positivity) ?_ 2
  have hκ : 0 ≤ κ := by rw [eκ]; positivity
  have := mul_le_mul_of_nonneg_left hm (show 0 ≤ 1000 * Rk * (1.002 * κ) by positivity)
  rw [eκ] at this ⊢
  linarith

/-- the difference of the weights -/
private theorem weight_diff {σ T S ce ca d h η U : ℝ} (hd : 0 ≤ d) (hU : 1 ≤ U) (hT : (2 * T - 1) ^ 2 ≤ U) (eS : S = σ + σ * (1 - σ) * ce + T * (1 - T) * ca)
    (h1 : |ce| * d ≤ 3.2 * h ^ 2) (h2 : |ca| * d ≤ 6.3 * η ^ 2) : |σ - S| * d ≤ 3.2 * |σ * (1 - σ)| * h ^ 2 + 1.575 * U * η ^ 2 := by
  have hu : |T * (1 - T)| ≤ U / 4 := by
    rw [show T * (1 - T) = (1 - (2 * T - 1) ^ 2) / 4 by ring, abs_div, abs_of_pos (by norm_num : (0:ℝ) < 4)]
    have : |1 - (2 * T - 1) ^ 2| ≤ U := by
      rw [abs_le]
      constructor <;> nlinarith [sq_nonneg (2 * T - 1)]
    linarith
  have e : |σ - S| ≤ |σ * (1 - σ)| * |ce| + |T * (1 - T)| * |ca| := by
    rw [eS, show σ - (σ + σ * (1 - σ) * ce + T * (1 - T) * ca) = -(σ * (1 - σ) * ce + T * (1 - T) * ca) by ring, abs_neg, ← abs_mul, ← abs_mul]
    exact abs_add_le _ _
  have g1 := mul_le_mul_of_nonneg_right e hd
  have g2 := mul_le_mul_of_nonneg_left h1 (abs_nonneg (σ * (1 - σ)))
  have g3 := mul_le_mul hu h2 (by positivity) (by linarith)
  linarith

/-- the fine rows are not far from their rows of tie points -/
private theorem row_frac (c : SConv) {j : Nat} (hj : j < 10 * c.factor) {T : ℝ} (hT : T = ((j : ℝ) + 1 / 2) / c.factor - 1 / 2 - (simpleRow c.factor j : ℕ)) :
    -0.5 ≤ T ∧ T ≤ 1.85 := by
  subst hT
  cases c
  · change j < 20 at hj
    interval_cases j <;> norm_num [simpleRow, SConv.factor]
  · change j < 40 at hj
    interval_cases j <;> norm_num [simpleRow, SConv.factor]

open Mx in
set_option maxHeartbeats 1000000 in
/-- **C111**: both conversions of the simple MODIS interpolator as the code runs it (float32 arrays, double constants and functions, any
`map_coordinates` accurate to `ρ`), whole scans, every pixel, the fraction `T` of the way along the track and `σ` along the scan (outside
the cell of tie points in the first and the last rows of a scan and behind the last column).  The tie points are those that are seen at two
scan angles, under the zenith angles `za` and `zb`, half a kilometre (at the nadir) on either side of the plane of the scan, in some position
of the satellite; the pixel is seen at longitude `lon'` and latitude `lat'`.  With `h` the difference of the scan angles, `d` the distance
of the tie points along the scan and `η` half their distance along the track in units of the radius, the longitude reported is within
`270 sqrt εd + 98 η' + 190 ε` degrees of `lon'` on the circle and the latitude within `115 η' + 95 ε` degrees of `lat'`, where
`η' = (1.42 G h³ + (W d)² / 6 + U η² (1.3 + 29 W h) + κ (3.21 |σ (1 - σ)| h² + 1.58 U η²) + 1.42 δ) / cos lat'`, with `G`, `U`, `W`, `κ` as
in `C110_run` and `δ` the rounding error (C75, for a cell of size `ω = 1.002 d + 2 η`); only within `90 η'` degrees of the 180-degree
meridian longitude 0 may be reported instead (C07). -/
theorem C111_run {q : Mixed} {ε : ℝ} (hP : Prec q ε) {εd : ℝ} (hd : LibRel q.d εd) (hεd : εd ≤ ε / 1000) {ρ : ℝ} {mc : MapCoord (Mx q)}
    (hmc : LinearLib q ρ mc) (c : SConv) (n C : Nat) (hC : 2 ≤ C) (hCp : c.factor * C ≤ 2 ^ q.s.p) (lon lat : Nat → Nat → ℝ)
    (junk : Nat → Nat → Nat → Nat → Mx q) :
    ∃ out, c.run mc ⟨n * 10, C, fun i j => sgl (lon i j)⟩ ⟨n * 10, C, fun i j => sgl (lat i j)⟩ junk = .ok out ∧
      ∀ s j k i l : Nat, s < n → j < 10 * c.factor → k < C * c.factor → i = s * 10 + simpleRow c.factor j → l = simpleCol c.factor C k →
        ∀ T σ : ℝ, ((j : ℝ) + 1 / 2) / c.factor - 1 / 2 = simpleRow c.factor j + T → (k : ℝ) / c.factor = l + σ →
          ∀ (e g f : ℝ × ℝ × ℝ) (za zb φa φb θa θb θ ζ θm ζm h d η U W G κ : ℝ) (p00 p01 p10 p11 p : ℝ × ℝ × ℝ), Frame e g f →
            1 ≤ W → 0 ≤ σ ∧ σ ≤ 1 ∨ 1.13 * |2 * σ - 1| ≤ W ∧ |ζ| ≤ rad 70 → U = max 1 ((2 * T - 1) ^ 2) →
            G = 18 * |σ * (σ - 1 / 2) * (σ - 1)| + 0.2 * W ^ 3 → κ = |T| + |1 - T| →
            (∀ i' j', (i' = i ∨ i' = i + 1) → (j' = l ∨ j' = l + 1) → |lon i' j'| ≤ 180 ∧ |lat i' j'| ≤ 90) →
            |za| ≤ 70 → |zb| ≤ 70 → za ≠ zb → W * |za - zb| ≤ 5 → Seen Rk Hk φa θa (rad za) → Seen Rk Hk φb θb (rad zb) →
            Seen Rk Hk (φa + σ * (φb - φa)) θ ζ → Seen Rk Hk ((φa + φb) / 2) θm ζm →
            h = |φb - φa| → d = |θb - θa| → η = halfWidth 1 θm / Rk →
            Hit Rk Hk φa (-halfWidth 1 θm) p00 → Hit Rk Hk φb (-halfWidth 1 θm) p01 →
            Hit Rk Hk φa (halfWidth 1 θm) p10 → Hit Rk Hk φb (halfWidth 1 θm) p11 →
            Hit Rk Hk (φa + σ * (φb - φa)) ((2 * T - 1) * halfWidth 1 θm) p →
            spherePoint 6370997 (lon i l) (lat i l) = inFrame e g f (scale 1000 p00) →
            spherePoint 6370997 (lon i (l + 1)) (lat i (l + 1)) = inFrame e g f (scale 1000 p01) →
            spherePoint 6370997 (lon (i + 1) l) (lat (i + 1) l) = inFrame e g f (scale 1000 p10) →
            spherePoint 6370997 (lon (i + 1) (l + 1)) (lat (i + 1) (l + 1)) = inFrame e g f (scale 1000 p11) →
            ∀ lon' lat', |lon'| ≤ 180 → |lat'| < 90 → spherePoint 6370997 lon' lat' = inFrame e g f (scale 1000 p) →
            ∀ ω δ η', ω = 1.002 * d + 2 * η →
              δ = rowErr ε (1 + 6 * ε) (ω + 12 * ε) c.factor j (colErr ε (1 + 6 * ε) (ω + 12 * ε) c.factor C k (ρ * (1 + 6 * ε)))
                + 6 * ε * (κ * (|σ| + |1 - σ|)) →
              η' = (1.42 * G * h ^ 3 + (W * d) ^ 2 / 6 + U * η ^ 2 * (1.3 + 29 * W * h) + κ * (3.21 * |σ * (1 - σ)| * h ^ 2 + 1.58 * U * η ^ 2)
                + 1.42 * δ) / cos (rad lat') → η' ≤ 1 / 100 →
              (∃ L, out.1.cell (s * (10 * c.factor) + j) k = sgl L ∧
                (LonWithin (270 * √εd + 98 * η' + 190 * ε) L lon' ∨ (L = 0 ∧ 180 - 90 * η' ≤ |lon'|))) ∧
              (∃ B, out.2.cell (s * (10 * c.factor) + j) k = sgl B ∧ |B - lat'| ≤ 115 * η' + 95 * ε) := by
  obtain ⟨out, eo, key75⟩ := C75_simple_pixel hP hd hεd hmc c n C hC hCp lon lat junk
  refine ⟨out, eo, fun s j k i l hs hj hk ei el T σ hT hσl => ?_⟩
  intro e g f za zb φa φb θa θb θ ζ θm ζm h d η U W G κ p00 p01 p10 p11 p hF hW hσ eU eG eκ hv ha hb hne hg sa sb sp sm eh ed eη h00 h01 h10 h11 hp
    t00 t01 t10 t11 lon' lat' hlon hlat hsee ω δ η' eω hδ hη' hη1
  have eT : T = ((j : ℝ) + 1 / 2) / c.factor - 1 / 2 - (simpleRow c.factor j : ℕ) := by linarith
  have eσ : σ = (k : ℝ) / c.factor - l := by linarith
  obtain ⟨b1, b2⟩ := row_frac c hj eT
  obtain ⟨hU1, hUT, hU7⟩ := row_bound b1 b2 eU
  have hW0 : 0 ≤ W := by linarith
  have hU0 : 0 ≤ U := by linarith
  have hd0 : 0 ≤ d := by rw [ed]; exact abs_nonneg _
  have hh0 : 0 ≤ h := by rw [eh]; exact abs_nonneg _
  have hκ0 : 0 ≤ κ := by rw [eκ]; positivity
  have hG0 : 0 ≤ G := by rw [eG]; positivity
  obtain ⟨ce, ca, S, ex, eS, -, hca, d0, ⟨v1, v2, v3, v4⟩, hun⟩ := cell_near 1 (by norm_num) hF ha hb hne hW hg sa sb hσ hU1 hUT hU7 eG eh ed eη sp sm
    h00 h01 h10 h11 hp
  have hce := expansion_le 1 (by norm_num) ha hb (fun h => hne (h.1.trans h.2.symm)) sa sb sm ex
  rw [← eh, ← ed] at hce
  have hmove := weight_move hF hd0 (weight_diff hd0 hU1 hUT eS hce hca) eκ v1 v2
  -- the cell
  have hω : CellSize lon lat i l (ω * 6370997) := by
    have g1 : 1.002 * d ≤ ω := by rw [eω]; exact le_add_of_nonneg_right (by positivity)
    have g2 : 2 * η ≤ ω := by rw [eω]; exact le_add_of_nonneg_left (by positivity)
    intro l
    simp only [t00, t01, t10, t11]
    exact ⟨side_coord hF (by positivity) g1 v1 l, side_coord hF (by positivity) g1 v2 l, side_coord hF (by positivity) g2 v3 l, side_coord hF (by positivity) g2 v4 l⟩
  -- the point of the cell
  have hcell : cellPoint lon lat i l T σ = inFrame e g f (scale 1000 (chordPoint (chordPoint p00 p01 σ) (chordPoint p10 p11 σ) T)) := by
    unfold cellPoint
    rw [t00, t01, t10, t11]
    simp only [coord, inFrame, scale, chordPoint, if_true, Nat.one_ne_zero, if_false, OfNat.ofNat_ne_zero, OfNat.ofNat_ne_one]
    refine Prod.ext ?_ (Prod.ext ?_ ?_) <;> ring
  obtain ⟨D, eD⟩ : ∃ D, D = 1.42 * G * h ^ 3 + (W * d) ^ 2 / 6 + U * η ^ 2 * (1.3 + 29 * W * h)
    + κ * (3.21 * |σ * (1 - σ)| * h ^ 2 + 1.58 * U * η ^ 2) := ⟨_, rfl⟩
  rw [← eD] at hη'
  have hD0 : 0 ≤ D := by rw [eD]; positivity
  have hdist := dist_add (by positivity) (by positivity) hmove hun
  have hdist' : distSq (inFrame e g f (scale 1000 (chordPoint (chordPoint p00 p01 σ) (chordPoint p10 p11 σ) T))) (inFrame e g f (scale 1000 p))
      ≤ (6370997 * D) ^ 2 := by
    refine hdist.trans (pow_le_pow_left₀ (by positivity) ?_ 2)
    rw [← mul_add]
    refine mul_le_mul_of_nonneg_left ?_ (by norm_num)
    have g1 : 0 ≤ κ * (|σ * (1 - σ)| * h ^ 2) := by positivity
    have g2 : 0 ≤ κ * (U * η ^ 2) := by positivity
    rw [eD]
    linarith
  have hnear := near_of_dist (by norm_num) hD0 hlat hsee hdist'
  rw [← hcell] at hnear
  subst ei
  rw [eκ] at hδ
  refine key75 s j k _ l hs hj hk rfl el (fun a' b' h1 h2 => hv _ _ (h1.imp (fun h => by rw [h]) (fun h => by rw [h]; omega)) h2) ω hω T σ δ
    (D / cos (rad lat')) η' lon' lat' eT eσ hδ hlon hlat hnear ?_ hη1
  rw [hη', add_div]

/-- the numbers of the example below -/
private theorem numbers {h d η δ η' C : ℝ} (h0 : 0 ≤ h) (hh : h ≤ 0.0016) (d0 : 0 ≤ d) (hd : d ≤ 0.0013) (η0 : 0 ≤ η) (hη : η ≤ 0.001)
    (hC : 0.999 ≤ C) (hδ : δ ≤ 4.3e-7)
    (hη' : η' = (1.42 * 1.04375 * h ^ 3 + (1 * d) ^ 2 / 6 + 1 * η ^ 2 * (1.3 + 29 * 1 * h) + 1 * (3.21 * |(1 / 4 : ℝ) * (1 - 1 / 4)| * h ^ 2
      + 1.58 * 1 * η ^ 2) + 1.42 * δ) / C) : η' ≤ 6e-6 := by
  have e : |(1 / 4 : ℝ) * (1 - 1 / 4)| = 3 / 16 := by norm_num [abs_of_pos]
  rw [e, one_mul, one_mul, one_mul, mul_one, mul_one] at hη'
  have g3 : η ^ 2 ≤ 0.000001 := (pow_le_pow_left₀ η0 hη 2).trans (by norm_num)
  have g6 : h ^ 2 ≤ 0.0016 ^ 2 := by gcongr
  have g7 : h ^ 3 ≤ 0.0016 ^ 3 := by gcongr
  have g8 : d ^ 2 ≤ 0.0013 ^ 2 := by gcongr
  have g9 : η ^ 2 * (1.3 + 29 * h) ≤ 0.000001 * (1.3 + 29 * 0.0016) := by gcongr
  rw [hη', div_le_iff₀ (by linarith)]
  norm_num at hδ g6 g7 g8 g9 ⊢
  linarith

set_option maxHeartbeats 1000000 in
open Mx in
/-- one scan of float32 arrays, 1 km data at 250 m, tie points at zenith angles of 50 and 50.1 degrees, the pixel in row 2 and column 1 (an eighth
of the way between the rows and a quarter between the columns): it is reported within 0.001 degrees of the longitude and latitude at which
it is seen -/
example : ∃ (lon lat : Nat → Nat → ℝ) (p : ℝ × ℝ × ℝ) (θm ζm lo la : ℝ), Seen Rk Hk ((phiR (rad 50) + phiR (rad 50.1)) / 2) θm ζm ∧
    Hit Rk Hk (phiR (rad 50) + 1 / 4 * (phiR (rad 50.1) - phiR (rad 50))) ((2 * (1 / 8) - 1) * halfWidth 1 θm) p ∧
    spherePoint 6370997 lo la = inFrame (0, 1, 0) (0, 0, 1) (1, 0, 0) (scale 1000 p) ∧
    ∀ junk : Nat → Nat → Nat → Nat → Mx Mixed.ieee, ∃ out, SConv.run .km1to250 (mcRounded Mixed.ieee) ⟨1 * 10, 2, fun i j => sgl (lon i j)⟩
        ⟨1 * 10, 2, fun i j => sgl (lat i j)⟩ junk = .ok out ∧
      (∃ L, out.1.cell 2 1 = sgl L ∧ LonWithin 0.001 L lo) ∧ ∃ B, out.2.cell 2 1 = sgl B ∧ |B - la| ≤ 0.001 := by
  have hpi := pi_gt_three
  have hpi' := pi_lt_d2
  have ha : |(50 : ℝ)| ≤ 70 := by norm_num [abs_le]
  have hb : |(50.1 : ℝ)| ≤ 70 := by norm_num [abs_le]
  have top : ∀ {a : ℝ}, |a| ≤ 70 → |phiR (rad a)| ≤ mTop := by
    intro a ha
    have := phiR_70 ((abs_sin_70 ha).trans (by norm_num)); linarith
  have ma := top ha
  have mb := top hb
  have seg : ∀ {s : ℝ}, 0 ≤ s → s ≤ 1 → |phiR (rad 50) + s * (phiR (rad 50.1) - phiR (rad 50))| ≤ mTop := by
    intro s s0 s1
    rw [abs_le] at ma mb ⊢
    constructor <;> nlinarith [ma.1, ma.2, mb.1, mb.2]
  have mm : |(phiR (rad 50) + phiR (rad 50.1)) / 2| ≤ mTop := by
    have := seg (s := 1 / 2) (by norm_num) (by norm_num)
    rwa [show phiR (rad 50) + 1 / 2 * (phiR (rad 50.1) - phiR (rad 50)) = (phiR (rad 50) + phiR (rad 50.1)) / 2 by ring] at this
  have mσ := seg (s := 1 / 4) (by norm_num) (by norm_num)
  have n1 : |(-1 : ℝ)| ≤ 2.7 := by norm_num
  have n2 : |(1 : ℝ)| ≤ 2.7 := by norm_num
  obtain ⟨p00, h00⟩ := cell_seen 1 (by norm_num) (-1) ma mb n1 (seen_of mm) ma
  obtain ⟨p01, h01⟩ := cell_seen 1 (by norm_num) (-1) ma mb n1 (seen_of mm) mb
  obtain ⟨p10, h10⟩ := cell_seen 1 (by norm_num) 1 ma mb n2 (seen_of mm) ma
  obtain ⟨p11, h11⟩ := cell_seen 1 (by norm_num) 1 ma mb n2 (seen_of mm) mb
  obtain ⟨p, hp⟩ := cell_seen 1 (by norm_num) (2 * (1 / 8) - 1) ma mb (by norm_num [abs_le]) (seen_of mm) mσ
  rw [neg_one_mul] at h00 h01
  rw [one_mul] at h10 h11
  have hs : ∀ {φ y : ℝ} {p : ℝ × ℝ × ℝ}, Hit Rk Hk φ y p →
      ∃ lo la, |lo| ≤ 180 ∧ |la| ≤ 90 ∧ spherePoint 6370997 lo la = inFrame (0, 1, 0) (0, 0, 1) (1, 0, 0) (scale 1000 p) := by
    intro φ y p hp
    obtain ⟨l, -, -, hn, -⟩ := hp
    apply sphere_lonlat (by norm_num)
    have hRk : (6370997 : ℝ) = 1000 * Rk := by norm_num [Rk]
    rw [hRk]
    simp only [normSq, inFrame, scale]
    linear_combination 1000 ^ 2 * hn
  obtain ⟨a1, b1, u1, v1, t00⟩ := hs h00
  obtain ⟨a2, b2, u2, v2, t01⟩ := hs h01
  obtain ⟨a3, b3, u3, v3, t10⟩ := hs h10
  obtain ⟨a4, b4, u4, v4, t11⟩ := hs h11
  obtain ⟨lo, la, u, v, t⟩ := hs hp
  obtain ⟨-, d0, d1, -⟩ := half_small 1 (by norm_num) mm (seen_of mm)
  obtain ⟨θm, eθm⟩ : ∃ θm, θm = zetaR ((phiR (rad 50) + phiR (rad 50.1)) / 2) - (phiR (rad 50) + phiR (rad 50.1)) / 2 := ⟨_, rfl⟩
  have sm := seen_of mm
  rw [← eθm] at sm d0 d1 h00 h01 h10 h11 hp
  -- the place of the pixel
  obtain ⟨q1, q2, q3⟩ : |lo| ≤ 90 ∧ |la| < 90 ∧ 0.999 ≤ cos (rad la) := by
    have hR : (0 : ℝ) < Rk := Rk_pos
    have hRk : (6370997 : ℝ) = 1000 * Rk := by norm_num [Rk]
    have hyR : |(2 * (1 / 8) - 1) * halfWidth 1 θm / Rk| ≤ 0.001 := by
      rw [mul_div_assoc, abs_mul, abs_of_nonneg d0, show |(2 * (1 / 8) - 1 : ℝ)| = 3 / 4 by norm_num [abs_of_neg]]
      linarith
    have hf := hit_form (seen_of mσ) (cos_zetaR mσ) hp (hyR.trans (by norm_num))
    refine pixel_place (x := 1000 * p.1) (y := 1000 * p.2.1) (z := 1000 * p.2.2) ?_ ?_ u v (t.trans ?_)
    · rw [hf]
      have g1 := (rowShift_sin (cos_zetaR mσ) (hyR.trans (by norm_num))).2.1
      have g2 := (root_bounds (hyR.trans (by norm_num))).1
      have g3 : |zetaR (phiR (rad 50) + 1 / 4 * (phiR (rad 50.1) - phiR (rad 50))) - (phiR (rad 50) + 1 / 4 * (phiR (rad 50.1) - phiR (rad 50)))|
          ≤ 0.84 := by
        have h0 := zeta_sub_lip mσ (y := 0) (by rw [abs_zero]; exact mTop_nonneg)
        have z0 : zetaR 0 = 0 := by simp [zetaR]
        rw [z0, sub_zero, sub_zero, sub_zero] at h0
        have hm := mTop_lt
        linarith
      have g4 : ((2 * (1 / 8) - 1) * halfWidth 1 θm / Rk) ^ 2 ≤ 0.001 ^ 2 := by
        rw [← sq_abs]; exact pow_le_pow_left₀ (abs_nonneg _) hyR 2
      rw [abs_le] at g1 g3
      norm_num at g4
      have := cos_pos_of_mem_Ioo (x := zetaR (phiR (rad 50) + 1 / 4 * (phiR (rad 50.1) - phiR (rad 50)))
        - (phiR (rad 50) + 1 / 4 * (phiR (rad 50.1) - phiR (rad 50)))
        + rowShift (zetaR (phiR (rad 50) + 1 / 4 * (phiR (rad 50.1) - phiR (rad 50)))) ((2 * (1 / 8) - 1) * halfWidth 1 θm / Rk))
        ⟨by norm_num at *; linarith [g1.1, g3.1], by norm_num at *; linarith [g1.2, g3.2]⟩
      have hsq : 0 < √(1 - ((2 * (1 / 8) - 1) * halfWidth 1 θm / Rk) ^ 2) := by linarith
      positivity
    · rw [hf, hRk, abs_mul, abs_of_pos (by norm_num : (0:ℝ) < 1000)]
      rw [abs_div, abs_of_pos hR, div_le_iff₀ hR] at hyR
      linarith
    · simp only [inFrame, scale]
      refine Prod.ext ?_ (Prod.ext ?_ ?_) <;> ring
  refine ⟨fun i j => if i = 0 then (if j = 0 then a1 else a2) else (if j = 0 then a3 else a4),
    fun i j => if i = 0 then (if j = 0 then b1 else b2) else (if j = 0 then b3 else b4), p, θm, _, lo, la, sm, hp, t, fun junk => ?_⟩
  obtain ⟨out, eo, ho⟩ := C111_run prec_ieee lib_ieee (by norm_num) (mcRounded_ok Mixed.ieee) .km1to250 1 2 (by norm_num) (by show 4 * 2 ≤ 2 ^ 24; norm_num)
    (fun i j => if i = 0 then (if j = 0 then a1 else a2) else (if j = 0 then a3 else a4))
    (fun i j => if i = 0 then (if j = 0 then b1 else b2) else (if j = 0 then b3 else b4)) junk
  refine ⟨out, eo, ?_⟩
  have h4 := ho 0 2 1 0 0 (by decide) (by decide) (by decide) (by decide) (by decide) (1 / 8) (1 / 4) (by norm_num [SConv.factor, simpleRow])
    (by norm_num [SConv.factor])
  -- sizes
  have er : |rad 50.1 - rad 50| = 0.1 * (π / 180) := by
    unfold rad
    rw [show (50.1 : ℝ) * (π / 180) - 50 * (π / 180) = 0.1 * (π / 180) by ring, abs_of_pos (by positivity)]
  have hk := kap_bounds
  have hφ : |phiR (rad 50.1) - phiR (rad 50)| ≤ 0.0016 := by
    have := phiR_lip (rad 50.1) (rad 50)
    rw [er] at this
    have h3 : kap * (0.1 * (π / 180)) ≤ 0.9 * (0.1 * (π / 180)) := by gcongr; linarith
    linarith
  have za : zetaR (phiR (rad 50)) = rad 50 := zeta_phi (by unfold rad; rw [abs_of_pos (by positivity)]; linarith)
  have zb : zetaR (phiR (rad 50.1)) = rad 50.1 := zeta_phi (by unfold rad; rw [abs_of_pos (by positivity)]; linarith)
  have hθ : |(rad 50.1 - phiR (rad 50.1)) - (rad 50 - phiR (rad 50))| ≤ 0.0013 := by
    have := zeta_sub_lip mb ma
    rw [za, zb] at this
    linarith
  obtain ⟨d, ed⟩ : ∃ d, d = |(rad 50.1 - phiR (rad 50.1)) - (rad 50 - phiR (rad 50))| := ⟨_, rfl⟩
  obtain ⟨η, eη⟩ : ∃ η, η = halfWidth 1 θm / Rk := ⟨_, rfl⟩
  obtain ⟨δ, hδ⟩ : ∃ δ : ℝ, δ = rowErr (1 / 2 ^ 24) (1 + 6 * (1 / 2 ^ 24)) (1.002 * d + 2 * η + 12 * (1 / 2 ^ 24)) 4 2
      (colErr (1 / 2 ^ 24) (1 + 6 * (1 / 2 ^ 24)) (1.002 * d + 2 * η + 12 * (1 / 2 ^ 24)) 4 2 1 (Mixed.ieee.s.u * (1 + 6 * (1 / 2 ^ 24))))
      + 6 * (1 / 2 ^ 24) * (1 * (|(1 / 4 : ℝ)| + |1 - (1 / 4 : ℝ)|)) := ⟨_, rfl⟩
  have u24 : Mixed.ieee.s.u = 1 / 2 ^ 24 := by
    show (2 : ℝ) ^ (-((24 : ℕ) : ℤ)) = _
    rw [zpow_neg, zpow_natCast]; norm_num
  have hδ1 : δ ≤ 4.3e-7 := by
    rw [hδ, u24]
    norm_num [rowErr, colErr, abs_of_pos]
  obtain ⟨η', hη'⟩ : ∃ η' : ℝ, η' = (1.42 * 1.04375 * |phiR (rad 50.1) - phiR (rad 50)| ^ 3 + (1 * d) ^ 2 / 6
      + 1 * η ^ 2 * (1.3 + 29 * 1 * |phiR (rad 50.1) - phiR (rad 50)|) + 1 * (3.21 * |(1 / 4 : ℝ) * (1 - 1 / 4)| * |phiR (rad 50.1) - phiR (rad 50)| ^ 2
        + 1.58 * 1 * η ^ 2) + 1.42 * δ) / cos (rad la) := ⟨_, rfl⟩
  rw [← ed] at hθ
  rw [← eη] at d0 d1
  have bη := numbers (abs_nonneg _) hφ (by rw [ed]; exact abs_nonneg _) hθ d0 d1 q3 hδ1 hη'
  have fin := h4 (0, 1, 0) (0, 0, 1) (1, 0, 0) 50 50.1 _ _ _ _ _ _ _ _ _ d η 1 1 1.04375 1 p00 p01 p10 p11 p (by norm_num [Frame, Orthonormal, dot])
    le_rfl (Or.inl (by norm_num)) (by norm_num) (by norm_num [abs_of_pos]) (by norm_num [abs_of_pos])
    (by
      rintro i' j' (rfl | rfl) (rfl | rfl)
      · exact ⟨u1, v1⟩
      · exact ⟨u2, v2⟩
      · exact ⟨u3, v3⟩
      · exact ⟨u4, v4⟩)
    ha hb (by norm_num) (by norm_num [abs_le]) (seen_zenith ha) (seen_zenith hb)
    (seen_of mσ) sm rfl ed eη h00 h01 h10 h11 hp t00 t01 t10 t11 lo la u q2 t _ δ η' rfl hδ hη' (bη.trans (by norm_num))
  have hsq : √((1 : ℝ) / 2 ^ 53) ≤ 1e-7 := by
    rw [sqrt_le_left (by norm_num)]
    norm_num
  obtain ⟨⟨L, c3, c4⟩, ⟨M, c5, c6⟩⟩ := fin
  refine ⟨⟨L, c3, ?_⟩, M, c5, c6.trans ?_⟩
  · rcases c4 with ⟨m, m1, m2⟩ | ⟨-, m2⟩
    · refine ⟨m, m1, m2.trans ?_⟩
      clear * - bη hsq
      norm_num at bη hsq ⊢
      linarith
    · exfalso
      clear * - bη q1 m2
      norm_num at bη
      linarith
  · clear * - bη
    norm_num at bη ⊢
    linarith

end Verif.Props
