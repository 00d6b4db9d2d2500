import Verif.Props.ModisGap
import Verif.Props.ModisSimpleNum
import Verif.Props.PresetsValue

/-!
# C99: the interpolators of 1 km MODIS data agree with each other (exact arithmetic)
-/

namespace Verif.Props
open Verif FP Verif.Geo Verif.Modis Verif.ModisSimple Verif.Spec Verif.Interpolator Verif.Presets

/-! ### 500 m and 250 m -/

/-- **C99 (resolutions)**: the point of the simple interpolator at 500 m is half way between the points of the two rows of 250 m that
make up its row. -/
theorem C99_half (C : Nat) (V : Nat → Nat → ℝ) {j : Nat} (hj : j < 20) (x : ℝ) :
    bilinExt 10 C V (((j : ℝ) + 1 / 2) / 2 - 1 / 2) x
      = (bilinExt 10 C V ((((2 * j : Nat) : ℝ) + 1 / 2) / 4 - 1 / 2) x
          + bilinExt 10 C V ((((2 * j + 1 : Nat) : ℝ) + 1 / 2) / 4 - 1 / 2) x) / 2 := by
  unfold bilinExt
  obtain ⟨R, eR⟩ : ∃ R, R = min ((j - 1) / 2) 8 := ⟨_, rfl⟩
  have h1 : R = 0 ∨ 2 * R + 1 ≤ j := by omega
  have h2 : R + 2 = 10 ∨ j ≤ 2 * R + 2 := by omega
  have h1' : R = 0 ∨ 2 * (R : ℝ) + 1 ≤ j := h1.imp_right (fun h => by exact_mod_cast h)
  have h2' : R + 2 = 10 ∨ (j : ℝ) ≤ 2 * (R : ℝ) + 2 := h2.imp_right (fun h => by exact_mod_cast h)
  rw [lin1_cell (c := R) _ (by omega) (h1'.imp_right (fun h => by linarith)) (h2'.imp_right (fun h => by linarith)),
    lin1_cell (c := R) _ (by omega) (h1'.imp_right (fun h => by push_cast; linarith)) (h2'.imp_right (fun h => by push_cast; linarith)),
    lin1_cell (c := R) _ (by omega) (h1'.imp_right (fun h => by push_cast; linarith)) (h2'.imp_right (fun h => by push_cast; linarith))]
  push_cast
  ring

example (V : Nat → Nat → ℝ) : bilinExt 10 1354 V 3.25 7.5 = (bilinExt 10 1354 V 3.125 7.5 + bilinExt 10 1354 V 3.375 7.5) / 2 := by
  have := C99_half 1354 V (j := 7) (by omega) 7.5
  norm_num at this ⊢
  exact this

/-- half way between two points -/
noncomputable def midpt (P Q : ℝ × ℝ × ℝ) : ℝ × ℝ × ℝ := ((P.1 + Q.1) / 2, (P.2.1 + Q.2.1) / 2, (P.2.2 + Q.2.2) / 2)

/-- the point that is reported for row `j` of scan `s` and column `i` by the simple interpolator with factor `f` (C36) -/
noncomputable def simplePoint (C f : Nat) (lon lat : Nat → Nat → ℝ) (s j i : Nat) : ℝ × ℝ × ℝ :=
  (bilinExt 10 C (fun a b => tieR lon lat 0 (s * 10 + a) b) (((j : ℝ) + 1 / 2) / f - 1 / 2) ((i : ℝ) / f),
   bilinExt 10 C (fun a b => tieR lon lat 1 (s * 10 + a) b) (((j : ℝ) + 1 / 2) / f - 1 / 2) ((i : ℝ) / f),
   bilinExt 10 C (fun a b => tieR lon lat 2 (s * 10 + a) b) (((j : ℝ) + 1 / 2) / f - 1 / 2) ((i : ℝ) / f))

/-- the conversions back are one and the same function in exact arithmetic -/
theorem cy_geoOf (P : ℝ × ℝ × ℝ) : cyXyz2lonlat (earthRadius : FP ℝ) cyThr true (val P.1, val P.2.1, val P.2.2) = geoOf P := by
  unfold geoOf
  rw [Verif.Modis.earthRadius_val, Verif.Modis.defaultThr_val, show (cyThr : FP ℝ) = val (4 / 5) by simp [cyThr]; norm_num,
    cyXyz2lonlat_val _ _ _ _ _ _ (by norm_num), xyz2lonlat_val _ _ _ _ _ _ (by norm_num)]

/-- **C99 (resolutions, arrays)**: a 500 m pixel of the simple interpolator is the point half way between the two 250 m points of its
column, converted to longitude and latitude. -/
theorem C99_simple (n C : Nat) (hC : 2 ≤ C) (lon lat : Nat → Nat → ℝ) (junk junk' : Nat → Nat → Nat → Nat → FP ℝ) :
    ∃ out out', modis1kmTo500m mcLinear ⟨n * 10, C, fun i j => val (lon i j)⟩ ⟨n * 10, C, fun i j => val (lat i j)⟩ junk = .ok out ∧
      modis1kmTo250m mcLinear ⟨n * 10, C, fun i j => val (lon i j)⟩ ⟨n * 10, C, fun i j => val (lat i j)⟩ junk' = .ok out' ∧
      (∀ s j i, s < n → j < 40 → i < C * 4 →
        (out'.1.cell (s * 40 + j) i, out'.2.cell (s * 40 + j) i) = geoOf (simplePoint C 4 lon lat s j i)) ∧
      ∀ s j i, s < n → j < 20 → i < C * 2 → (out.1.cell (s * 20 + j) i, out.2.cell (s * 20 + j) i)
        = geoOf (midpt (simplePoint C 4 lon lat s (2 * j) (2 * i)) (simplePoint C 4 lon lat s (2 * j + 1) (2 * i))) := by
  obtain ⟨out, e, h⟩ := C36_bilinear .km1to500 n C hC lon lat junk
  obtain ⟨out', e', h'⟩ := C36_bilinear .km1to250 n C hC lon lat junk'
  refine ⟨out, out', e, e', fun s j i hs hj hi => ?_, fun s j i hs hj hi => ?_⟩
  · have := h' s j i hs hj hi
    rw [show 10 * SConv.factor .km1to250 = 40 from rfl] at this
    rw [this, ← cy_geoOf]
    rfl
  · have := h s j i hs hj hi
    rw [show 10 * SConv.factor .km1to500 = 20 from rfl] at this
    rw [this, ← cy_geoOf]
    unfold bilinLonLat midpt simplePoint
    have e2 : (((SConv.factor .km1to500 : Nat)) : ℝ) = 2 := by norm_num [SConv.factor]
    have e4 : ((4 : Nat) : ℝ) = 4 := by norm_num
    have ex : ((2 * i : Nat) : ℝ) / 4 = (i : ℝ) / 2 := by push_cast; ring
    simp only [e2, e4, ex, C99_half C _ hj]

example (junk junk') := C99_simple 3 5 (by omega) (fun i j => 100 + (i : ℝ) / 10) (fun i j => (j : ℝ) / 10) junk junk'


/-! ### with and without zenith angles -/

/-- **C99 (zenith angles)**: the zenith-angle interpolator and the simple interpolator differ in no component by more than
`2.7·W·(2|σ(1-σ)| + 0.02/g)`, where `σ` is the position of the column in its cell, `g` the gap between the zenith angles of the cell
(C98) and `W` a bound on the difference between the two tie points of a row of the cell. Holds for zenith angles of at most 70 degrees
that are not both zero, and for any tie points. -/
theorem C99_zenith (c : SConv) (V : Nat → Nat → Nat → ℝ) (satz : Nat → Nat → ℝ) (i0 k : Nat) {j i : Nat}
    (hj : j < 10 * c.factor) (hi : i < 1354 * c.factor) {a b W : ℝ}
    (ea : a = satz (i0 + Modis.cellRow (c.angle.cfg 1354) j) (Modis.cellCol (c.angle.cfg 1354) i))
    (eb : b = satz (i0 + Modis.cellRow (c.angle.cfg 1354) j) (Modis.cellCol (c.angle.cfg 1354) i + 1))
    (ha : |a| ≤ 70) (hb : |b| ≤ 70) (h0 : ¬ (a = 0 ∧ b = 0))
    (hW : ∀ r, r ≤ 1 → |V (i0 + (Modis.cellRow (c.angle.cfg 1354) j + r)) (Modis.cellCol (c.angle.cfg 1354) i + 1) k
      - V (i0 + (Modis.cellRow (c.angle.cfg 1354) j + r)) (Modis.cellCol (c.angle.cfg 1354) i) k| ≤ W) :
    ∃ σ x, (i : ℝ) / c.factor = Modis.cellCol (c.angle.cfg 1354) i + σ ∧
      Modis.fineXyz (c.angle.cfg 1354) (fun a b k => (val (V a b k) : FP ℝ)) (fun a b => val (satz a b)) i0 j i k = val x ∧
      |x - bilinExt 10 1354 (fun a b => V (i0 + a) b k) (((j : ℝ) + 1 / 2) / c.factor - 1 / 2) ((i : ℝ) / c.factor)|
        ≤ 2.7 * W * (2 * |σ * (1 - σ)| + 0.02 / Modis.zenithGap a b) := by
  have hr : j < c.angle.scanRows * c.angle.factor := by
    rw [c.angle_factor]; cases c <;> exact hj
  have hk : i < c.angle.outCols := by rw [c.angle_cols]; exact hi
  obtain ⟨T, σ, b3, b4, y1, x1, -, -, key⟩ := weights_val c.angle 1354 hr hk i0
  obtain ⟨ce, e1, e2⟩ := C98_expansion (c.angle.cfg 1354).perKm (by cases c <;> simp [SConv.angle, Conv.cfg]) ha hb h0
  obtain ⟨ca, f1, f2⟩ := C98_alignment (c.angle.cfg 1354).perKm (by cases c <;> simp [SConv.angle, Conv.cfg]) ha hb h0
  have hts := key (fun a b => val (satz a b)) ce ca (by rw [← ea, ← eb, ← e1, ← f1])
  -- without coefficients
  have hz0 : ∀ p q, expansionAlignment 1 ((fun _ j => val (if j % 2 = 0 then 30 else -30) : Nat → Nat → FP ℝ) p q)
      ((fun _ j => val (if j % 2 = 0 then 30 else -30) : Nat → Nat → FP ℝ) p (q + 1)) = (val 0, val 0) := by
    intro p q
    rcases Nat.mod_two_eq_zero_or_one q with hq | hq
    · have hq1 : (q + 1) % 2 = 1 := by omega
      simp only [hq, hq1, if_true, one_ne_zero, if_false]
      exact opposite_angles_zero 30 (by norm_num)
    · have hq1 : (q + 1) % 2 = 0 := by omega
      simp only [hq, hq1, if_true, one_ne_zero, if_false]
      have := opposite_angles_zero (-30) (by norm_num)
      simpa using this
  have hb0 := angle_fine c V (fun _ j => val (if j % 2 = 0 then 30 else -30)) i0 j i k hj hi (fun p q _ _ => hz0 (i0 + p) q)
  have hts0 := key (fun _ j => val (if j % 2 = 0 then 30 else -30)) 0 0 (by rw [c.angle_cfg.2.2]; exact hz0 0 _)
  unfold Modis.fineXyz at hb0 ⊢
  rw [hts0] at hb0
  rw [hts]
  simp only [Modis.fineComponent, FP.one_eq, FP.val_sub, FP.val_mul, FP.val_add, FP.val.injEq] at hb0 ⊢
  refine ⟨σ, _, ?_, rfl, ?_⟩
  · have hx := C31_cols_1km_partial c.angle c.angle_1km 1354 i hk
    rw [x1, c.angle_factor] at hx
    simpa using hx.symm
  obtain ⟨T', S', σ', k1, -, k3, k4⟩ := C98_weights c.angle 1354 hr hk satz i0 ea eb ha hb h0
  rw [hts, Prod.mk.injEq, FP.val.injEq, FP.val.injEq] at k1
  rw [x1, FP.val.injEq, add_right_inj] at k3
  rw [← k1.2, ← k3] at k4
  have w0 := hW 0 (by omega)
  have w1 := hW 1 (by omega)
  rw [Nat.add_zero] at w0
  rw [← Nat.add_assoc] at w1
  rw [← hb0]
  generalize V (i0 + Modis.cellRow (c.angle.cfg 1354) j) (Modis.cellCol (c.angle.cfg 1354) i) k = A at *
  generalize V (i0 + Modis.cellRow (c.angle.cfg 1354) j) (Modis.cellCol (c.angle.cfg 1354) i + 1) k = B at *
  generalize V (i0 + Modis.cellRow (c.angle.cfg 1354) j + 1) (Modis.cellCol (c.angle.cfg 1354) i) k = A' at *
  generalize V (i0 + Modis.cellRow (c.angle.cfg 1354) j + 1) (Modis.cellCol (c.angle.cfg 1354) i + 1) k = B' at *
  generalize 2 * |σ * (1 - σ)| + 0.02 / Modis.zenithGap a b = E at *
  obtain ⟨δ, eδ⟩ : ∃ δ, δ = σ * (1 - σ) * ce + T * (1 - T) * ca := ⟨_, rfl⟩
  have hδ : |δ| ≤ E := by
    rw [eδ, show σ * (1 - σ) * ce + T * (1 - T) * ca = σ + σ * (1 - σ) * ce + T * (1 - T) * ca - σ by ring]
    exact k4
  have hW0 : 0 ≤ W := (abs_nonneg _).trans w0
  have hmix : |(1 - T) * (B - A) + T * (B' - A')| ≤ 2.7 * W := by
    refine (abs_add_le _ _).trans ?_
    rw [abs_mul, abs_mul]
    have q1 := mul_le_mul_of_nonneg_left w0 (abs_nonneg (1 - T))
    have q2 := mul_le_mul_of_nonneg_left w1 (abs_nonneg T)
    have q3 : |1 - T| + |T| ≤ 2.7 := by
      norm_num at b3 b4 ⊢
      rcases abs_cases (1 - T) with g | g <;> rcases abs_cases T with h | h <;> linarith
    nlinarith
  rw [show (1 - T) * ((1 - (σ + σ * (1 - σ) * ce + T * (1 - T) * ca)) * A + (σ + σ * (1 - σ) * ce + T * (1 - T) * ca) * B)
      + T * ((1 - (σ + σ * (1 - σ) * ce + T * (1 - T) * ca)) * A' + (σ + σ * (1 - σ) * ce + T * (1 - T) * ca) * B')
      - ((1 - T) * ((1 - (σ + σ * (1 - σ) * 0 + T * (1 - T) * 0)) * A + (σ + σ * (1 - σ) * 0 + T * (1 - T) * 0) * B)
        + T * ((1 - (σ + σ * (1 - σ) * 0 + T * (1 - T) * 0)) * A' + (σ + σ * (1 - σ) * 0 + T * (1 - T) * 0) * B'))
      = ((1 - T) * (B - A) + T * (B' - A')) * δ by rw [eδ]; ring, abs_mul]
  exact mul_le_mul hmix hδ (abs_nonneg _) (by positivity)

example : ∃ x, Modis.fineXyz (SConv.km1to250.angle.cfg 1354) (fun _ b _ => (val (1000 * (b : ℝ)) : FP ℝ))
      (fun _ b => val (45 + 0.5 * (b : ℝ))) 0 5 2 0 = val x ∧
    |x - bilinExt 10 1354 (fun _ b => 1000 * (b : ℝ)) (((5 : ℝ) + 1 / 2) / 4 - 1 / 2) (1 / 2)| ≤ 1458 := by
  obtain ⟨σ, x, h0, h1, h2⟩ := C99_zenith .km1to250 (fun _ b _ => 1000 * (b : ℝ)) (fun _ b => 45 + 0.5 * (b : ℝ)) 0 0 (j := 5) (i := 2)
    (by decide) (by decide) (a := 45) (b := 45.5) (W := 1000) (by norm_num [Modis.cellCol, Conv.cfg, SConv.angle])
    (by norm_num [Modis.cellCol, Conv.cfg, SConv.angle]) (by norm_num [abs_le]) (by norm_num [abs_le]) (by norm_num)
    (by intro r hr; rw [abs_le]; push_cast; constructor <;> linarith)
  have hσ : σ = 1 / 2 := by
    norm_num [Modis.cellCol, Conv.cfg, SConv.angle, SConv.factor] at h0
    linarith
  refine ⟨x, h1, ?_⟩
  rw [hσ] at h2
  norm_num [Modis.zenithGap, SConv.factor, abs_of_neg, abs_of_pos] at h2 ⊢
  linarith

/-- **C99 (zenith angles, tie columns)**: in the columns of tie points the two interpolators differ by at most `0.054·W/g`. -/
theorem C99_zenith_ties (c : SConv) (V : Nat → Nat → Nat → ℝ) (satz : Nat → Nat → ℝ) (i0 k : Nat) {j d : Nat}
    (hj : j < 10 * c.factor) (hd : d < 1354) {a b W : ℝ}
    (ea : a = satz (i0 + Modis.cellRow (c.angle.cfg 1354) j) (Modis.cellCol (c.angle.cfg 1354) (c.factor * d)))
    (eb : b = satz (i0 + Modis.cellRow (c.angle.cfg 1354) j) (Modis.cellCol (c.angle.cfg 1354) (c.factor * d) + 1))
    (ha : |a| ≤ 70) (hb : |b| ≤ 70) (h0 : ¬ (a = 0 ∧ b = 0))
    (hW : ∀ r, r ≤ 1 → |V (i0 + (Modis.cellRow (c.angle.cfg 1354) j + r)) (Modis.cellCol (c.angle.cfg 1354) (c.factor * d) + 1) k
      - V (i0 + (Modis.cellRow (c.angle.cfg 1354) j + r)) (Modis.cellCol (c.angle.cfg 1354) (c.factor * d)) k| ≤ W) :
    ∃ x, Modis.fineXyz (c.angle.cfg 1354) (fun a b k => (val (V a b k) : FP ℝ)) (fun a b => val (satz a b)) i0 j (c.factor * d) k = val x ∧
      |x - bilinExt 10 1354 (fun a b => V (i0 + a) b k) (((j : ℝ) + 1 / 2) / c.factor - 1 / 2) d| ≤ 0.054 * W / Modis.zenithGap a b := by
  have hf : 0 < c.factor := by cases c <;> simp [SConv.factor]
  obtain ⟨σ, x, h1, h2, h3⟩ := C99_zenith c V satz i0 k hj (i := c.factor * d)
    (by rw [Nat.mul_comm]; exact Nat.mul_lt_mul_of_pos_right hd hf) ea eb ha hb h0 hW
  have hx : ((c.factor * d : Nat) : ℝ) / c.factor = (d : ℝ) := by
    have : (c.factor : ℝ) ≠ 0 := by positivity
    push_cast
    field_simp
  rw [hx] at h1 h3
  have hc : Modis.cellCol (c.angle.cfg 1354) (c.factor * d) = d ∨ Modis.cellCol (c.angle.cfg 1354) (c.factor * d) + 1 = d := by
    cases c <;> simp only [SConv.angle, SConv.factor, Conv.cfg, Modis.cellCol] <;> (try split_ifs) <;> omega
  have hσ : σ * (1 - σ) = 0 := by
    rcases hc with hc | hc
    · rw [hc] at h1
      have : σ = 0 := by linarith
      rw [this]; ring
    · have h4 : ((Modis.cellCol (c.angle.cfg 1354) (c.factor * d) : Nat) : ℝ) + 1 = d := by exact_mod_cast hc
      have : σ = 1 := by linarith
      rw [this]; ring
  refine ⟨x, h2, h3.trans (le_of_eq ?_)⟩
  rw [hσ, abs_zero]
  ring

/-- zenith angles 45 and 45.5 degrees, tie points a kilometre (1000 m) apart: within 108 m at the tie column -/
example : ∃ x, Modis.fineXyz (SConv.km1to250.angle.cfg 1354) (fun _ b _ => (val (1000 * (b : ℝ)) : FP ℝ))
      (fun _ b => val (45 + 0.5 * (b : ℝ))) 0 5 0 0 = val x ∧
    |x - bilinExt 10 1354 (fun _ b => 1000 * (b : ℝ)) (((5 : ℝ) + 1 / 2) / 4 - 1 / 2) 0| ≤ 108 := by
  obtain ⟨x, h1, h2⟩ := C99_zenith_ties .km1to250 (fun _ b _ => 1000 * (b : ℝ)) (fun _ b => 45 + 0.5 * (b : ℝ)) 0 0 (j := 5) (d := 0)
    (by decide) (by decide) (a := 45) (b := 45.5) (W := 1000) (by norm_num [Modis.cellCol, Conv.cfg, SConv.angle, SConv.factor])
    (by norm_num [Modis.cellCol, Conv.cfg, SConv.angle, SConv.factor]) (by norm_num [abs_le]) (by norm_num [abs_le]) (by norm_num)
    (by intro r hr; rw [abs_le]; push_cast; constructor <;> linarith)
  refine ⟨x, h1, ?_⟩
  norm_num [Modis.zenithGap, SConv.factor, abs_of_neg, abs_of_pos] at h2 ⊢
  exact h2

/-! ### the presets -/

/-- the preset of the same resolutions, on one core -/
noncomputable def SConv.preset : SConv → SplLib (FP ℝ) → Mat (FP ℝ) → Mat (FP ℝ) → Except Err (Mat (FP ℝ) × Mat (FP ℝ))
  | .km1to500, S, lo, la => modis1kmto500m S lo la 1 []
  | .km1to250, S, lo, la => modis1kmto250m S lo la 1 []

/-- the components of a tie point -/
private theorem tieR_tieXyz (lons lats : List (List ℝ)) (i b : Nat) :
    (tieR (fun i j => (lons.getD i []).getD j 0) (fun i j => (lats.getD i []).getD j 0) 0 i b,
     tieR (fun i j => (lons.getD i []).getD j 0) (fun i j => (lats.getD i []).getD j 0) 1 i b,
     tieR (fun i j => (lons.getD i []).getD j 0) (fun i j => (lats.getD i []).getD j 0) 2 i b) = tieXyz lons lats i b := by
  unfold tieR tieXyz Spec.spherePoint
  simp

/-- **C99 (presets)**: in the columns of tie points, and in every row, the presets `modis1kmto500m` and `modis1kmto250m` and the simple
interpolators give the same longitudes and latitudes, whatever the cubic spline is between the columns. -/
theorem C99_presets (c : SConv) (S : SplLib (FP ℝ)) (hS1 : ∀ xs ys x, S 1 xs ys x = linSeg xs ys x) (hS3 : SplNum S)
    (hSi : Interpolating S 3) (n : Nat) (hn : 1 ≤ n) (lons lats : List (List ℝ)) (h1 : Shape (10 * n) 1354 lons)
    (h2 : Shape (10 * n) 1354 lats) (junk : Nat → Nat → Nat → Nat → FP ℝ) :
    ∃ lo la out, c.preset S (numMat lons) (numMat lats) = .ok (lo, la) ∧
      c.run mcLinear ⟨n * 10, 1354, fun i j => val ((lons.getD i []).getD j 0)⟩ ⟨n * 10, 1354, fun i j => val ((lats.getD i []).getD j 0)⟩
        junk = .ok out ∧
      ∀ r b, r < n * 10 * c.factor → b < 1354 → el (row lo r) (c.factor * b) = out.1.cell r (c.factor * b) ∧
        el (row la r) (c.factor * b) = out.2.cell r (c.factor * b) := by
  obtain ⟨out, e, h⟩ := C36_bilinear c n 1354 (by omega) (fun i j => (lons.getD i []).getD j 0) (fun i j => (lats.getD i []).getD j 0) junk
  have hpre : ∃ lo la, c.preset S (numMat lons) (numMat lats) = .ok (lo, la) ∧ ∀ s a b R : Nat, s < n → a < 10 * c.factor → b < 1354 →
      R < 9 → (R = 0 ∨ (R : ℝ) ≤ ((a : ℝ) + 1 / 2) / c.factor - 1 / 2) → (R = 8 ∨ ((a : ℝ) + 1 / 2) / c.factor - 1 / 2 ≤ R + 1) →
      (el (row lo (10 * c.factor * s + a)) (c.factor * b), el (row la (10 * c.factor * s + a)) (c.factor * b))
        = geoOf (chord R (tieXyz lons lats (10 * s + R) b) (R + 1) (tieXyz lons lats (10 * s + R + 1) b)
            (((a : ℝ) + 1 / 2) / c.factor - 1 / 2)) := by
    cases c
    · obtain ⟨lo, la, e, h⟩ := C52_modis1kmto500m S hS1 hS3 hSi n hn lons lats h1 h2
      refine ⟨lo, la, e, fun s a b R hs ha hb hR g1 g2 => ?_⟩
      simp only [SConv.factor, Nat.reduceMul] at g1 g2 ha ⊢
      have g1' : R = 0 ∨ 2 * R < a := g1.imp_right (fun h => by
        have : (2 * (R : ℝ)) < a := by push_cast at h; linarith
        exact_mod_cast this)
      have g2' : R = 8 ∨ a ≤ 2 * R + 2 := g2.imp_right (fun h => by
        have : (a : ℝ) < 2 * R + 3 := by push_cast at h; linarith
        have : a < 2 * R + 3 := by exact_mod_cast this
        omega)
      rw [h s a b R hs (by omega) hb hR g1' g2']
      rw [show ((a : ℝ) + 1 / 2) / ((2 : Nat) : ℝ) - 1 / 2 = ((a : ℝ) - 1 / 2) / 2 by push_cast; ring]
    · obtain ⟨lo, la, e, h⟩ := C52_modis1kmto250m S hS1 hS3 hSi n hn lons lats h1 h2
      refine ⟨lo, la, e, fun s a b R hs ha hb hR g1 g2 => ?_⟩
      simp only [SConv.factor, Nat.reduceMul] at g1 g2 ha ⊢
      have g1' : R = 0 ∨ 4 * R + 1 < a := g1.imp_right (fun h => by
        have : (4 * (R : ℝ) + 1) < a := by push_cast at h; linarith
        exact_mod_cast this)
      have g2' : R = 8 ∨ a ≤ 4 * R + 5 := g2.imp_right (fun h => by
        have : (a : ℝ) < 4 * R + 6 := by push_cast at h; linarith
        have : a < 4 * R + 6 := by exact_mod_cast this
        omega)
      rw [h s a b R hs (by omega) hb hR g1' g2']
      rw [show ((a : ℝ) + 1 / 2) / ((4 : Nat) : ℝ) - 1 / 2 = ((a : ℝ) - 3 / 2) / 4 by push_cast; ring]
  obtain ⟨lo, la, e', hp⟩ := hpre
  refine ⟨lo, la, out, e', e, fun r b hr hb => ?_⟩
  have hf : 0 < c.factor := by cases c <;> simp [SConv.factor]
  have hf10 : 0 < 10 * c.factor := by omega
  obtain ⟨s, es⟩ : ∃ s, s = r / (10 * c.factor) := ⟨_, rfl⟩
  obtain ⟨a, ea⟩ : ∃ a, a = r % (10 * c.factor) := ⟨_, rfl⟩
  have ha : a < 10 * c.factor := by rw [ea]; exact Nat.mod_lt _ hf10
  have hra : r = 10 * c.factor * s + a := by rw [es, ea]; exact (Nat.div_add_mod _ _).symm
  have hs : s < n := by
    rw [es, Nat.div_lt_iff_lt_mul hf10, ← Nat.mul_assoc]; exact hr
  have hi : c.factor * b < 1354 * c.factor := by
    rw [Nat.mul_comm]; exact Nat.mul_lt_mul_of_pos_right hb hf
  have q1 := h s a (c.factor * b) hs ha hi
  -- the cell
  have hcell : ∃ R : Nat, R < 9 ∧ (R = 0 ∨ (R : ℝ) ≤ ((a : ℝ) + 1 / 2) / c.factor - 1 / 2) ∧
      (R = 8 ∨ ((a : ℝ) + 1 / 2) / c.factor - 1 / 2 ≤ R + 1) := by
    cases c
    · simp only [SConv.factor] at ha ⊢
      refine ⟨min ((a - 1) / 2) 8, by omega, ?_, ?_⟩
      · rcases (by omega : min ((a - 1) / 2) 8 = 0 ∨ 2 * min ((a - 1) / 2) 8 + 1 ≤ a) with g | g
        · exact Or.inl g
        · have : 2 * ((min ((a - 1) / 2) 8 : Nat) : ℝ) + 1 ≤ a := by exact_mod_cast g
          exact Or.inr (by push_cast at this ⊢; linarith)
      · rcases (by omega : min ((a - 1) / 2) 8 = 8 ∨ a ≤ 2 * min ((a - 1) / 2) 8 + 2) with g | g
        · exact Or.inl g
        · have : (a : ℝ) ≤ 2 * ((min ((a - 1) / 2) 8 : Nat) : ℝ) + 2 := by exact_mod_cast g
          exact Or.inr (by push_cast at this ⊢; linarith)
    · simp only [SConv.factor] at ha ⊢
      refine ⟨min ((a - 2) / 4) 8, by omega, ?_, ?_⟩
      · rcases (by omega : min ((a - 2) / 4) 8 = 0 ∨ 4 * min ((a - 2) / 4) 8 + 2 ≤ a) with g | g
        · exact Or.inl g
        · have : 4 * ((min ((a - 2) / 4) 8 : Nat) : ℝ) + 2 ≤ a := by exact_mod_cast g
          exact Or.inr (by push_cast at this ⊢; linarith)
      · rcases (by omega : min ((a - 2) / 4) 8 = 8 ∨ a ≤ 4 * min ((a - 2) / 4) 8 + 5) with g | g
        · exact Or.inl g
        · have : (a : ℝ) ≤ 4 * ((min ((a - 2) / 4) 8 : Nat) : ℝ) + 5 := by exact_mod_cast g
          exact Or.inr (by push_cast at this ⊢; linarith)
  obtain ⟨R, hR, g1, g2⟩ := hcell
  have q2 := hp s a b R hs ha hb hR g1 g2
  have hx : ((c.factor * b : Nat) : ℝ) / c.factor = (b : ℝ) := by
    have : (c.factor : ℝ) ≠ 0 := by positivity
    push_cast
    field_simp
  have key : bilinLonLat 1354 s (fun i j => (lons.getD i []).getD j 0) (fun i j => (lats.getD i []).getD j 0)
      (((a : ℝ) + 1 / 2) / c.factor - 1 / 2) (((c.factor * b : Nat) : ℝ) / c.factor)
      = geoOf (chord R (tieXyz lons lats (10 * s + R) b) (R + 1) (tieXyz lons lats (10 * s + R + 1) b)
            (((a : ℝ) + 1 / 2) / c.factor - 1 / 2)) := by
    unfold bilinLonLat
    rw [hx]
    have hline : ∀ k, bilinExt 10 1354 (fun a b => tieR (fun i j => (lons.getD i []).getD j 0) (fun i j => (lats.getD i []).getD j 0) k (s * 10 + a) b)
        (((a : ℝ) + 1 / 2) / c.factor - 1 / 2) (b : ℝ)
        = lineThrough (R : ℝ) (tieR (fun i j => (lons.getD i []).getD j 0) (fun i j => (lats.getD i []).getD j 0) k (10 * s + R) b) (R + 1)
            (tieR (fun i j => (lons.getD i []).getD j 0) (fun i j => (lats.getD i []).getD j 0) k (10 * s + R + 1) b)
            (((a : ℝ) + 1 / 2) / c.factor - 1 / 2) := by
      intro k
      rw [C36_tie_columns _ _ _ _ _ hb (by omega), lin1_cell (c := R) _ (by omega) g1 (g2.imp_left (fun h => by omega)),
        Nat.mul_comm s 10, Nat.add_assoc]
      unfold lineThrough
      field_simp
      ring
    rw [hline 0, hline 1, hline 2]
    have t1 := tieR_tieXyz lons lats (10 * s + R) b
    have t2 := tieR_tieXyz lons lats (10 * s + R + 1) b
    rw [← cy_geoOf]
    unfold chord
    rw [← t1, ← t2]
  rw [Nat.mul_comm s, ← hra] at q1
  rw [← hra] at q2
  rw [key, ← q2] at q1
  exact ⟨(congrArg Prod.fst q1).symm, (congrArg Prod.snd q1).symm⟩

example (c : SConv) (junk) := C99_presets c (fun _ => linSeg) (fun _ _ _ => rfl) splNum_linSeg interpolating_linSeg_three 3 (by norm_num) _ _
  (shape_grid 30 1354 (fun i j => (j : ℝ) / 10 + i)) (shape_grid 30 1354 (fun i j => (i : ℝ) + j / 100)) junk

end Verif.Props
