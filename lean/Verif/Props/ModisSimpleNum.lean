import Verif.Proofs.ModisSimpleNum
import Verif.Props.ModisSimple
import Verif.Props.ModisNum

/-!
# C36, C38: geometry of the simple MODIS interpolation (exact arithmetic `FP ℝ`, linear `map_coordinates`)
-/

namespace Verif.Props
open Verif Real FP Verif.Geo Verif.ModisSimple Verif.Spec

/-- Cartesian component `k` (in metres) of the tie point `(i, j)`. -/
noncomputable def tieR (lon lat : Nat → Nat → ℝ) (k i j : Nat) : ℝ :=
  if k = 0 then 6370997 * cos (rad (lat i j)) * cos (rad (lon i j))
  else if k = 1 then 6370997 * cos (rad (lat i j)) * sin (rad (lon i j))
  else 6370997 * sin (rad (lat i j))

theorem ties_val (lon lat : Nat → Nat → ℝ) (i j k : Nat) :
    Modis.ties (fun i j => (val (lon i j) : FP ℝ)) (fun i j => val (lat i j)) i j k = val (tieR lon lat k i j) := by
  unfold Modis.ties Modis.tieXyz tieR
  rw [Verif.Modis.earthRadius_val, cyLonlat2xyz_eq, lonlat2xyz_val]
  unfold Modis.comp
  simp only []
  split_ifs <;> rfl

/-- Longitude and latitude of the bilinear interpolation, in cartesian space, of the tie points of scan `s` at row
`y` and column `x` of the scan. -/
noncomputable def bilinLonLat (C s : Nat) (lon lat : Nat → Nat → ℝ) (y x : ℝ) : FP ℝ × FP ℝ :=
  cyXyz2lonlat earthRadius cyThr true
    (val (bilinExt 10 C (fun a b => tieR lon lat 0 (s * 10 + a) b) y x),
     val (bilinExt 10 C (fun a b => tieR lon lat 1 (s * 10 + a) b) y x),
     val (bilinExt 10 C (fun a b => tieR lon lat 2 (s * 10 + a) b) y x))

/-- **C36**: fine pixel `(s*10*f + j, i)` is the (border-continued) bilinear interpolation, in cartesian space, of scan
`s` at row `(j + 1/2)/f - 1/2` and column `i/f`, converted back to longitude and latitude. -/
theorem C36_bilinear (c : SConv) (n C : Nat) (hC : 2 ≤ C) (lon lat : Nat → Nat → ℝ)
    (junk : Nat → Nat → Nat → Nat → FP ℝ) :
    ∃ out, c.run mcLinear ⟨n * 10, C, fun i j => val (lon i j)⟩ ⟨n * 10, C, fun i j => val (lat i j)⟩ junk = .ok out ∧
      ∀ s j i, s < n → j < 10 * c.factor → i < C * c.factor →
        (out.1.cell (s * (10 * c.factor) + j) i, out.2.cell (s * (10 * c.factor) + j) i)
          = bilinLonLat C s lon lat (((j : ℝ) + 1 / 2) / c.factor - 1 / 2) ((i : ℝ) / c.factor) := by
  obtain ⟨out, e, p1, p2⟩ := srun_pixel c mcLinear (n := n) (lon := ⟨n * 10, C, fun i j => (val (lon i j) : FP ℝ)⟩)
    (lat := ⟨n * 10, C, fun i j => val (lat i j)⟩) ⟨hC, rfl, rfl, rfl⟩ junk
  refine ⟨out, e, fun s j i hs hj hi => ?_⟩
  have hr : s * (10 * c.factor) + j < n * 10 * c.factor := by
    have h1 : (s + 1) * (10 * c.factor) ≤ n * (10 * c.factor) := Nat.mul_le_mul_right _ hs
    have h2 : (s + 1) * (10 * c.factor) = s * (10 * c.factor) + 10 * c.factor := by ring
    rw [Nat.mul_assoc]; omega
  rw [p1.cell _ _ hr hi trivial, p2.cell _ _ hr hi trivial, Prod.mk.eta, ModisSimple.pixel_block _ _ hj]
  unfold ModisSimple.scanPixel bilinLonLat
  have key := fun k => fine_val c.factor_ok hC (fun a b => tieR lon lat k (s * 10 + a) b) j i hj
    (by rw [Nat.mul_comm]; exact hi)
  simp only [ties_val]
  rw [key 0, key 1, key 2]
  rfl

/-- Bilinear interpolation reproduces fields affine in each index (so affine fields of both), for C36. -/
theorem C36_affine (R C : Nat) (p q r s y x : ℝ) :
    bilinExt R C (fun a b => p + q * a + r * b + s * (a * b)) y x = p + q * y + r * x + s * (y * x) := by
  have h1 : ∀ a : Nat, lin1 C (fun b => p + q * a + r * b + s * (a * b)) x = p + q * a + r * x + s * (a * x) := by
    intro a; unfold lin1; push_cast; ring
  unfold bilinExt
  simp only [h1]
  unfold lin1; push_cast; ring

example : bilinExt 10 1354 (fun a b => 5 + 2 * a + (-1) * b + 3 * (a * b)) (-3 / 8) 1353.75
    = 5 + 2 * (-3 / 8) + (-1) * 1353.75 + 3 * (-3 / 8 * 1353.75) := C36_affine _ _ _ _ _ _ _ _

/-- The tie columns are hit exactly: at column `i = f*b` the value is the interpolation of tie column `b` along the
track. -/
theorem C36_tie_columns (R C : Nat) (V : Nat → Nat → ℝ) (y : ℝ) (b : Nat) (hb : b < C) (hC : 2 ≤ C) :
    bilinExt R C V y (b : ℝ) = lin1 R (fun a => V a b) y := by
  unfold bilinExt
  congr 1
  funext a
  rcases Nat.lt_or_ge (b + 1) C with h | h
  · rw [lin1_cell (c := b) (V a) (by omega) (Or.inr (le_refl _)) (Or.inr (by linarith))]; ring
  · obtain ⟨b', rfl⟩ : ∃ b', b = b' + 1 := ⟨b - 1, by omega⟩
    rw [lin1_cell (c := b') (V a) (by omega) (Or.inr (by push_cast; linarith)) (Or.inr (by push_cast; linarith))]
    push_cast; ring

example (junk) := C36_bilinear .km1to250 3 5 (by omega) (fun i j => 100 + (i : ℝ) / 10) (fun i j => (j : ℝ) / 10) junk

/-! ## C38 -/

open Verif.Modis (expansionAlignment fineComponent atrackAscan getCoords)

/-- the two conversions that exist in both modules -/
def SConv.angle : SConv → Conv
  | .km1to500 => .km1to500
  | .km1to250 => .km1to250

theorem SConv.angle_factor (c : SConv) : c.angle.factor = c.factor := by cases c <;> rfl
theorem SConv.angle_1km (c : SConv) : c.angle = .km1to500 ∨ c.angle = .km1to250 := by
  cases c <;> simp [SConv.angle]
theorem SConv.angle_rows (c : SConv) : c.angle.scanRows = 10 := by cases c <;> rfl
theorem SConv.angle_cols (c : SConv) : c.angle.outCols = 1354 * c.factor := by cases c <;> rfl
theorem SConv.angle_cfg (c : SConv) : (c.angle.cfg 1354).f = c.factor ∧ (c.angle.cfg 1354).len = 10 ∧
    (c.angle.cfg 1354).perKm = 1 := by cases c <;> exact ⟨rfl, rfl, rfl⟩

private theorem of_pos {q : ℝ} {z : FP ℝ} {v : ℝ} (h : val q + z = val v) : z = val (v - q) := by
  cases z with
  | bad => simp at h
  | val a => rw [val_add, val.injEq] at h; rw [val.injEq]; linarith

/-- With zero coefficients the fine component of the satellite-angle code is the bilinear interpolation. -/
theorem angle_fine (c : SConv) (V : Nat → Nat → Nat → ℝ) (satz : Nat → Nat → FP ℝ) (i0 j i k : Nat)
    (hj : j < 10 * c.factor) (hi : i < 1354 * c.factor)
    (h0 : ∀ a b, a < 10 → b + 1 < 1354 → expansionAlignment 1 (satz (i0 + a) b) (satz (i0 + a) (b + 1)) = (val 0, val 0)) :
    Modis.fineXyz (c.angle.cfg 1354) (fun a b k => val (V a b k)) satz i0 j i k
      = val (bilinExt 10 1354 (fun a b => V (i0 + a) b k) (((j : ℝ) + 1 / 2) / c.factor - 1 / 2) ((i : ℝ) / c.factor)) := by
  have hg := c.angle.cfg_geometry (w := 1354) (by cases c <;> rfl)
  have hcr := Verif.Modis.cellRow_lt hg j
  have hcc := Verif.Modis.cellCol_lt hg i
  rw [c.angle_cfg.2.1] at hcr
  rw [c.angle.cfg_width (by cases c <;> rfl)] at hcc
  have hy := of_pos (C31_rows_1km_partial c.angle c.angle_1km 1354 j (by rw [c.angle_factor]; exact hj))
  have hx := of_pos (C31_cols_1km_partial c.angle c.angle_1km 1354 i (by rw [c.angle_cols]; exact hi))
  rw [c.angle_factor] at hy hx
  unfold Modis.fineXyz Modis.trackScan
  rw [c.angle_cfg.2.2]
  simp only [h0 _ _ (show Modis.cellRow (c.angle.cfg 1354) j < 10 by omega) hcc]
  unfold atrackAscan
  simp only []
  rw [hx, hy]
  have hf0 : (0 : ℝ) < c.factor := by cases c <;> norm_num [SConv.factor]
  unfold bilinExt
  set R := Modis.cellRow (c.angle.cfg 1354) j with hR
  set C := Modis.cellCol (c.angle.cfg 1354) i with hC
  have hlin : ∀ g : Nat → ℝ, lin1 1354 g ((i : ℝ) / c.factor)
      = (1 - ((i : ℝ) / c.factor - C)) * g C + ((i : ℝ) / c.factor - C) * g (C + 1) := by
    intro g
    have hd : c.factor * C ≤ i ∧ (C = 1352 ∨ i ≤ c.factor * (C + 1)) := by
      rw [hC]; cases c <;> simp only [SConv.angle, Conv.cfg, Modis.cellCol, SConv.factor, if_true] <;> omega
    apply lin1_cell g (by omega)
    · right
      rw [le_div_iff₀ hf0]
      have : ((c.factor * C : ℕ) : ℝ) ≤ i := by exact_mod_cast hd.1
      push_cast at this; linarith
    · rcases hd.2 with h | h
      · left; omega
      · right
        rw [div_le_iff₀ hf0]
        have : (i : ℝ) ≤ ((c.factor * (C + 1) : ℕ) : ℝ) := by exact_mod_cast h
        push_cast at this; linarith
  have hlinr : ∀ g : Nat → ℝ, lin1 10 g (((j : ℝ) + 1 / 2) / c.factor - 1 / 2)
      = (1 - (((j : ℝ) + 1 / 2) / c.factor - 1 / 2 - R)) * g R
        + (((j : ℝ) + 1 / 2) / c.factor - 1 / 2 - R) * g (R + 1) := by
    intro g
    have hd : (R = 0 ∨ c.factor * (2 * R + 1) ≤ 2 * j + 1) ∧ (R = 8 ∨ 2 * j + 1 ≤ c.factor * (2 * R + 3)) := by
      rw [hR]; cases c <;> simp only [SConv.angle, Conv.cfg, Modis.cellRow, SConv.factor, if_true] <;> omega
    apply lin1_cell g (by omega)
    · rcases hd.1 with h | h
      · exact Or.inl h
      · right
        have : ((c.factor * (2 * R + 1) : ℕ) : ℝ) ≤ ((2 * j + 1 : ℕ) : ℝ) := by exact_mod_cast h
        push_cast at this
        rw [le_sub_iff_add_le, le_div_iff₀ hf0]; linarith
    · rcases hd.2 with h | h
      · left; omega
      · right
        have : ((2 * j + 1 : ℕ) : ℝ) ≤ ((c.factor * (2 * R + 3) : ℕ) : ℝ) := by exact_mod_cast h
        push_cast at this
        rw [sub_le_iff_le_add, div_le_iff₀ hf0]; linarith
  rw [hlinr]
  simp only [hlin]
  unfold fineComponent
  simp only [one_eq, val_sub, val_mul, val_add]
  congr 1
  simp only [Nat.add_assoc]
  ring

/-- **C38**: when the expansion and alignment coefficients of every cell are zero, the satellite-angle interpolator and
the simple interpolator return the same longitudes and latitudes, at every pixel. -/
theorem C38_agree (c : SConv) (n : Nat) (lon lat : Nat → Nat → ℝ) (satz : Nat → Nat → FP ℝ)
    (h0 : ∀ a b, a < n * 10 → b + 1 < 1354 → expansionAlignment 1 (satz a b) (satz a (b + 1)) = (val 0, val 0))
    (junk junk' : Nat → Nat → Nat → Nat → FP ℝ) :
    ∃ out out',
      c.angle.run ⟨n * 10, 1354, fun i j => val (lon i j)⟩ ⟨n * 10, 1354, fun i j => val (lat i j)⟩
        ⟨n * 10, 1354, satz⟩ junk = .ok out ∧
      c.run mcLinear ⟨n * 10, 1354, fun i j => val (lon i j)⟩ ⟨n * 10, 1354, fun i j => val (lat i j)⟩ junk' = .ok out' ∧
      ∀ r k, r < n * 10 * c.factor → k < 1354 * c.factor →
        out.1.cell r k = out'.1.cell r k ∧ out.2.cell r k = out'.2.cell r k := by
  obtain ⟨out', e', h'⟩ := C36_bilinear c n 1354 (by omega) lon lat junk'
  obtain ⟨out, e, p1, p2⟩ := run_pixel c.angle (n := n)
    (lon := ⟨n * 10, 1354, fun i j => (val (lon i j) : FP ℝ)⟩) (lat := ⟨n * 10, 1354, fun i j => val (lat i j)⟩)
    (satz := ⟨n * 10, 1354, satz⟩)
    ⟨by cases c <;> rfl, by rw [c.angle_rows], by rw [c.angle_rows], by rw [c.angle_rows], rfl, rfl⟩ junk
  rw [c.angle_rows, c.angle_factor, c.angle_cols] at p1 p2
  refine ⟨out, out', e, e', fun r k hr hk => ?_⟩
  have hf : 0 < 10 * c.factor := by cases c <;> simp [SConv.factor]
  set s := r / (10 * c.factor) with hs
  set j := r % (10 * c.factor) with hjd
  have hj : j < 10 * c.factor := Nat.mod_lt _ hf
  have hrs : r = s * (10 * c.factor) + j := by rw [Nat.mul_comm]; exact (Nat.div_add_mod _ _).symm
  have hsn : s < n := by
    rw [hs, Nat.div_lt_iff_lt_mul hf, ← Nat.mul_assoc]; exact hr
  have h2 := h' s j k hsn hj hk
  rw [p1.cell r k hr hk trivial, p2.cell r k hr hk trivial]
  have key : Modis.pixel (c.angle.cfg 1354) (fun i j => (val (lon i j) : FP ℝ)) (fun i j => val (lat i j)) satz r k
      = bilinLonLat 1354 s lon lat (((j : ℝ) + 1 / 2) / c.factor - 1 / 2) ((k : ℝ) / c.factor) := by
    have hb := Verif.Modis.pixel_block (cfg := c.angle.cfg 1354) (fun i j => (val (lon i j) : FP ℝ))
      (fun i j => val (lat i j)) satz (s := s) (r := j) (c := k) (by rw [c.angle_cfg.1, c.angle_cfg.2.1]; exact hj)
    rw [c.angle_cfg.1, c.angle_cfg.2.1, Nat.mul_assoc, ← hrs] at hb
    rw [hb]
    unfold Modis.scanPixel bilinLonLat
    have ha := fun m => angle_fine c (fun a b m => tieR lon lat m a b) satz (s * 10) j k m hj hk
      (fun a b ha hb => h0 _ _ (by omega) hb)
    have hty : Modis.ties (fun i j => (val (lon i j) : FP ℝ)) (fun i j => val (lat i j))
        = fun a b m => val (tieR lon lat m a b) := by
      funext a b m; exact ties_val lon lat a b m
    rw [hty, ha 0, ha 1, ha 2]
  rw [hrs, ← hrs]
  constructor
  · have := congrArg Prod.fst h2
    simp only at this
    rw [← hrs] at this
    rw [this, ← key]
  · have := congrArg Prod.snd h2
    simp only at this
    rw [← hrs] at this
    rw [this, ← key]

/-- Zenith angles of opposite sign give zero coefficients, so the hypothesis of `C38_agree` can be met. -/
theorem opposite_angles_zero (z : ℝ) (hz : z ≠ 0) :
    expansionAlignment 1 (val z : FP ℝ) (val (-z)) = (val 0, val 0) := by
  open Verif.Modis in
  have hR := Rk_pos
  set A := Spec.rad z with hA
  have hB : Spec.rad (-z) = -A := by rw [hA]; unfold Spec.rad; ring
  have hpB : phiR (-A) = -phiR A := by unfold phiR; rw [sin_neg, mul_neg, arcsin_neg]
  have hA0 : A - phiR A ≠ 0 := by
    intro h
    have h2 : A = 0 := theta_inj (by rw [phiR_zero]; linarith)
    apply hz
    rw [← deg_rad z, ← hA, h2, deg_zero]
  have hne : ¬ (A - phiR A = -A - -phiR A) := fun h => hA0 (by linarith)
  unfold expansionAlignment
  simp only [toFloating_eq, cyDeg2rad_eq, deg2rad_val, ← hA, hB, computePhi_val, hpB, computeTheta, val_sub, eq_val, hne, decide_false,
    Bool.false_eq_true, if_false, val_add, add_neg_cancel, ofNat_eq]
  rw [val_div_of_ne 0 (by norm_num : (2:ℝ) ≠ 0), zero_div]
  have hzeta : computeZeta (val 0 : FP ℝ) = val 0 := by
    unfold computeZeta
    rw [satR_val, satH_val, sin_val, val_add, val_mul, val_div_of_ne _ hR.ne', sin_zero, mul_zero, zero_div,
      asin_val_of (by norm_num) (by norm_num), arcsin_zero, toFloating_eq]
  rw [hzeta]
  have hden : A - phiR A - (-A - -phiR A) ≠ 0 := fun h => hne (by linarith)
  have hH : (0:ℝ) < 2 * Hk := by norm_num [Hk]
  simp only [cos_val, sin_val, satR_val, satH_val, val_add, val_sub, val_mul, cos_zero, sin_zero]
  rw [val_div_of_ne _ hR.ne', ofInt_eq, val_div_of_ne _ hH.ne', val_div_of_ne _ (by norm_num : (2:ℝ) ≠ 0)]
  simp only [val_sub, val_mul]
  rw [sqrt_val_of (by norm_num [Rk, Hk])]
  simp only [val_sub, val_mul]
  rw [val_div_of_ne _ hden, val_div_of_ne _ hden]
  simp only [val_mul]
  congr 2
  · have : (A - phiR A + (-A - -phiR A)) = 0 := by ring
    rw [this]; simp
  · simp

/-- a swath with alternating zenith angles of ±30 degrees meets the hypothesis of `C38_agree` -/
example (n : Nat) (junk junk') := C38_agree .km1to250 n (fun i j => 10 + (i : ℝ) / 100) (fun i j => (j : ℝ) / 100)
  (fun _ j => val (if j % 2 = 0 then 30 else -30))
  (fun a b _ _ => by
    rcases Nat.mod_two_eq_zero_or_one b with h | h
    · rw [if_pos h, if_neg (by omega)]
      exact opposite_angles_zero 30 (by norm_num)
    · rw [if_neg (by omega), if_pos (by omega)]
      have := opposite_angles_zero (-30) (by norm_num)
      rwa [neg_neg] at this) junk junk'

end Verif.Props
