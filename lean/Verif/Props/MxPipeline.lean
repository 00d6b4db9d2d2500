import Verif.Props.MxWeights
import Verif.Props.FlGeoGrid

/-!
# C69: accuracy of the MODIS interpolation from longitudes and latitudes to longitudes and latitudes

The code as it runs: float32 arrays, double constants and library functions.
-/

namespace Verif.Props
open Verif Verif.Modis Verif.Spec Verif.Spec.Modis Verif.Geo Verif.Err Mx
variable {q : Mixed} {ε : ℝ}

/-- coordinate `l` of a point -/
def coord (p : ℝ × ℝ × ℝ) (l : Nat) : ℝ := if l = 0 then p.1 else if l = 1 then p.2.1 else p.2.2

/-- the cartesian coordinates as the code computes them -/
noncomputable def fwdM (q : Mixed) (lon lat : ℝ) : ℝ × ℝ × ℝ :=
  let lam := q.s.rnd (q.d.rnd (lon * radFactor q))
  let phi := q.s.rnd (q.d.rnd (lat * radFactor q))
  let R := q.d.rnd (((63709970 : Nat) : ℝ) / (10 : ℝ) ^ 1)
  let P := q.d.rnd (R * q.d.cos phi)
  (q.s.rnd (q.d.rnd (P * q.d.cos lam)), q.s.rnd (q.d.rnd (P * q.d.sin lam)), q.s.rnd (q.d.rnd (R * q.d.sin phi)))

private theorem p_ge (h : Prec q ε) : 23 ≤ q.d.p := by
  by_contra hc
  have h1 : (2 : ℝ) ^ (-(23 : ℤ)) ≤ q.d.u := by
    unfold Rounding.u
    exact zpow_le_zpow_right₀ (by norm_num) (by omega)
  have h2 := h1.trans h.d.u
  have := h.le'
  norm_num at h2 this
  linarith

private theorem fwd_part {R P x w v cp cl ε : ℝ} (h0 : 0 < ε) (hε : ε ≤ 0.000001) (hR : 0 < R) (hcp : |cp| ≤ 1) (hP : |P - R * cp| ≤ 0.003 * ε * R)
    (hc : |cp - cl| ≤ 1.58 * ε) (hx : |x - P * w| ≤ 1.004 * ε * |P * w|) (hw : |w| ≤ 1) (hv : |v| ≤ 1) (hwv : |w - v| ≤ 3.16 * ε) :
    |x - R * cl * v| ≤ 6 * ε * R := by
  have hPa : |P| ≤ 1.001 * R := by
    have h1 : |P| ≤ |P - R * cp| + |R * cp| := by
      calc |P| = |(P - R * cp) + R * cp| := by ring_nf
        _ ≤ _ := abs_add_le _ _
    have h2 : |R * cp| ≤ R := by rw [abs_mul, abs_of_pos hR]; nlinarith
    nlinarith
  have e : x - R * cl * v = (x - P * w) + (P - R * cp) * w + R * (cp - cl) * v + R * cp * (w - v) := by ring
  have a1 : |x - P * w| ≤ 1.0051 * ε * R := by
    have : |P * w| ≤ 1.001 * R := by
      rw [abs_mul]; nlinarith [abs_nonneg P, abs_nonneg w]
    have := mul_le_mul_of_nonneg_left this (by positivity : 0 ≤ 1.004 * ε)
    have : 0 < ε * R := by positivity
    norm_num at *
    linarith
  have a2 : |(P - R * cp) * w| ≤ 0.003 * ε * R := by
    rw [abs_mul]
    calc _ ≤ 0.003 * ε * R * 1 := mul_le_mul hP hw (abs_nonneg _) (by positivity)
      _ = _ := by ring
  have a3 : |R * (cp - cl) * v| ≤ 1.58 * ε * R := by
    rw [abs_mul, abs_mul, abs_of_pos hR]
    calc _ ≤ R * (1.58 * ε) * 1 := mul_le_mul (mul_le_mul_of_nonneg_left hc hR.le) hv (abs_nonneg _) (by positivity)
      _ = _ := by ring
  have a4 : |R * cp * (w - v)| ≤ 3.16 * ε * R := by
    rw [abs_mul, abs_mul, abs_of_pos hR]
    calc _ ≤ R * 1 * (3.16 * ε) := mul_le_mul (mul_le_mul_of_nonneg_left hcp hR.le) hwv (abs_nonneg _) (by positivity)
      _ = _ := by ring
  rw [e]
  have t1 := abs_add_le ((x - P * w) + (P - R * cp) * w + R * (cp - cl) * v) (R * cp * (w - v))
  have t2 := abs_add_le ((x - P * w) + (P - R * cp) * w) (R * (cp - cl) * v)
  have t3 := abs_add_le (x - P * w) ((P - R * cp) * w)
  have : 0 < ε * R := by positivity
  norm_num at *
  linarith

/-- the error of the float32 cartesian coordinates of a tie point -/
theorem fwdM_err (h : Prec q ε) {lon lat : ℝ} (hlon : |lon| ≤ 180) (hlat : |lat| ≤ 90) (l : Nat) :
    |coord (fwdM q lon lat) l - coord (spherePoint 6370997 lon lat) l| ≤ 6 * ε * 6370997 := by
  have h0 := h.pos
  have hε := h.le'
  have hdε := h.d_le
  have hd0 := h.d.pos
  have hF : radFactor q = q.d.rnd (q.d.rnd Real.pi / 180) := by unfold radFactor; rw [rnd_180 h.hp]
  have hR' : q.d.rnd (((63709970 : Nat) : ℝ) / (10 : ℝ) ^ 1) = 6370997 := by
    rw [show ((63709970 : Nat) : ℝ) / (10 : ℝ) ^ 1 = 6370997 by norm_num, q.d.rnd_rep (rep_earthRadius (p_ge h))]
  have hδ : ε + 3.02 * (ε / 1000) + ε * (3.02 * (ε / 1000)) ≤ 1.0031 * ε := by nlinarith
  have hτ : ε + 2.01 * (ε / 1000) + ε * (2.01 * (ε / 1000)) ≤ 1.004 * ε := by nlinarith
  have hd1 := ((rad_rel h.d hdε lon).rnd (r := q.s) h.s).mono hδ
  have hd2 := ((rad_rel h.d hdε lat).rnd (r := q.s) h.s).mono hδ
  unfold fwdM
  rw [hF, hR']
  dsimp only
  obtain ⟨lam, elam⟩ : ∃ lam, lam = q.s.rnd (q.d.rnd (lon * q.d.rnd (q.d.rnd Real.pi / 180))) := ⟨_, rfl⟩
  obtain ⟨phi, ephi⟩ : ∃ phi, phi = q.s.rnd (q.d.rnd (lat * q.d.rnd (q.d.rnd Real.pi / 180))) := ⟨_, rfl⟩
  rw [← elam] at hd1 ⊢
  rw [← ephi] at hd2 ⊢
  obtain ⟨R, eR⟩ : ∃ R : ℝ, R = 6370997 := ⟨_, rfl⟩
  have hR : 0 < R := by rw [eR]; norm_num
  rw [← eR]
  have hπ := Real.pi_lt_d4
  have g1 : |lam - rad lon| ≤ 3.16 * ε := by
    refine le_trans hd1 ?_
    rw [abs_rad]
    have h1 : |lon| * (Real.pi / 180) ≤ 180 * (3.1416 / 180) :=
      mul_le_mul hlon (by linarith) (by linarith [Real.pi_pos]) (by norm_num)
    have := mul_le_mul_of_nonneg_left h1 (by positivity : 0 ≤ 1.0031 * ε)
    norm_num at *
    linarith
  have g2 : |phi - rad lat| ≤ 1.58 * ε := by
    refine le_trans hd2 ?_
    rw [abs_rad]
    have h1 : |lat| * (Real.pi / 180) ≤ 90 * (3.1416 / 180) :=
      mul_le_mul hlat (by linarith) (by linarith [Real.pi_pos]) (by norm_num)
    have := mul_le_mul_of_nonneg_left h1 (by positivity : 0 ≤ 1.0031 * ε)
    norm_num at *
    linarith
  have hP := prod_rel h.d hdε R (h.d.cos phi)
  have hz := ((prod_rel h.d hdε R (h.d.sin phi)).rnd (r := q.s) h.s).mono hτ
  have hx := ((prod_rel h.d hdε (q.d.rnd (R * q.d.cos phi)) (h.d.cos lam)).rnd (r := q.s) h.s).mono hτ
  have hy := ((prod_rel h.d hdε (q.d.rnd (R * q.d.cos phi)) (h.d.sin lam)).rnd (r := q.s) h.s).mono hτ
  obtain ⟨P, eP⟩ : ∃ P, P = q.d.rnd (R * q.d.cos phi) := ⟨_, rfl⟩
  rw [← eP] at hP hx hy ⊢
  have c1 := (Real.abs_cos_sub_cos_le phi (rad lat)).trans g2
  have s1 := (Real.abs_sin_sub_sin_le phi (rad lat)).trans g2
  have c2 := (Real.abs_cos_sub_cos_le lam (rad lon)).trans g1
  have s2 := (Real.abs_sin_sub_sin_le lam (rad lon)).trans g1
  have hcp := Real.abs_cos_le_one phi
  have hsp := Real.abs_sin_le_one phi
  unfold Err.Rel at hP hz hx hy
  rw [abs_mul, abs_of_pos hR] at hP hz
  have hP' : |P - R * Real.cos phi| ≤ 0.003 * ε * R := by
    have h1 : R * |Real.cos phi| ≤ R := mul_le_of_le_one_right hR.le hcp
    have h2 := hP.trans (mul_le_mul_of_nonneg_left h1 (by positivity))
    have : 0 < ε * R := by positivity
    norm_num at *
    linarith
  have hz' : |q.s.rnd (q.d.rnd (R * q.d.sin phi)) - R * Real.sin (rad lat)| ≤ 6 * ε * R := by
    have e : q.s.rnd (q.d.rnd (R * q.d.sin phi)) - R * Real.sin (rad lat)
        = (q.s.rnd (q.d.rnd (R * q.d.sin phi)) - R * Real.sin phi) + R * (Real.sin phi - Real.sin (rad lat)) := by ring
    have b : |R * (Real.sin phi - Real.sin (rad lat))| ≤ R * (1.58 * ε) := by
      rw [abs_mul, abs_of_pos hR]
      exact mul_le_mul_of_nonneg_left s1 hR.le
    have b' : |q.s.rnd (q.d.rnd (R * q.d.sin phi)) - R * Real.sin phi| ≤ 1.004 * ε * R :=
      hz.trans (mul_le_mul_of_nonneg_left (mul_le_of_le_one_right hR.le hsp) (by positivity))
    rw [e]
    have := abs_add_le (q.s.rnd (q.d.rnd (R * q.d.sin phi)) - R * Real.sin phi) (R * (Real.sin phi - Real.sin (rad lat)))
    have : 0 < ε * R := by positivity
    norm_num at *
    linarith
  unfold coord
  simp only [spherePoint]
  split_ifs
  · exact fwd_part h0 hε hR hcp hP' c1 hx (Real.abs_cos_le_one _) (Real.abs_cos_le_one _) c2
  · exact fwd_part h0 hε hR hcp hP' c1 hy (Real.abs_sin_le_one _) (Real.abs_sin_le_one _) s2
  · exact hz'

theorem ties_mx (lon lat : Nat → Nat → ℝ) (i j l : Nat) :
    ties (fun i j => (sgl (lon i j) : Mx q)) (fun i j => sgl (lat i j)) i j l = sgl (coord (fwdM q (lon i j) (lat i j)) l) := by
  unfold ties tieXyz
  rw [cyLonlat2xyz_mx]
  unfold comp coord fwdM sglpt
  split_ifs <;> rfl

/-- The point with weights `T` (along track) and `S` (across track) of the cell whose first tie point is `(i, j)`: the bilinear
combination of the four points of the sphere. -/
noncomputable def cellPoint (lon lat : Nat → Nat → ℝ) (i j : Nat) (T S : ℝ) : ℝ × ℝ × ℝ :=
  let f := fun l => (1 - T) * ((1 - S) * coord (spherePoint 6370997 (lon i j) (lat i j)) l
      + S * coord (spherePoint 6370997 (lon i (j + 1)) (lat i (j + 1))) l)
    + T * ((1 - S) * coord (spherePoint 6370997 (lon (i + 1) j) (lat (i + 1) j)) l
      + S * coord (spherePoint 6370997 (lon (i + 1) (j + 1)) (lat (i + 1) (j + 1))) l)
  (f 0, f 1, f 2)

/-- Neighbouring tie points of the cell whose first tie point is `(i, j)` are at most `W` apart in each coordinate. -/
def CellSize (lon lat : Nat → Nat → ℝ) (i j : Nat) (W : ℝ) : Prop :=
  ∀ l, let X := fun i j => coord (spherePoint 6370997 (lon i j) (lat i j)) l
    |X i (j + 1) - X i j| ≤ W ∧ |X (i + 1) (j + 1) - X (i + 1) j| ≤ W ∧ |X (i + 1) j - X i j| ≤ W ∧
    |X (i + 1) (j + 1) - X i (j + 1)| ≤ W

theorem coord_sphere (lon lat : ℝ) (l : Nat) : |coord (spherePoint 6370997 lon lat) l| ≤ 6370997 := by
  have h1 := Real.abs_cos_le_one (rad lat)
  have h2 := Real.abs_sin_le_one (rad lat)
  have h3 := Real.abs_cos_le_one (rad lon)
  have h4 := Real.abs_sin_le_one (rad lon)
  have key : ∀ {a b : ℝ}, |a| ≤ 1 → |b| ≤ 1 → |6370997 * a * b| ≤ 6370997 := by
    intro a b ha hb
    rw [abs_mul, abs_mul, abs_of_pos (by norm_num : (0 : ℝ) < 6370997)]
    have : |a| * |b| ≤ 1 := mul_le_one₀ ha (abs_nonneg _) hb
    rw [mul_assoc]
    linarith
  unfold coord
  simp only [spherePoint]
  split_ifs
  · exact key h1 h3
  · exact key h1 h4
  · have := key h2 (b := 1) (by norm_num)
    rwa [mul_one] at this

private theorem add_sgl_rep {x y : Mx q} {v : ℝ} (h : x + y = sgl v) : Rep q.s.p v := by
  cases x with
  | int m => cases y with
    | int n => exact absurd h (by intro e; cases e)
    | sgl b => cases h; exact q.s.rep _
    | dbl b => exact absurd h (by intro e; cases e)
    | bad => cases h
  | sgl a => cases y with
    | int n => cases h; exact q.s.rep _
    | sgl b => cases h; exact q.s.rep _
    | dbl b => exact absurd h (by intro e; cases e)
    | bad => cases h
  | dbl a => cases y <;> exact absurd h (by intro e; cases e)
  | bad => cases h

private theorem fineXyz_fp {cfg : Cfg} {X : Nat → Nat → Nat → ℝ} {satz : Nat → Nat → FP ℝ} {i0 r k l i j : Nat} {T S : ℝ}
    (hts : trackScan cfg satz i0 r k = (FP.val T, FP.val S)) (hi : i = i0 + cellRow cfg r) (hj : j = cellCol cfg k) :
    fineXyz cfg (fun i j l => FP.val (X i j l)) satz i0 r k l
      = FP.val ((1 - T) * ((1 - S) * X i j l + S * X i (j + 1) l) + T * ((1 - S) * X (i + 1) j l + S * X (i + 1) (j + 1) l)) := by
  unfold fineXyz
  simp only [hts, ← hi, ← hj]
  unfold fineComponent
  simp only [FP.one_eq, FP.val_sub, FP.val_mul, FP.val_add]

theorem comb_diff {T S a b c d a' b' c' d' e : ℝ} (h1 : |a - a'| ≤ e) (h2 : |b - b'| ≤ e) (h3 : |c - c'| ≤ e) (h4 : |d - d'| ≤ e) :
    |((1 - T) * ((1 - S) * a + S * b) + T * ((1 - S) * d + S * c)) - ((1 - T) * ((1 - S) * a' + S * b') + T * ((1 - S) * d' + S * c'))|
      ≤ e * ((|T| + |1 - T|) * (|S| + |1 - S|)) := by
  have g : ∀ {x u v m : ℝ}, |u| ≤ m → |v| ≤ m → |(1 - x) * u + x * v| ≤ m * (|x| + |1 - x|) := by
    intro x u v m hu hv
    refine (abs_add_le _ _).trans ?_
    rw [abs_mul, abs_mul]
    have := mul_le_mul_of_nonneg_left hu (abs_nonneg (1 - x))
    have := mul_le_mul_of_nonneg_left hv (abs_nonneg x)
    linarith
  have e1 := g (x := S) h1 h2
  have e2 := g (x := S) h4 h3
  have e3 := g (x := T) e1 e2
  have : ((1 - T) * ((1 - S) * a + S * b) + T * ((1 - S) * d + S * c)) - ((1 - T) * ((1 - S) * a' + S * b') + T * ((1 - S) * d' + S * c'))
      = (1 - T) * ((1 - S) * (a - a') + S * (b - b')) + T * ((1 - S) * (d - d') + S * (c - c')) := by ring
  rw [this]
  refine e3.trans (le_of_eq (by ring))

theorem diff_near {a b a' b' W e : ℝ} (h : |a' - b'| ≤ W) (ha : |a - a'| ≤ e) (hb : |b - b'| ≤ e) : |a - b| ≤ W + 2 * e := by
  have h1 := abs_le.1 h
  have h2 := abs_le.1 ha
  have h3 := abs_le.1 hb
  exact abs_le.2 ⟨by linarith, by linarith⟩

/-- the arithmetic of the bound -/
private theorem total_bound {ε R W Kt Ks e D1 D2 : ℝ} (h0 : 0 < ε) (hε : ε ≤ 0.000001) (hR : 0 < R) (hKt : 1 ≤ Kt) (hKs : 1 ≤ Ks) (he : 0 ≤ e)
    (h1 : D1 ≤ 13 * ε * (R + 6 * ε * R) * (Kt * (Ks + 2 * e)) + (W + 2 * (6 * ε * R)) * (1.001 * Kt * e + 1.85 * Ks * ε))
    (h2 : D2 ≤ 6 * ε * R * (Kt * Ks)) :
    D1 + D2 ≤ 20 * ε * R * (Kt * (Ks + 2 * e)) + W * (1.001 * Kt * e + 1.85 * Ks * ε) := by
  have hee : ε * ε ≤ 0.000001 * ε := mul_le_mul_of_nonneg_right hε h0.le
  have hq : 0 ≤ R * (Kt * (Ks + 2 * e)) := by positivity
  have a1 : (ε * ε) * (R * (Kt * (Ks + 2 * e))) ≤ (0.000001 * ε) * (R * (Kt * (Ks + 2 * e))) := mul_le_mul_of_nonneg_right hee hq
  have hk : Ks ≤ Kt * Ks := le_mul_of_one_le_left (by linarith) hKt
  have a2 : (ε * ε) * (R * Ks) ≤ (0.000001 * ε) * (R * (Kt * Ks)) :=
    mul_le_mul hee (mul_le_mul_of_nonneg_left hk hR.le) (by positivity) (by positivity)
  have p1 : 0 ≤ ε * R * (Kt * Ks) := by positivity
  have p2 : 0 ≤ ε * R * (Kt * e) := by positivity
  norm_num at *
  nlinarith

/-- Back conversion in mixed precision of float32 coordinates within `6370997 δ` of a point near the sphere. -/
theorem back_mx (h : Prec q ε) {εd : ℝ} (hd : LibRel q.d εd) (hεd : εd ≤ ε / 1000) {v0 v1 v2 : ℝ} (r0 : Rep q.s.p v0) (r1 : Rep q.s.p v1)
    (r2 : Rep q.s.p v2) {P : ℝ × ℝ × ℝ} {δ η η' lon' lat' : ℝ} (n0 : |v0 - P.1| ≤ δ * 6370997) (n1 : |v1 - P.2.1| ≤ δ * 6370997)
    (n2 : |v2 - P.2.2| ≤ δ * 6370997) (hlo : |lon'| ≤ 180) (hla : |lat'| < 90) (hn : NearSphere 6370997 η lon' lat' P)
    (hη' : η' = η + 1.42 * δ / Real.cos (rad lat')) (hη1 : η' ≤ 1 / 100) :
    (∃ L, (cyXyz2lonlat earthRadius cyThr true ((sgl v0, sgl v1, sgl v2) : Mx q × Mx q × Mx q)).1 = sgl L ∧
      (LonWithin (270 * √εd + 98 * η' + 190 * ε) L lon' ∨ (L = 0 ∧ 180 - 90 * η' ≤ |lon'|))) ∧
    (∃ B, (cyXyz2lonlat earthRadius cyThr true ((sgl v0, sgl v1, sgl v2) : Mx q × Mx q × Mx q)).2 = sgl B ∧
      |B - lat'| ≤ 115 * η' + 95 * ε) := by
  have h0 := h.pos
  have hε := h.le'
  have hδ0 : 0 ≤ δ / 50 := by
    have := (abs_nonneg _).trans n0
    linarith
  have e50 : δ * 6370997 = 50 * (δ / 50) * 6370997 := by ring
  rw [e50] at n0 n1 n2
  obtain ⟨hη, hnear⟩ := near_add (p := (v0, v1, v2)) (by norm_num) hla hδ0 hn n0 n1 n2
  have eη : η + 71 * (δ / 50) / Real.cos (rad lat') = η' := by rw [hη']; ring
  rw [eη] at hnear
  have hη0 : 0 ≤ η' := nonneg_of_mul_nonneg_left ((abs_nonneg _).trans hnear.2) (by norm_num : (0 : ℝ) < 6370997)
  have hrep : RepPt q.d (v0, v1, v2) := ⟨rep_d r0, rep_d r1, rep_d r2⟩
  obtain ⟨⟨L, -, l0, l1, l2, l3⟩, B, -, b1', b2'⟩ := back_error (r := q.d) (by have := p_ge h; omega) hd (hεd.trans h.d_le) (R := 6370997) (by norm_num)
    (thrOk_mx h.hp) (rep_d (q.s.rep _)) hlo hla hη1 hrep hnear _ (List.mem_cons_of_mem _ (List.mem_cons_self ..))
  have hpix : cyXyz2lonlat earthRadius cyThr true ((sgl v0, sgl v1, sgl v2) : Mx q × Mx q × Mx q)
      = (Mx.out (cyXyz2lonlat (Fl.val 6370997) (Fl.val (thrS q)) true (flpt q.d (v0, v1, v2))).1,
         Mx.out (cyXyz2lonlat (Fl.val 6370997) (Fl.val (thrS q)) true (flpt q.d (v0, v1, v2))).2) := by
    have hR : (earthRadius : Fl q.d) = Fl.val 6370997 := by
      show Fl.val (q.d.rnd (((63709970 : Nat) : ℝ) / (10 : ℝ) ^ 1)) = _
      rw [show ((63709970 : Nat) : ℝ) / (10 : ℝ) ^ 1 = 6370997 by norm_num, q.d.rnd_rep (rep_earthRadius (p_ge h))]
    have := cy_code_mx (q := q) true (v0, v1, v2)
    rw [hR] at this
    exact this
  rw [hpix, l1, b1']
  constructor
  · refine ⟨q.s.rnd L, rfl, ?_⟩
    by_cases ham : onAntimeridian (v0, v1, v2)
    · right
      rw [l3 ham, q.s.rnd_zero]
      exact ⟨rfl, near_antimeridian (by norm_num) hlo hla hη0 (by linarith) hnear ham⟩
    · left
      obtain ⟨m, m1, m2⟩ := l2 ham
      refine ⟨m, m1, ?_⟩
      rw [sub_sub] at m2 ⊢
      generalize √εd = x at m2 ⊢
      have g1 := q.s.abs_rnd_sub_le_u L
      have g2 : q.s.u * |L| ≤ ε * 185 := mul_le_mul h.s l0 (abs_nonneg _) h0.le
      rw [← sub_add_sub_cancel]
      refine (abs_add_le _ _).trans ?_
      linarith
  · refine ⟨q.s.rnd B, rfl, ?_⟩
    have hBb : |B| ≤ 93 := by
      calc |B| = |(B - lat') + lat'| := by ring_nf
        _ ≤ _ := abs_add_le _ _
        _ ≤ 93 := by linarith
    have g1 := q.s.abs_rnd_sub_le_u B
    have g2 : q.s.u * |B| ≤ ε * 93 := mul_le_mul h.s hBb (abs_nonneg _) h0.le
    rw [← sub_add_sub_cancel]
    refine (abs_add_le _ _).trans ?_
    linarith

/-- **C69**: MODIS geolocation, as the code runs it (float32 arrays, double constants and functions), from longitudes, latitudes and
zenith angles of the tie points to longitudes and latitudes of the fine pixels: for every conversion, every whole number of
scans and every fine pixel whose cell has valid tie points and zenith angles of at most 70 degrees that differ by at least
0.06 degrees, or by at least 0.01 degrees within 9 degrees of nadir, or are equal and not zero.  Let `T`, `S` be the exact weights of the pixel and `P` the exact combination of the tie points of the
sphere.  If `P` is within `η` of the point of the sphere at (`lon'`, `lat'`), the reported longitude is within
`270 sqrt εd + 98 η' + 190 ε` degrees (`εd` the precision of the double functions) of `lon'` on the circle and the latitude within `115 η' + 95 ε` degrees of
`lat'`, where `η' = η + 1.42 δ / cos lat'`, `δ = 20 ε Kt (Ks + 2 e) + ω (1.001 Kt e + 1.85 Ks ε)`, `e` the error of the scan weight
(C68), `ω` the size of the cell in Earth radii, `Kt = |T| + |1 - T|`, `Ks = |S| + |1 - S|`; only within `90 η'` degrees of the
180-degree meridian longitude 0 may be reported instead (C07). -/
theorem C69_modis_pixel (h : Prec q ε) {εd : ℝ} (hd : LibRel q.d εd) (hεd : εd ≤ ε / 1000) (c : Conv) (n w : Nat) (hw : c.WidthOk w) (lon lat satz : Nat → Nat → ℝ)
    (junk : Nat → Nat → Nat → Nat → Mx q) :
    ∃ out, c.run ⟨n * c.scanRows, w, fun i j => sgl (lon i j)⟩ ⟨n * c.scanRows, w, fun i j => sgl (lat i j)⟩
        ⟨n * c.scanRows, w, fun i j => sgl (satz i j)⟩ junk = .ok out ∧
      ∀ r k i j, r < n * c.scanRows * c.factor → k < c.outCols → i = tieRow c w r → j = tieCol c w k →
        (∀ i' j', (i' = i ∨ i' = i + 1) → (j' = j ∨ j' = j + 1) → |lon i' j'| ≤ 180 ∧ |lat i' j'| ≤ 90) →
        ZenithsOk ε (satz i j) (satz i (j + 1)) →
        ∀ ω, CellSize lon lat i j (ω * 6370997) →
        ∃ T S σ, trackScan (c.cfg w) (fun i j => (FP.val (satz i j) : FP ℝ)) (r / (c.scanRows * c.factor) * c.scanRows)
            (r % (c.scanRows * c.factor)) k = (FP.val T, FP.val S) ∧
          colPos c w k = FP.val ((j : ℝ) + σ) ∧
          (-0.5 ≤ T ∧ T ≤ 1.85 ∧ |S - σ| ≤ 2 * |σ * (1 - σ)| + 0.35) ∧
          ∀ e δ η η' lon' lat',
            e = (48000 * |σ * (1 - σ)| + 2500) * (ε / zenithGap (satz i j) (satz i (j + 1))) + 80 * ε →
            δ = 20 * ε * ((|T| + |1 - T|) * (|S| + |1 - S| + 2 * e)) + ω * (1.001 * (|T| + |1 - T|) * e + 1.85 * (|S| + |1 - S|) * ε) →
            |lon'| ≤ 180 → |lat'| < 90 → NearSphere 6370997 η lon' lat' (cellPoint lon lat i j T S) →
            η' = η + 1.42 * δ / Real.cos (rad lat') → η' ≤ 1 / 100 →
            (∃ L, out.1.cell r k = sgl L ∧ (LonWithin (270 * √εd + 98 * η' + 190 * ε) L lon' ∨ (L = 0 ∧ 180 - 90 * η' ≤ |lon'|))) ∧
            (∃ B, out.2.cell r k = sgl B ∧ |B - lat'| ≤ 115 * η' + 95 * ε) := by
  have h0 := h.pos
  have hε := h.le'
  obtain ⟨out, eo, p1, p2⟩ := run_pixel c (n := n) (lon := ⟨n * c.scanRows, w, fun i j => (sgl (lon i j) : Mx q)⟩)
    (lat := ⟨n * c.scanRows, w, fun i j => sgl (lat i j)⟩) (satz := ⟨n * c.scanRows, w, fun i j => sgl (satz i j)⟩)
    ⟨hw, rfl, rfl, rfl, rfl, rfl⟩ junk
  refine ⟨out, eo, ?_⟩
  intro r k i j hr hk hi hj hv hs ω hω
  have hsf : 0 < c.scanRows * c.factor := by cases c <;> decide
  have hr' : r % (c.scanRows * c.factor) < c.scanRows * c.factor := Nat.mod_lt _ hsf
  obtain ⟨X, eX⟩ : ∃ X : Nat → Nat → Nat → ℝ, X = fun i j l => coord (fwdM q (lon i j) (lat i j)) l := ⟨_, rfl⟩
  have et : ties (fun i j => (sgl (lon i j) : Mx q)) (fun i j => sgl (lat i j)) = fun i j l => sgl (X i j l) := by
    funext i j l; rw [ties_mx, eX]
  have hX : ∀ i' j' l, (i' = i ∨ i' = i + 1) → (j' = j ∨ j' = j + 1) →
      |X i' j' l - coord (spherePoint 6370997 (lon i' j') (lat i' j')) l| ≤ 6 * ε * 6370997 := by
    intro i' j' l a b
    rw [eX]
    exact fwdM_err h (hv i' j' a b).1 (hv i' j' a b).2 l
  have hXM : ∀ l i' j', (i' = i ∨ i' = i + 1) → (j' = j ∨ j' = j + 1) → |X i' j' l| ≤ 6370997 + 6 * ε * 6370997 := by
    intro l i' j' a b
    have h1 := hX i' j' l a b
    have h2 := coord_sphere (lon i' j') (lat i' j') l
    calc |X i' j' l| = |coord (spherePoint 6370997 (lon i' j') (lat i' j')) l + (X i' j' l - coord (spherePoint 6370997 (lon i' j') (lat i' j')) l)| := by ring_nf
      _ ≤ _ := abs_add_le _ _
      _ ≤ _ := by linarith
  have k00 : (i = i ∨ i = i + 1) := Or.inl rfl
  have k01 : (i + 1 = i ∨ i + 1 = i + 1) := Or.inr rfl
  have l00 : (j = j ∨ j = j + 1) := Or.inl rfl
  have l01 : (j + 1 = j ∨ j + 1 = j + 1) := Or.inr rfl
  have core := fun l => C61_modis_mixed h c w hr' hk satz X (r / (c.scanRows * c.factor) * c.scanRows) l (i := i) (j := j) hi hj hs (hXM l)
    (diff_near (hω l).1 (hX _ _ l k00 l01) (hX _ _ l k00 l00)) (diff_near (hω l).2.1 (hX _ _ l k01 l01) (hX _ _ l k01 l00))
    (diff_near (hω l).2.2.1 (hX _ _ l k01 l00) (hX _ _ l k00 l00)) (diff_near (hω l).2.2.2 (hX _ _ l k01 l01) (hX _ _ l k00 l01))
  obtain ⟨v0, V0, T, S, σ, a1, a2, a3, a4, a6, a5⟩ := core 0
  obtain ⟨v1, V1, T1, S1, σ1, b1, b2, b3, b4, b6, b5⟩ := core 1
  obtain ⟨v2, V2, T2, S2, σ2, c1, c2, c3, c4, c6, c5⟩ := core 2
  have t1 : T1 = T ∧ S1 = S := by
    rw [a3] at b3; simp only [Prod.mk.injEq, FP.val.injEq] at b3; exact ⟨b3.1.symm, b3.2.symm⟩
  have t2 : T2 = T ∧ S2 = S := by
    rw [a3] at c3; simp only [Prod.mk.injEq, FP.val.injEq] at c3; exact ⟨c3.1.symm, c3.2.symm⟩
  have u1 : σ1 = σ := by rw [a4, FP.val.injEq] at b4; linarith
  have u2 : σ2 = σ := by rw [a4, FP.val.injEq] at c4; linarith
  obtain ⟨rfl, rfl⟩ := t1
  obtain ⟨rfl, rfl⟩ := t2
  obtain rfl := u1
  obtain rfl := u2
  refine ⟨T2, S2, σ2, a3, by rw [hj]; exact a4, a6, ?_⟩
  intro e δ η η' lon' lat' he hδ hlo hla hn hη' hη1
  have hab : 0 < zenithGap (satz i j) (satz i (j + 1)) := by have := hs.gap; linarith
  have he0 : 0 ≤ e := by rw [he]; positivity
  have one_le : ∀ x : ℝ, 1 ≤ |x| + |1 - x| := by
    intro x
    have := abs_add_le x (1 - x)
    rw [add_sub_cancel, abs_one] at this
    exact this
  have hKt := one_le T2
  have hKs := one_le S2
  obtain ⟨Kt, eKt⟩ : ∃ Kt, Kt = |T2| + |1 - T2| := ⟨_, rfl⟩
  obtain ⟨Ks, eKs⟩ : ∃ Ks, Ks = |S2| + |1 - S2| := ⟨_, rfl⟩
  -- the three coordinates
  have near : ∀ {l : Nat} {v V : ℝ},
      fineXyz (c.cfg w) (fun i j l => (FP.val (X i j l) : FP ℝ)) (fun i j => FP.val (satz i j)) (r / (c.scanRows * c.factor) * c.scanRows)
        (r % (c.scanRows * c.factor)) k l = FP.val V →
      |v - V| ≤ 13 * ε * (6370997 + 6 * ε * 6370997) * ((|T2| + |1 - T2|) * (|S2| + |1 - S2| + 2 * e))
          + (ω * 6370997 + 2 * (6 * ε * 6370997)) * (1.001 * (|T2| + |1 - T2|) * e + 1.85 * (|S2| + |1 - S2|) * ε) →
      |v - ((1 - T2) * ((1 - S2) * coord (spherePoint 6370997 (lon i j) (lat i j)) l
          + S2 * coord (spherePoint 6370997 (lon i (j + 1)) (lat i (j + 1))) l)
        + T2 * ((1 - S2) * coord (spherePoint 6370997 (lon (i + 1) j) (lat (i + 1) j)) l
          + S2 * coord (spherePoint 6370997 (lon (i + 1) (j + 1)) (lat (i + 1) (j + 1))) l))| ≤ δ * 6370997 := by
    intro l v V e1 e2
    rw [fineXyz_fp a3 hi hj, FP.val.injEq] at e1
    have d2 := comb_diff (T := T2) (S := S2) (hX i j l k00 l00) (hX i (j + 1) l k00 l01) (hX (i + 1) (j + 1) l k01 l01) (hX (i + 1) j l k01 l00)
    rw [e1] at d2
    rw [← eKt, ← eKs] at e2 d2
    rw [← eKt] at hKt
    rw [← eKs] at hKs
    have d3 := total_bound h0 hε (by norm_num) hKt hKs he0 e2 d2
    rw [← sub_add_sub_cancel]
    refine (abs_add_le _ _).trans (d3.trans (le_of_eq ?_))
    rw [hδ, eKt, eKs]
    ring
  have n0 := near a2 (a5 e he)
  have n1 := near b2 (b5 e he)
  have n2 := near c2 (c5 e he)
  have back := back_mx h hd hεd (add_sgl_rep a1) (add_sgl_rep b1) (add_sgl_rep c1) (P := cellPoint lon lat i j T2 S2) n0 n1 n2 hlo hla hn hη' hη1
  -- the code
  have hpix : pixel (c.cfg w) (fun i j => (sgl (lon i j) : Mx q)) (fun i j => sgl (lat i j)) (fun i j => sgl (satz i j)) r k
      = cyXyz2lonlat earthRadius cyThr true (sgl v0, sgl v1, sgl v2) := by
    unfold pixel
    rw [c.cfg_len, c.cfg_f, et]
    unfold scanPixel
    rw [a1, b1, c1]
  rw [p1.cell r k hr hk trivial, p2.cell r k hr hk trivial]
  show (∃ L, (pixel _ _ _ _ _ _).1 = _ ∧ _) ∧ ∃ B, (pixel _ _ _ _ _ _).2 = _ ∧ _
  rw [hpix]
  exact back

theorem lib_ieee : LibRel Mixed.ieee.d (1 / 2 ^ 53) := by
  have u53 : Mixed.ieee.d.u = 1 / 2 ^ 53 := by
    show (2 : ℝ) ^ (-((53 : ℕ) : ℤ)) = _
    rw [zpow_neg, zpow_natCast]; norm_num
  have hl : LibRel Mixed.ieee.d Mixed.ieee.d.u := libRel_correct 53 (by norm_num)
  rwa [u53] at hl

/-- One scan of 10 rows, 1 km to 500 m, all tie points at 10 degrees east, 60 degrees north, zenith angles 0.06 degrees apart
near 40 degrees: the column in the middle of the first cell is reported at latitude 60 within 0.002 degrees and at longitude 10
within 0.002 degrees. -/
example (junk : Nat → Nat → Nat → Nat → Mx Mixed.ieee) :
    ∃ out, Conv.km1to500.run ⟨1 * 10, 1354, fun _ _ => sgl 10⟩ ⟨1 * 10, 1354, fun _ _ => sgl 60⟩
        ⟨1 * 10, 1354, fun _ j => sgl (40 + 0.06 * (j : ℝ))⟩ junk = .ok out ∧
      (∃ L, out.1.cell 3 1 = sgl L ∧ LonWithin 0.002 L 10) ∧ ∃ B, out.2.cell 3 1 = sgl B ∧ |B - 60| ≤ 0.002 := by
  obtain ⟨out, h1, h2⟩ := C69_modis_pixel prec_ieee lib_ieee (by norm_num) .km1to500 1 1354 rfl (fun _ _ => 10) (fun _ _ => 60)
    (fun _ j => 40 + 0.06 * (j : ℝ)) junk
  refine ⟨out, h1, ?_⟩
  obtain ⟨T, S, σ, -, h3, ⟨h4, h5, h6⟩, h7⟩ := h2 3 1 1 0 (by decide) (by decide) (by decide) (by decide)
    (fun _ _ _ _ => by norm_num [abs_le]) ⟨by norm_num [abs_le], by norm_num [abs_le], by norm_num [zenithGap, abs_of_neg],
      Or.inl (by norm_num [zenithGap, abs_of_neg])⟩ 0
    (by intro l; simp)
  have hσ : σ = 1 / 2 := by
    rw [C31_cols_1km_partial .km1to500 (Or.inl rfl) 1354 1 (by decide), FP.val.injEq] at h3
    norm_num [Conv.factor] at h3
    linarith
  have hS : |S| + |1 - S| ≤ 1.7 := by
    rw [hσ] at h6
    have h6' : |S - 1 / 2| ≤ 0.85 := h6.trans (by norm_num [abs_of_pos])
    obtain ⟨g1, g2⟩ := abs_le.1 h6'
    rcases abs_cases S with ⟨e1, _⟩ | ⟨e1, _⟩ <;> rcases abs_cases (1 - S) with ⟨e2, _⟩ | ⟨e2, _⟩ <;> rw [e1, e2] <;> norm_num at g1 g2 ⊢ <;> linarith
  have hT : |T| + |1 - T| ≤ 2.7 := by
    rcases abs_cases T with ⟨e1, _⟩ | ⟨e1, _⟩ <;> rcases abs_cases (1 - T) with ⟨e2, _⟩ | ⟨e2, _⟩ <;> rw [e1, e2] <;> norm_num at h4 h5 ⊢ <;> linarith
  obtain ⟨e, he⟩ : ∃ e, e = (48000 * |σ * (1 - σ)| + 2500) * (1 / 2 ^ 24 / zenithGap (40 + 0.06 * ((0 : ℕ) : ℝ)) (40 + 0.06 * ((0 + 1 : ℕ) : ℝ))) + 80 * (1 / 2 ^ 24) :=
    ⟨_, rfl⟩
  have he1 : 0 ≤ e ∧ e ≤ 0.015 := by
    rw [he, hσ]
    norm_num [zenithGap, abs_of_neg, abs_of_pos]
  obtain ⟨δ, hδ⟩ : ∃ δ, δ = 20 * (1 / 2 ^ 24) * ((|T| + |1 - T|) * (|S| + |1 - S| + 2 * e))
    + 0 * (1.001 * (|T| + |1 - T|) * e + 1.85 * (|S| + |1 - S|) * (1 / 2 ^ 24)) := ⟨_, rfl⟩
  have hδ1 : δ ≤ 0.0000057 := by
    rw [hδ, zero_mul, add_zero]
    have : (|T| + |1 - T|) * (|S| + |1 - S| + 2 * e) ≤ 2.7 * 1.73 :=
      mul_le_mul hT (by have := he1.2; norm_num at this hS ⊢; linarith) (by have := he1.1; positivity) (by norm_num)
    norm_num at this ⊢
    linarith
  have hcos : Real.cos (rad 60) = 1 / 2 := by
    rw [show rad 60 = Real.pi / 3 by unfold rad; ring, Real.cos_pi_div_three]
  obtain ⟨η', hη'⟩ : ∃ η' : ℝ, η' = 0 + 1.42 * δ / Real.cos (rad 60) := ⟨_, rfl⟩
  have hη1 : η' ≤ 0.0000163 := by
    rw [hη', hcos]
    norm_num at hδ1 ⊢
    linarith
  have hsq : √(1 / 2 ^ 53 : ℝ) ≤ 1 / 2 ^ 26 := by
    rw [Real.sqrt_le_left (by positivity)]
    norm_num
  obtain ⟨⟨L, l1, l2⟩, B, b1, b2⟩ := h7 e δ 0 η' 10 60 he hδ (by norm_num) (by norm_num) (by
    unfold cellPoint NearSphere
    have : ∀ x : ℝ, (1 - T) * ((1 - S) * x + S * x) + T * ((1 - S) * x + S * x) = x := by intro x; ring
    simp only [this]
    simp [coord]) hη' (by norm_num at hη1 ⊢; linarith)
  refine ⟨⟨L, l1, ?_⟩, B, b1, b2.trans ?_⟩
  · rcases l2 with ⟨m, m1, m2⟩ | ⟨-, m2⟩
    · refine ⟨m, m1, m2.trans ?_⟩
      generalize √(1 / 2 ^ 53 : ℝ) = x at hsq
      norm_num at hη1 hsq ⊢
      linarith
    · norm_num at hη1 m2
      linarith
  · norm_num at hη1 ⊢
    linarith

end Verif.Props
