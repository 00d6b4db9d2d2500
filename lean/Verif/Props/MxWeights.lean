import Verif.Proofs.MxTrack
import Verif.Props.MxModis
import Verif.Props.MxRound
import Verif.Props.ModisNum

/-!
# C61, C68: accuracy of the weights of the MODIS interpolation, and of the interpolated points, in mixed precision
-/

namespace Verif.Props
open Verif Verif.Modis Verif.Spec.Modis Verif.Geo Verif.Err Mx
variable {q : Mixed} {ε : ℝ}

/-! ### the coordinates inside a cell -/

private theorem half_rep {p : Nat} (hp : 12 ≤ p) {m : ℤ} (hm : |m| < 4096) : Rep p ((m : ℝ) / 2) := by
  refine ⟨m, -1, lt_of_lt_of_le hm ?_, by norm_num; ring⟩
  calc (4096 : ℤ) = 2 ^ 12 := by norm_num
    _ ≤ 2 ^ p := pow_le_pow_right₀ (by norm_num) hp

private theorem rnd_half {r : Rounding} (hp : 12 ≤ r.p) {m : ℤ} {x : ℝ} (hx : x = (m : ℝ) / 2) (hm : |m| < 4096) : r.rnd x = x := by
  rw [hx]; exact r.rnd_rep (half_rep hp hm)

private theorem rnd_small {r : Rounding} (hp : 12 ≤ r.p) {m : ℤ} (hm : |m| < 2048) : r.rnd (m : ℝ) = m :=
  rnd_half hp (m := 2 * m) (by push_cast; ring) (by rw [abs_mul]; norm_num; omega)

private theorem di_add (a : ℝ) (n : ℤ) : (dbl a + int n : Mx q) = dbl (q.d.rnd (a + q.d.rnd (n : ℝ))) := rfl
private theorem id_add (a : ℝ) (n : ℤ) : (int n + dbl a : Mx q) = dbl (q.d.rnd (q.d.rnd (n : ℝ) + a)) := rfl
private theorem di_sub (a : ℝ) (n : ℤ) : (dbl a - int n : Mx q) = dbl (q.d.rnd (a - q.d.rnd (n : ℝ))) := rfl

private theorem lit_half (hp : 12 ≤ q.d.p) : (Arith.lit 5 1 : Mx q) = dbl (1 / 2) := by
  rw [Mx.lit_eq, show (((5 : ℕ) : ℝ) / (10 : ℝ) ^ 1) = 1 / 2 by norm_num, rnd_half hp (m := 1) (by norm_num) (by norm_num)]

private theorem lit_half_fp : (Arith.lit 5 1 : FP ℝ) = FP.val (1 / 2) := by
  rw [FP.lit_eq]; norm_num

private theorem coordY1km_mx (hp : 12 ≤ q.s.p) (cfg : Cfg) (hl : cfg.len = 10) (hf : 2 ≤ cfg.f) (hf' : cfg.f ≤ 20) {i : Nat}
    (hi : i < cfg.len * cfg.f) :
    ∃ m : ℤ, (coordY1km cfg i : Mx q) = dbl ((m : ℝ) / 2) ∧ (coordY1km cfg i : FP ℝ) = FP.val ((m : ℝ) / 2) ∧
      |m| < 4096 ∧ -(cfg.f : ℤ) ≤ m ∧ m ≤ 3 * cfg.f := by
  have hd : 12 ≤ q.d.p := hp.trans q.le
  unfold coordY1km
  simp only [lit_half hd, lit_half_fp, Mx.ofInt_eq, FP.ofInt_eq]
  rw [hl] at hi ⊢
  obtain ⟨f, ef⟩ : ∃ f, f = cfg.f := ⟨_, rfl⟩
  rw [← ef] at hf hf' hi ⊢
  split
  · rename_i h1
    refine ⟨2 * i + 1 - 2 * (f / 2 : ℕ), ?_, ?_, ?_, by omega, by omega⟩
    · rw [di_add, rnd_small hd (by rw [abs_lt]; omega), rnd_half hd (m := 2 * i + 1) (by push_cast; ring) (by rw [abs_lt]; omega), di_sub,
        rnd_small hd (by rw [abs_lt]; omega),
        rnd_half hd (m := 2 * i + 1 - 2 * (f / 2 : ℕ)) (by push_cast; ring) (by rw [abs_lt]; omega)]
      congr 1; push_cast; ring
    · rw [FP.val_add, FP.val_sub]; congr 1; push_cast; ring
    · rw [abs_lt]; omega
  · split
    · rename_i h1 h2
      refine ⟨2 * f + 1 + 2 * ((f / 2 : ℕ) - ((10 * f : ℕ) - i)), ?_, ?_, ?_, by omega, by omega⟩
      · rw [id_add, rnd_small hd (by rw [abs_lt]; omega), rnd_half hd (m := 2 * f + 1) (by push_cast; ring) (by rw [abs_lt]; omega), di_add,
          rnd_small hd (by rw [abs_lt]; omega),
          rnd_half hd (m := 2 * f + 1 + 2 * ((f / 2 : ℕ) - ((10 * f : ℕ) - i))) (by push_cast; ring) (by rw [abs_lt]; omega)]
        congr 1; push_cast; ring
      · rw [FP.val_add, FP.val_add]; congr 1; push_cast; ring
      · rw [abs_lt]; omega
    · rename_i h1 h2
      have h3 : (i + f / 2) % f < f := Nat.mod_lt _ (by omega)
      refine ⟨2 * ((i + f / 2) % f : ℕ) + 1, ?_, ?_, ?_, by omega, by omega⟩
      · rw [id_add, rnd_small hd (by rw [abs_lt]; omega),
          rnd_half hd (m := 2 * ((i + f / 2) % f : ℕ) + 1) (by push_cast; ring) (by rw [abs_lt]; omega)]
        congr 1; push_cast; ring
      · rw [FP.val_add]; congr 1; push_cast; ring
      · rw [abs_lt]; omega

private theorem coordX1km_mx (cfg : Cfg) (hf : 2 ≤ cfg.f) {i : Nat} (hi : i < cfg.fineWidth) :
    ∃ m : ℤ, (coordX1km cfg i : Mx q) = int m ∧ (coordX1km cfg i : FP ℝ) = FP.val (m : ℝ) ∧ 0 ≤ m ∧ m < 2 * cfg.f := by
  unfold coordX1km
  split
  · exact ⟨_, rfl, rfl, by positivity, by omega⟩
  · exact ⟨_, rfl, rfl, by positivity, by have := Nat.mod_lt i (show 0 < cfg.f by omega); omega⟩

private theorem coordX5km_mx (cfg : Cfg) (hf : 5 ≤ cfg.f) {i : Nat} (hi : i < cfg.fineWidth) :
    ∃ m : ℤ, (coordX5km cfg i : Mx q) = int m ∧ (coordX5km cfg i : FP ℝ) = FP.val (m : ℝ) ∧ -2 ≤ m ∧ (m ≤ 11 ∨ m < cfg.f) := by
  have h0 := Int.emod_nonneg ((i : ℤ) - 2) (b := (cfg.f : ℤ)) (by omega)
  have h1 := Int.emod_lt_of_pos ((i : ℤ) - 2) (b := (cfg.f : ℤ)) (by omega)
  unfold coordX5km
  simp only []
  split_ifs with h2 h3 h4 h5 h6 h7
  all_goals first
    | exact ⟨_, rfl, rfl, by omega, by omega⟩
    | exact ⟨((6 : ℕ) : ℤ), rfl, rfl, by norm_num, by norm_num⟩
    | exact ⟨((5 : ℕ) : ℤ), rfl, rfl, by norm_num, by norm_num⟩

/-- the coordinates of a pixel are the same with and without rounding -/
theorem coords_mx (hp : 12 ≤ q.s.p) (c : Conv) (w : Nat) {r k : Nat} (hr : r < c.scanRows * c.factor) (hk : k < c.outCols) :
    ∃ x y : ℝ, (getCoords (c.cfg w)).1.cell k = (sgl x : Mx q) ∧ (getCoords (c.cfg w)).1.cell k = (FP.val x : FP ℝ) ∧
      (getCoords (c.cfg w)).2.cell r = (sgl y : Mx q) ∧ (getCoords (c.cfg w)).2.cell r = (FP.val y : FP ℝ) ∧
      -0.4 ≤ x / c.factor ∧ x / c.factor ≤ 2.2 ∧ -0.5 ≤ y / c.factor ∧ y / c.factor ≤ 1.85 := by
  have hf2 : 2 ≤ c.factor ∧ c.factor ≤ 20 := by cases c <;> simp [Conv.factor]
  have hF : (0 : ℝ) < c.factor := by have := hf2.1; positivity
  by_cases h10 : c = .km1to500 ∨ c = .km1to250
  · have hc : (c.cfg w).len = 10 ∧ (c.cfg w).f = c.factor ∧ (c.cfg w).fineWidth = c.outCols ∧ c.scanRows = 10 := by
      rcases h10 with rfl | rfl <;> exact ⟨rfl, rfl, rfl, rfl⟩
    obtain ⟨m, e1, e2, m1, m2, m3⟩ := coordY1km_mx hp (c.cfg w) hc.1 (by rw [hc.2.1]; omega) (by rw [hc.2.1]; omega)
      (i := r) (by rw [hc.1, hc.2.1, ← hc.2.2.2]; exact hr)
    obtain ⟨n, e3, e4, n1, n2⟩ := coordX1km_mx (q := q) (c.cfg w) (by rw [hc.2.1]; omega) (i := k) (by rw [hc.2.2.1]; exact hk)
    rw [hc.2.1] at m2 m3 n2
    have g2 : -(c.factor : ℝ) ≤ m := by exact_mod_cast m2
    have g3 : (m : ℝ) ≤ 3 * c.factor := by exact_mod_cast m3
    have g4 : (0 : ℝ) ≤ n := by exact_mod_cast n1
    have g5 : (n : ℝ) < 2 * c.factor := by exact_mod_cast n2
    refine ⟨n, (m : ℝ) / 2, ?_, ?_, ?_, ?_, ?_, ?_, ?_, ?_⟩
    · unfold getCoords; rw [if_pos hc.1]; show Trig.toFloating (coordX1km _ _) = _
      rw [e3, toFloating_int, rnd_small hp (by rw [abs_lt]; omega)]
    · unfold getCoords; rw [if_pos hc.1]; exact e4
    · unfold getCoords; rw [if_pos hc.1]; show Trig.toFloating (coordY1km _ _) = _
      rw [e1, toFloating_dbl, rnd_half hp rfl m1]
    · unfold getCoords; rw [if_pos hc.1]; exact e2
    all_goals first
      | rw [le_div_iff₀ hF]; norm_num; linarith
      | rw [div_le_iff₀ hF]; norm_num; linarith
  · have hc : (c.cfg w).len ≠ 10 ∧ (c.cfg w).f = c.factor ∧ (c.cfg w).fineWidth = c.outCols ∧ c.scanRows = 2 ∧ 5 ≤ c.factor := by
      cases c <;> simp [Conv.cfg, Conv.factor, Conv.outCols, Conv.scanRows] at h10 ⊢
    obtain ⟨n, e3, e4, n1, n2⟩ := coordX5km_mx (q := q) (c.cfg w) (by rw [hc.2.1]; omega) (i := k) (by rw [hc.2.2.1]; exact hk)
    rw [hc.2.1] at n2
    rw [hc.2.2.2.1] at hr
    have g1 : (-2 : ℝ) ≤ n := by exact_mod_cast n1
    have g2 : (n : ℝ) ≤ 2.2 * c.factor := by
      have g5 : (5 : ℝ) ≤ c.factor := by exact_mod_cast hc.2.2.2.2
      rcases n2 with h | h
      · have : (n : ℝ) ≤ 11 := by exact_mod_cast h
        norm_num; linarith
      · have : (n : ℝ) < c.factor := by exact_mod_cast h
        norm_num; linarith
    have g5 : (5 : ℝ) ≤ c.factor := by exact_mod_cast hc.2.2.2.2
    have g20 : (c.factor : ℝ) ≤ 20 := by exact_mod_cast hf2.2
    have gr : (r : ℝ) + 1 ≤ 2 * c.factor := by exact_mod_cast hr
    have gr0 : (0 : ℝ) ≤ r := by positivity
    refine ⟨n, ((r : ℤ) - 2 : ℤ), ?_, ?_, ?_, ?_, ?_, ?_, ?_, ?_⟩
    · unfold getCoords; rw [if_neg hc.1]; show Trig.toFloating (coordX5km _ _) = _
      rw [e3, toFloating_int, rnd_small hp (by rw [abs_lt]; omega)]
    · unfold getCoords; rw [if_neg hc.1]; exact e4
    · unfold getCoords; rw [if_neg hc.1]; show Trig.toFloating (int _) = _
      rw [toFloating_int, rnd_small hp (by rw [abs_lt]; omega)]
    · unfold getCoords; rw [if_neg hc.1]; rfl
    all_goals first
      | rw [le_div_iff₀ hF]; push_cast; norm_num; linarith
      | rw [div_le_iff₀ hF]; push_cast; norm_num; linarith

/-! ### C68 -/

/-- **C68 (coefficients)**: the expansion and alignment coefficients of a cell as the code computes them (float32 angles, double
constants and library functions; `ε` bounds the relative error of the float32 rounding, `ε / 1000` that of the double roundings
and library functions) against exact arithmetic, for zenith angles of at most 70 degrees that differ by at least 0.06 degrees, or by
at least 0.01 degrees within 9 degrees of nadir, or are equal and not zero.  With `g` the difference of the angles, or twice the angle
if they are equal, the expansion is within `48000 ε / g` and the alignment within `900 ε / g` of the exact values. -/
theorem C68_coefficients (h : Prec q ε) (w : Nat) (hw : w ≤ 5) {a b : ℝ} (hab : ZenithsOk ε a b) :
    ∃ ce ca Ce Ca, expansionAlignment w (sgl a : Mx q) (sgl b) = (sgl ce, sgl ca) ∧
      expansionAlignment w (FP.val a : FP ℝ) (FP.val b) = (FP.val Ce, FP.val Ca) ∧
      |ce - Ce| ≤ 48000 * ε / zenithGap a b ∧ |ca - Ca| ≤ 900 * ε / zenithGap a b := by
  obtain ⟨ce, ca, Ce, Ca, h1, h2, h3, h4, -⟩ := coef_err h w hw hab
  exact ⟨ce, ca, Ce, Ca, h1, h2, h3, h4⟩

/-- **C68 (weights)**: the track and scan weights of a fine pixel as the code computes them against exact arithmetic.  `σ` is the
position of the pixel's column inside its cell (0 at the left tie point, 1 at the right one): the scan weight is within
`(48000 |σ (1 - σ)| + 2500) ε / g + 80 ε` of the exact one, `g` the gap of the zenith angles `a` and `b` of the cell, and the track
weight within `1.85 ε`.  The exact weights are bounded: the track weight is in [-0.5, 1.85], the scan weight within
`2 |σ (1 - σ)| + 0.35` of `σ`. -/
theorem C68_weights (h : Prec q ε) (c : Conv) (w : Nat) {r k : Nat} (hr : r < c.scanRows * c.factor) (hk : k < c.outCols)
    (satz : Nat → Nat → ℝ) (i0 : Nat) {a b : ℝ} (ea : a = satz (i0 + cellRow (c.cfg w) r) (cellCol (c.cfg w) k))
    (eb : b = satz (i0 + cellRow (c.cfg w) r) (cellCol (c.cfg w) k + 1)) (hab : ZenithsOk ε a b) :
    ∃ t s T S σ, trackScan (c.cfg w) (fun i j => (sgl (satz i j) : Mx q)) i0 r k = (sgl t, sgl s) ∧
      trackScan (c.cfg w) (fun i j => (FP.val (satz i j) : FP ℝ)) i0 r k = (FP.val T, FP.val S) ∧
      colPos c w k = FP.val ((cellCol (c.cfg w) k : ℝ) + σ) ∧ |t - T| ≤ 1.85 * ε ∧
      |s - S| ≤ (48000 * |σ * (1 - σ)| + 2500) * (ε / zenithGap a b) + 80 * ε ∧
      -0.5 ≤ T ∧ T ≤ 1.85 ∧ |S - σ| ≤ 2 * |σ * (1 - σ)| + 0.35 := by
  have h0 := h.pos
  have hp := h.hp
  obtain ⟨x, y, x1, x2, y1, y2, b1, b2, b3, b4⟩ := coords_mx hp c w hr hk
  have hper : (c.cfg w).perKm ≤ 5 := by cases c <;> simp [Conv.cfg]
  obtain ⟨ce, ca, Ce, Ca, c1, c2, c3, c4, c5, c6⟩ := coef_err h (c.cfg w).perKm hper hab
  have hf2 : 2 ≤ c.factor ∧ c.factor ≤ 20 := by cases c <;> simp [Conv.factor]
  have hF : (c.factor : ℝ) ≠ 0 := by have := hf2.1; positivity
  have hF' : (((c.factor : ℕ) : ℤ) : ℝ) ≠ 0 := by exact_mod_cast hF
  have hf : (c.cfg w).f = c.factor := c.cfg_f w
  have r1 : q.s.rnd ((1 : ℤ) : ℝ) = 1 := by rw [rnd_small hp (by norm_num)]; norm_num
  have rf : q.s.rnd (((c.factor : ℕ) : ℤ) : ℝ) = c.factor := by
    rw [rnd_small hp (by rw [abs_lt]; omega)]; push_cast; rfl
  have hgap := hab.gap
  have hg0 : 0 < zenithGap a b := by linarith
  have hE : ε / zenithGap a b ≤ 0.000017 := by
    rw [div_le_iff₀ hg0]
    norm_num
    linarith
  have hs := ascan_err h (s := x / c.factor) (t := y / c.factor) (abs_le.2 ⟨by norm_num at *; linarith, b2⟩)
    (abs_le.2 ⟨by norm_num at *; linarith, by norm_num at *; linarith⟩) (abs_le.2 ⟨by norm_num at *; linarith, b4⟩)
    (abs_le.2 ⟨by norm_num at *; linarith, by norm_num at *; linarith⟩) (by positivity) hE
    (by rw [mul_div_assoc] at c3; exact c3) (by rw [mul_div_assoc] at c4; exact c4) c5 c6
  have ht := h.rs (x := y / c.factor) (c := y / c.factor) (m := 1.85) (e := 0) (abs_le.2 ⟨by norm_num at *; linarith, b4⟩) (by simp)
  refine ⟨q.s.rnd (y / c.factor), _, y / c.factor, x / c.factor + x / c.factor * (1 - x / c.factor) * Ce + y / c.factor * (1 - y / c.factor) * Ca,
    x / c.factor, ?_, ?_, ?_, ?_, hs, b3, b4, ?_⟩
  rotate_left 3
  · linarith
  · obtain ⟨σ, eσ⟩ : ∃ σ, σ = x / c.factor := ⟨_, rfl⟩
    obtain ⟨τ, eτ⟩ : ∃ τ, τ = y / c.factor := ⟨_, rfl⟩
    rw [← eσ, ← eτ, add_assoc, add_sub_cancel_left]
    rw [← eτ] at b3 b4
    refine (abs_add_le _ _).trans ?_
    rw [abs_mul _ Ce, abs_mul _ Ca]
    have g1 := mul_le_mul_of_nonneg_left c5 (abs_nonneg (σ * (1 - σ)))
    have g2 : |τ * (1 - τ)| ≤ 2.775 := by
      rw [abs_mul]
      refine (mul_le_mul (abs_le.2 ⟨?_, b4⟩) (abs_le.2 ⟨?_, ?_⟩ : |1 - τ| ≤ 1.5) (abs_nonneg _) (by norm_num)).trans (by norm_num) <;>
        (norm_num at *; linarith)
    have g3 : |τ * (1 - τ)| * |Ca| ≤ 2.775 * 0.125 := mul_le_mul g2 c6 (abs_nonneg _) (by norm_num)
    norm_num at *
    linarith
  · unfold trackScan
    simp only []
    rw [← ea, ← eb, c1, x1, y1]
    unfold atrackAscan
    simp only [hf, Mx.ofInt_eq, Mx.one_eq]
    rw [si_div _ _ (by exact_mod_cast hF'), si_div _ _ (by exact_mod_cast hF'), rf]
    simp only [is_sub, ss_mul, ss_add, r1]
  · unfold trackScan
    simp only []
    rw [← ea, ← eb, c2, x2, y2]
    unfold atrackAscan
    simp only [hf, FP.ofInt_eq, FP.one_eq]
    rw [FP.val_div_of_ne _ hF', FP.val_div_of_ne _ hF']
    simp only [FP.val_sub, FP.val_mul, FP.val_add]
    push_cast
    rfl
  · unfold colPos
    rw [x2, hf, FP.ofInt_eq, FP.val_div_of_ne _ hF', FP.val_add]
    push_cast
    rfl

/-! ### C61 -/

/-- the rounding errors of the bilinear combination, for any weights -/
private theorem fine_round {r : Rounding} (hp : 4 ≤ r.p) (t s a b c d : ℝ) {M : ℝ} (ha : |a| ≤ M) (hb : |b| ≤ M) (hc : |c| ≤ M)
    (hd : |d| ≤ M) :
    ∃ v, fineComponent (Fl.val t) (Fl.val s) (Fl.val a) (Fl.val b) (Fl.val c) (Fl.val d) = (Fl.val v : Fl r) ∧
      |v - ((1 - t) * ((1 - s) * a + s * b) + t * ((1 - s) * d + s * c))|
        ≤ 12 * r.u * (M * ((|t| + |1 - t|) * (|s| + |1 - s|))) := by
  obtain ⟨v, hv, h1, _⟩ := Fl.fineComponent_err (r := r) t s a b c d
  refine ⟨v, hv, h1.trans ?_⟩
  have hM0 : 0 ≤ M := (abs_nonneg _).trans ha
  have hu : 2 * (6 : ℕ) * r.u ≤ 1 := by
    have : r.u ≤ 1 / 16 := by
      unfold Rounding.u
      have : (2 : ℝ) ^ (-(r.p : ℤ)) ≤ 2 ^ (-4 : ℤ) := zpow_le_zpow_right₀ (by norm_num) (by omega)
      exact this.trans (by norm_num)
    push_cast; linarith
  have h2 := Fl.pow_u_le (r := r) 6 hu
  have hrow : ∀ A B : ℝ, |A| ≤ M → |B| ≤ M → |1 - s| * |A| + |s| * |B| ≤ M * (|s| + |1 - s|) := by
    intro A B hA hB
    have e1 := mul_le_mul_of_nonneg_left hA (abs_nonneg (1 - s))
    have e2 := mul_le_mul_of_nonneg_left hB (abs_nonneg s)
    linarith
  have e1 := mul_le_mul_of_nonneg_left (hrow _ _ ha hb) (abs_nonneg (1 - t))
  have e2 := mul_le_mul_of_nonneg_left (hrow _ _ hd hc) (abs_nonneg t)
  have hm : |1 - t| * (|1 - s| * |a| + |s| * |b|) + |t| * (|1 - s| * |d| + |s| * |c|)
      ≤ M * ((|t| + |1 - t|) * (|s| + |1 - s|)) := by linarith
  have h3 : 0 ≤ (1 + r.u) ^ 6 - 1 := by
    have := Fl.one_le_pow_u (r := r) 6
    linarith
  calc _ ≤ ((1 + r.u) ^ 6 - 1) * (M * ((|t| + |1 - t|) * (|s| + |1 - s|))) := mul_le_mul_of_nonneg_left hm h3
    _ ≤ (2 * (6 : ℕ) * r.u) * (M * ((|t| + |1 - t|) * (|s| + |1 - s|))) := mul_le_mul_of_nonneg_right h2 (by positivity)
    _ = _ := by push_cast; ring

private theorem abs_near {s S e : ℝ} (h : |s - S| ≤ e) : |s| + |1 - s| ≤ |S| + |1 - S| + 2 * e := by
  have h1 : |s| ≤ |S| + e := by
    calc |s| = |S + (s - S)| := by ring_nf
      _ ≤ _ := abs_add_le _ _
      _ ≤ _ := by linarith
  have h2 : |1 - s| ≤ |1 - S| + e := by
    calc |1 - s| = |(1 - S) + -(s - S)| := by ring_nf
      _ ≤ _ := abs_add_le _ _
      _ ≤ _ := by rw [abs_neg]; linarith
  linarith

/-- the effect of an error of the weights -/
private theorem weights_effect {t s T S a b c d W e δ : ℝ} (hs : |s - S| ≤ e) (ht : |t - T| ≤ δ) (h1 : |b - a| ≤ W) (h2 : |c - d| ≤ W)
    (h3 : |d - a| ≤ W) (h4 : |c - b| ≤ W) :
    |((1 - t) * ((1 - s) * a + s * b) + t * ((1 - s) * d + s * c)) - ((1 - T) * ((1 - S) * a + S * b) + T * ((1 - S) * d + S * c))|
      ≤ W * ((|t| + |1 - t|) * e + (|S| + |1 - S|) * δ) := by
  have hW : 0 ≤ W := (abs_nonneg _).trans h1
  have e1 : ((1 - t) * ((1 - s) * a + s * b) + t * ((1 - s) * d + s * c)) - ((1 - T) * ((1 - S) * a + S * b) + T * ((1 - S) * d + S * c))
      = (s - S) * ((1 - t) * (b - a) + t * (c - d)) + (t - T) * ((1 - S) * (d - a) + S * (c - b)) := by ring
  rw [e1]
  refine (abs_add_le _ _).trans ?_
  have g : ∀ {x u v : ℝ}, |u| ≤ W → |v| ≤ W → |(1 - x) * u + x * v| ≤ W * (|x| + |1 - x|) := by
    intro x u v hu hv
    refine (abs_add_le _ _).trans ?_
    rw [abs_mul, abs_mul]
    have := mul_le_mul_of_nonneg_left hu (abs_nonneg (1 - x))
    have := mul_le_mul_of_nonneg_left hv (abs_nonneg x)
    linarith
  rw [abs_mul, abs_mul]
  have k1 := mul_le_mul hs (g (x := t) h1 h2) (abs_nonneg _) ((abs_nonneg _).trans hs)
  have k2 := mul_le_mul ht (g (x := S) h3 h4) (abs_nonneg _) ((abs_nonneg _).trans ht)
  linarith

/-- **C61 (MODIS, mixed precision)**: each float32 cartesian coordinate of a fine pixel, with all roundings of the code (of the
coefficients, the weights and the combination), against the same formula in exact arithmetic, for the same float32 tie point
coordinates: for every conversion and pixel, zenith angles of the cell as for C68 with gap `g`, coordinates of at most `M` that differ by at most `W` between neighbouring corners of the cell, and exact weights
`T`, `S`.  With `e = (48000 |σ (1 - σ)| + 2500) ε / g + 80 ε` the error of the scan weight (C68), the coordinate is within
`13 ε M Kt (Ks + 2 e) + W (1.001 Kt e + 1.85 Ks ε)` of the exact one, where `Kt = |T| + |1 - T|` and `Ks = |S| + |1 - S|` (both 1
inside the cell). -/
theorem C61_modis_mixed (h : Prec q ε) (c : Conv) (w : Nat) {r k : Nat} (hr : r < c.scanRows * c.factor) (hk : k < c.outCols)
    (satz : Nat → Nat → ℝ) (X : Nat → Nat → Nat → ℝ) (i0 l : Nat) {i j : Nat} (hi : i = i0 + cellRow (c.cfg w) r)
    (hj : j = cellCol (c.cfg w) k) (hab : ZenithsOk ε (satz i j) (satz i (j + 1)))
    {M W : ℝ} (hM : ∀ i' j', (i' = i ∨ i' = i + 1) → (j' = j ∨ j' = j + 1) → |X i' j' l| ≤ M)
    (hW1 : |X i (j + 1) l - X i j l| ≤ W) (hW2 : |X (i + 1) (j + 1) l - X (i + 1) j l| ≤ W) (hW3 : |X (i + 1) j l - X i j l| ≤ W)
    (hW4 : |X (i + 1) (j + 1) l - X i (j + 1) l| ≤ W) :
    ∃ v V T S σ, fineXyz (c.cfg w) (fun i j l => (sgl (X i j l) : Mx q)) (fun i j => sgl (satz i j)) i0 r k l = sgl v ∧
      fineXyz (c.cfg w) (fun i j l => (FP.val (X i j l) : FP ℝ)) (fun i j => FP.val (satz i j)) i0 r k l = FP.val V ∧
      trackScan (c.cfg w) (fun i j => (FP.val (satz i j) : FP ℝ)) i0 r k = (FP.val T, FP.val S) ∧
      colPos c w k = FP.val ((cellCol (c.cfg w) k : ℝ) + σ) ∧
      (-0.5 ≤ T ∧ T ≤ 1.85 ∧ |S - σ| ≤ 2 * |σ * (1 - σ)| + 0.35) ∧
      ∀ e, e = (48000 * |σ * (1 - σ)| + 2500) * (ε / zenithGap (satz i j) (satz i (j + 1))) + 80 * ε →
        |v - V| ≤ 13 * ε * M * ((|T| + |1 - T|) * (|S| + |1 - S| + 2 * e))
          + W * (1.001 * (|T| + |1 - T|) * e + 1.85 * (|S| + |1 - S|) * ε) := by
  have h0 := h.pos
  have hε := h.le'
  obtain ⟨t, s, T, S, σ, w1, w2, w3, w4, w5, w6⟩ := C68_weights h c w hr hk satz i0 (by rw [← hi, ← hj]) (by rw [← hi, ← hj]) hab
  have m1 := hM i j (Or.inl rfl) (Or.inl rfl)
  have m2 := hM i (j + 1) (Or.inl rfl) (Or.inr rfl)
  have m3 := hM (i + 1) (j + 1) (Or.inr rfl) (Or.inr rfl)
  have m4 := hM (i + 1) j (Or.inr rfl) (Or.inl rfl)
  obtain ⟨v, v1, v2⟩ := fine_round (r := q.s) (by have := h.hp; omega) t s _ _ _ _ m1 m2 m3 m4
  have hf := fineComponent_mx (q := q) (Fl.val t) (Fl.val s) (Fl.val (X i j l)) (Fl.val (X i (j + 1) l))
    (Fl.val (X (i + 1) (j + 1) l)) (Fl.val (X (i + 1) j l))
  rw [v1] at hf
  refine ⟨v, (1 - T) * ((1 - S) * X i j l + S * X i (j + 1) l) + T * ((1 - S) * X (i + 1) j l + S * X (i + 1) (j + 1) l),
    T, S, σ, ?_, ?_, w2, w3, w6, ?_⟩
  · unfold fineXyz
    simp only [w1, ← hi, ← hj]
    exact hf
  · unfold fineXyz
    simp only [w2, ← hi, ← hj]
    unfold fineComponent
    simp only [FP.one_eq, FP.val_sub, FP.val_mul, FP.val_add]
  · intro e he
    rw [← he] at w5
    have e0 : 0 ≤ e := (abs_nonneg _).trans w5
    have x1 := weights_effect w5 w4 hW1 hW2 hW3 hW4
    have x2 := abs_near w5
    have x3 := abs_near w4
    have hM0 : 0 ≤ M := (abs_nonneg _).trans m1
    have hW0 : 0 ≤ W := (abs_nonneg _).trans hW1
    obtain ⟨Kt, eKt⟩ : ∃ Kt, Kt = |T| + |1 - T| := ⟨_, rfl⟩
    obtain ⟨Ks, eKs⟩ : ∃ Ks, Ks = |S| + |1 - S| := ⟨_, rfl⟩
    have hKt : 1 ≤ Kt := by
      rw [eKt]
      have := abs_add_le T (1 - T)
      rw [add_sub_cancel, abs_one] at this
      exact this
    rw [← eKt] at x3 ⊢
    rw [← eKs] at x1 x2 ⊢
    have hKs : 0 ≤ Ks := by rw [eKs]; positivity
    obtain ⟨kt, ekt⟩ : ∃ kt, kt = |t| + |1 - t| := ⟨_, rfl⟩
    obtain ⟨ks, eks⟩ : ∃ ks, ks = |s| + |1 - s| := ⟨_, rfl⟩
    rw [← ekt] at x1 x3 v2
    rw [← eks] at x2 v2
    have hks : 0 ≤ ks := by rw [eks]; positivity
    have hkt0 : 0 ≤ kt := by rw [ekt]; positivity
    have hkt : kt ≤ 1.00001 * Kt := by norm_num at *; linarith
    -- the rounding
    have y1 : 12 * q.s.u * (M * (kt * ks)) ≤ 13 * ε * M * (Kt * (Ks + 2 * e)) := by
      have z1 : kt * ks ≤ 1.00001 * Kt * (Ks + 2 * e) := mul_le_mul hkt x2 hks (by positivity)
      have z2 : M * (kt * ks) ≤ M * (1.00001 * Kt * (Ks + 2 * e)) := mul_le_mul_of_nonneg_left z1 hM0
      have z3 : 12 * q.s.u * (M * (kt * ks)) ≤ 12 * ε * (M * (1.00001 * Kt * (Ks + 2 * e))) :=
        mul_le_mul (by linarith [h.s]) z2 (by positivity) (by positivity)
      refine z3.trans ?_
      have : 0 ≤ ε * M * (Kt * (Ks + 2 * e)) := by positivity
      norm_num
      linarith
    have y2 : W * (kt * e + Ks * (1.85 * ε)) ≤ W * (1.001 * Kt * e + 1.85 * Ks * ε) := by
      refine mul_le_mul_of_nonneg_left ?_ hW0
      have := mul_le_mul_of_nonneg_right hkt e0
      have : 0 ≤ Kt * e := by positivity
      norm_num at *
      linarith
    rw [← sub_add_sub_cancel]
    exact (abs_add_le _ _).trans (add_le_add (v2.trans y1) (x1.trans y2))

/-! ### examples -/

/-- float32 and double -/
theorem prec_ieee : Prec Mixed.ieee (1 / 2 ^ 24) := by
  have u53 : Mixed.ieee.d.u = 1 / 2 ^ 53 := by
    show (2 : ℝ) ^ (-((53 : ℕ) : ℤ)) = _
    rw [zpow_neg, zpow_natCast]; norm_num
  have u24 : Mixed.ieee.s.u = 1 / 2 ^ 24 := by
    show (2 : ℝ) ^ (-((24 : ℕ) : ℤ)) = _
    rw [zpow_neg, zpow_natCast]; norm_num
  have hl : LibRel Mixed.ieee.d Mixed.ieee.d.u := libRel_correct 53 (by norm_num)
  have hu : Mixed.ieee.d.u ≤ 1 / 2 ^ 24 / 1000 := by rw [u53]; norm_num
  exact ⟨by show 12 ≤ 24; norm_num, u24.le, ⟨hu, fun x => (hl.sin x).mono hu, fun x => (hl.cos x).mono hu,
    fun x hx => (hl.asin x hx).mono hu, fun x hx => (hl.acos x hx).mono hu⟩, by norm_num⟩

example := C61_modis_mixed prec_ieee .km1to500 1354 (r := 3) (k := 1) (by decide) (by decide) (fun _ j => 40 + 0.06 * (j : ℝ))
  (fun i j _ => 1000 * (i : ℝ) + 1000 * (j : ℝ)) 10 0 (i := 11) (j := 0) (by decide) (by decide)
  ⟨by norm_num [abs_le], by norm_num [abs_le], by norm_num [zenithGap, abs_of_neg], Or.inl (by norm_num [zenithGap, abs_of_neg])⟩
  (M := 13000) (W := 1000)
  (by rintro _ _ (rfl | rfl) (rfl | rfl) <;> norm_num [abs_le]) (by norm_num) (by norm_num) (by norm_num) (by norm_num)

/-- zenith angles 30 and 30.5 degrees: the expansion coefficient within 0.006, the alignment coefficient within 0.00011 -/
example : ∃ ce ca Ce Ca, expansionAlignment 5 (sgl 30 : Mx Mixed.ieee) (sgl 30.5) = (sgl ce, sgl ca) ∧
    expansionAlignment 5 (FP.val 30 : FP ℝ) (FP.val 30.5) = (FP.val Ce, FP.val Ca) ∧ |ce - Ce| ≤ 0.006 ∧ |ca - Ca| ≤ 0.00011 := by
  obtain ⟨ce, ca, Ce, Ca, h1, h2, h3, h4⟩ := C68_coefficients prec_ieee 5 le_rfl (a := 30) (b := 30.5) ⟨by norm_num [abs_le],
    by norm_num [abs_le], by norm_num [zenithGap, abs_of_neg], Or.inl (by norm_num [zenithGap, abs_of_neg])⟩
  refine ⟨ce, ca, Ce, Ca, h1, h2, h3.trans ?_, h4.trans ?_⟩ <;> norm_num [zenithGap, abs_of_neg]

/-- the cell that contains nadir, both zenith angles 0.05 degrees: the expansion coefficient within 0.03 -/
example : ∃ ce ca Ce Ca, expansionAlignment 1 (sgl 0.05 : Mx Mixed.ieee) (sgl 0.05) = (sgl ce, sgl ca) ∧
    expansionAlignment 1 (FP.val 0.05 : FP ℝ) (FP.val 0.05) = (FP.val Ce, FP.val Ca) ∧ |ce - Ce| ≤ 0.03 ∧ |ca - Ca| ≤ 0.0006 := by
  obtain ⟨ce, ca, Ce, Ca, h1, h2, h3, h4⟩ := C68_coefficients prec_ieee 1 (by norm_num) (a := 0.05) (b := 0.05) ⟨by norm_num [abs_le],
    by norm_num [abs_le], by norm_num [zenithGap, abs_of_pos], Or.inl (by norm_num [zenithGap, abs_of_pos])⟩
  refine ⟨ce, ca, Ce, Ca, h1, h2, h3.trans ?_, h4.trans ?_⟩ <;> norm_num [zenithGap, abs_of_pos]

/-- the same cell with angles 0.04 and 0.05 degrees -/
example : ∃ ce ca Ce Ca, expansionAlignment 1 (sgl 0.04 : Mx Mixed.ieee) (sgl 0.05) = (sgl ce, sgl ca) ∧
    expansionAlignment 1 (FP.val 0.04 : FP ℝ) (FP.val 0.05) = (FP.val Ce, FP.val Ca) ∧ |ce - Ce| ≤ 0.29 ∧ |ca - Ca| ≤ 0.006 := by
  obtain ⟨ce, ca, Ce, Ca, h1, h2, h3, h4⟩ := C68_coefficients prec_ieee 1 (by norm_num) (a := 0.04) (b := 0.05) ⟨by norm_num [abs_le],
    by norm_num [abs_le], by norm_num [zenithGap, abs_of_neg],
    Or.inr ⟨by norm_num [zenithGap, abs_of_neg], by norm_num [abs_le], by norm_num [abs_le]⟩⟩
  refine ⟨ce, ca, Ce, Ca, h1, h2, h3.trans ?_, h4.trans ?_⟩ <;> norm_num [zenithGap, abs_of_neg]

/-- the column in the middle of a 1 km cell, zenith angles 40 and 40.06 degrees: the scan weight within 0.015 -/
example : ∃ t s T S, trackScan (Conv.km1to500.cfg 1354) (fun _ j => (sgl (40 + 0.06 * (j : ℝ)) : Mx Mixed.ieee)) 0 3 1 = (sgl t, sgl s) ∧
    trackScan (Conv.km1to500.cfg 1354) (fun _ j => (FP.val (40 + 0.06 * (j : ℝ)) : FP ℝ)) 0 3 1 = (FP.val T, FP.val S) ∧
    |s - S| ≤ 0.015 := by
  obtain ⟨t, s, T, S, σ, h1, h2, h3, -, h5, -⟩ := C68_weights prec_ieee .km1to500 1354 (r := 3) (k := 1) (by decide) (by decide)
    (fun _ j => 40 + 0.06 * (j : ℝ)) 0 (a := 40) (b := 40.06) (by norm_num [cellCol, Conv.cfg]) (by norm_num [cellCol, Conv.cfg])
    ⟨by norm_num [abs_le], by norm_num [abs_le], by norm_num [zenithGap, abs_of_neg], Or.inl (by norm_num [zenithGap, abs_of_neg])⟩
  refine ⟨t, s, T, S, h1, h2, h5.trans ?_⟩
  rw [C31_cols_1km_partial .km1to500 (Or.inl rfl) 1354 1 (by decide), FP.val.injEq] at h3
  have : σ = 1 / 2 := by
    norm_num [cellCol, Conv.cfg, Conv.factor] at h3
    linarith
  rw [this]
  norm_num [zenithGap, abs_of_neg, abs_of_pos]

end Verif.Props
