import Verif.Props.ModisGap
import Mathlib.Analysis.Calculus.MeanValue
import Mathlib.Analysis.SpecialFunctions.Trigonometric.Bounds

/-!
# C101: the pixels along a row are in order

The zenith-angle interpolator places a pixel at `cell + s` with the scan weight `s` of `atrackAscan` (_modis_interpolator.pyx:303-371).
The weight is a quadratic function of the position in the cell, the coefficients change from cell to cell.  If neighbouring zenith
angles differ by neither too little nor too much the positions are strictly increasing along the row; with nearly equal angles they
are not.
-/

namespace Verif.Props
open Verif Verif.Modis Verif.Spec.Modis Verif.Geo Verif.Err Verif.FP Verif.Mx

/-! ### the expansion coefficient of close angles -/

/-- the sine stretches by at least the smaller cosine -/
private theorem sin_apart {x y c : ℝ} (hx : |x| ≤ Real.pi / 2) (hy : |y| ≤ Real.pi / 2) (cx : c ≤ Real.cos x) (cy : c ≤ Real.cos y) :
    c * |x - y| ≤ |Real.sin x - Real.sin y| := by
  wlog h : x < y generalizing x y with H
  · rcases (not_lt.1 h).lt_or_eq with h | rfl
    · have := H hy hx cy cx h
      rwa [abs_sub_comm, abs_sub_comm (Real.sin x)]
    · simp
  obtain ⟨t, ⟨t1, t2⟩, ht⟩ := exists_hasDerivAt_eq_slope Real.sin Real.cos h Real.continuous_sin.continuousOn
    (fun t _ => Real.hasDerivAt_sin t)
  rw [abs_le] at hx hy
  have hpi := Real.pi_pos
  have hc : c ≤ Real.cos t := by
    rcases le_total 0 t with h0 | h0
    · exact cy.trans (Real.cos_le_cos_of_nonneg_of_le_pi h0 (by linarith) t2.le)
    · rw [← Real.cos_neg t]
      rw [← Real.cos_neg x] at cx
      exact cx.trans (Real.cos_le_cos_of_nonneg_of_le_pi (by linarith) (by linarith) (by linarith))
  rw [eq_div_iff (by linarith)] at ht
  rw [abs_of_neg (by linarith : x - y < 0)]
  calc c * -(x - y) ≤ Real.cos t * (y - x) := by rw [neg_sub]; exact mul_le_mul_of_nonneg_right hc (by linarith)
    _ = -(Real.sin x - Real.sin y) := by rw [ht]; ring
    _ ≤ _ := neg_le_abs _

private theorem cos_70 {z : ℝ} (hz : |z| ≤ 70) : 0.327 ≤ Real.cos (Spec.rad z) := by
  have h3 := rad_70 hz
  have h4 := abs_sin_70 hz
  have hpi3 := Real.pi_gt_three
  have h5 : 0 ≤ Real.cos (Spec.rad z) := by
    apply Real.cos_nonneg_of_mem_Icc
    norm_num at h3
    rw [abs_le] at h3
    constructor <;> linarith
  have h6 : Real.sin (Spec.rad z) ^ 2 ≤ 0.94 ^ 2 := by rw [← sq_abs]; exact pow_le_pow_left₀ (abs_nonneg _) h4 2
  have h7 := Real.sin_sq_add_cos_sq (Spec.rad z)
  by_contra hn
  push Not at hn
  norm_num at h6 hn
  nlinarith

private theorem sin_sum (x y : ℝ) : Real.sin x + Real.sin y = 2 * Real.sin ((x + y) / 2) * Real.cos ((x - y) / 2) := by
  have h1 := Real.sin_add ((x + y) / 2) ((x - y) / 2)
  have h2 := Real.sin_sub ((x + y) / 2) ((x - y) / 2)
  rw [show (x + y) / 2 + (x - y) / 2 = x by ring] at h1
  rw [show (x + y) / 2 - (x - y) / 2 = y by ring] at h2
  rw [h1, h2]
  ring

set_option maxHeartbeats 1000000 in
/-- numerator of the expansion coefficient, by the gap and the denominator -/
private theorem expansion_close {a b : ℝ} (ha : |a| ≤ 70) (hb : |b| ≤ 70) (hg : |a - b| ≤ 10) :
    |((Spec.rad a - phiR (Spec.rad a)) + (Spec.rad b - phiR (Spec.rad b))) / 2
        - (zetaR ((phiR (Spec.rad a) + phiR (Spec.rad b)) / 2) - (phiR (Spec.rad a) + phiR (Spec.rad b)) / 2)|
      ≤ 0.01275 * |a - b| * |(Spec.rad a - phiR (Spec.rad a)) - (Spec.rad b - phiR (Spec.rad b))| := by
  have h1 := phiR_70 ((abs_sin_70 ha).trans (by norm_num))
  have h2 := phiR_70 ((abs_sin_70 hb).trans (by norm_num))
  have hM := mean_mTop h1 h2
  have rA := rad_70 ha
  have rB := rad_70 hb
  have eAB : Spec.rad a - Spec.rad b = (a - b) * (Real.pi / 180) := by unfold Spec.rad; ring
  have sA := abs_sin_70 ha
  have sB := abs_sin_70 hb
  obtain ⟨A, eA⟩ : ∃ A, A = Spec.rad a := ⟨_, rfl⟩
  obtain ⟨B, eB⟩ : ∃ B, B = Spec.rad b := ⟨_, rfl⟩
  rw [← eA] at h1 hM rA eAB sA ⊢
  rw [← eB] at h2 hM rB eAB sB ⊢
  have hlip := phiR_lip A B
  have pA := sin_phiR A
  have pB := sin_phiR B
  obtain ⟨p, ep⟩ : ∃ p, p = phiR A := ⟨_, rfl⟩
  obtain ⟨s, es⟩ : ∃ s, s = phiR B := ⟨_, rfl⟩
  rw [← ep] at h1 hM hlip pA ⊢
  rw [← es] at h2 hM hlip pB ⊢
  have hM' : |(p + s) / 2| ≤ mTop := by linarith
  have z1 := sin_zetaR hM'
  have z2 := cos_zetaR hM'
  have z3 : |Real.sin (zetaR ((p + s) / 2))| ≤ 0.945 := by rw [z1]; exact zeta_arg hM'
  have z4 : |zetaR ((p + s) / 2)| ≤ Real.pi / 2 := abs_le.2 ⟨Real.neg_pi_div_two_le_arcsin _, Real.arcsin_le_pi_div_two _⟩
  obtain ⟨Z, eZ⟩ : ∃ Z, Z = zetaR ((p + s) / 2) := ⟨_, rfl⟩
  rw [← eZ] at z1 z2 z3 z4 ⊢
  have hpi4 := Real.pi_lt_d4
  have hpi3 := Real.pi_gt_three
  norm_num at hpi4
  have hk := kap_pos
  have hk1 := kap_lt
  -- half differences
  obtain ⟨u, eu⟩ : ∃ u, u = (A - B) / 2 := ⟨_, rfl⟩
  obtain ⟨v, ev⟩ : ∃ v, v = (p - s) / 2 := ⟨_, rfl⟩
  have hu : |u| ≤ 0.0087267 * |a - b| := by
    rw [eu, eAB, abs_div, abs_mul, abs_of_pos (by positivity : 0 < Real.pi / 180), abs_two]
    nlinarith [abs_nonneg (a - b)]
  have hu1 : |u| ≤ 0.0873 := by linarith
  have huv : |v| ≤ |u| := by
    rw [ev, eu, abs_div, abs_div, abs_two]
    nlinarith [abs_nonneg (A - B)]
  have hcu : 0.996 ≤ Real.cos u := by
    refine le_trans ?_ (Real.one_sub_sq_div_two_le_cos)
    have : u ^ 2 ≤ 0.0873 ^ 2 := by rw [← sq_abs]; exact pow_le_pow_left₀ (abs_nonneg _) hu1 2
    norm_num at this ⊢
    linarith
  have hAB : |(A + B) / 2| ≤ 1.222 := by rw [abs_le] at *; constructor <;> linarith
  -- sine of the mean zenith angle
  have key : (Real.sin ((A + B) / 2) - Real.sin Z) * Real.cos u = Real.sin Z * (2 * Real.sin ((u + v) / 2) * Real.sin ((u - v) / 2)) := by
    have e1 : Real.sin A + Real.sin B = 2 * Real.sin ((A + B) / 2) * Real.cos u := by
      rw [eu]; exact sin_sum A B
    have e2 : Real.sin p + Real.sin s = 2 * Real.sin ((p + s) / 2) * Real.cos v := by
      rw [ev]; exact sin_sum p s
    have e3 : Real.cos v - Real.cos u = 2 * Real.sin ((u + v) / 2) * Real.sin ((u - v) / 2) := by
      have := Real.cos_sub_cos v u
      rw [this, show (v - u) / 2 = -((u - v) / 2) by ring, Real.sin_neg, add_comm v u]
      ring
    have e4 : Real.sin ((A + B) / 2) * Real.cos u = Real.sin Z * Real.cos v := by
      rw [z1]
      have : 2 * (Real.sin ((A + B) / 2) * Real.cos u) = kap⁻¹ * (Real.sin p + Real.sin s) := by
        rw [pA, pB, ← mul_add, ← mul_assoc kap⁻¹, inv_mul_cancel₀ hk.ne', one_mul, e1]; ring
      rw [e2] at this
      linarith
    rw [← e3]
    linear_combination e4
  have hcm : 0.327 ≤ Real.cos ((A + B) / 2) := by
    have q : |(a + b) / 2| ≤ 70 := by rw [abs_le] at *; constructor <;> linarith
    have := cos_70 q
    rwa [show Spec.rad ((a + b) / 2) = (A + B) / 2 by rw [eA, eB]; unfold Spec.rad; ring] at this
  have ap := sin_apart (by linarith : |(A + B) / 2| ≤ Real.pi / 2) z4 hcm z2
  have bd : |Real.sin ((A + B) / 2) - Real.sin Z| * 0.996 ≤ 0.945 * (|u| * |u - v|) := by
    calc |Real.sin ((A + B) / 2) - Real.sin Z| * 0.996 ≤ |Real.sin ((A + B) / 2) - Real.sin Z| * Real.cos u :=
          mul_le_mul_of_nonneg_left hcu (abs_nonneg _)
      _ = |Real.sin Z| * (2 * |Real.sin ((u + v) / 2)| * |Real.sin ((u - v) / 2)|) := by
          rw [← abs_of_nonneg (le_trans (by norm_num) hcu : 0 ≤ Real.cos u), ← abs_mul, key, abs_mul, abs_mul, abs_mul, abs_two]
      _ ≤ 0.945 * (|u| * |u - v|) := by
          refine mul_le_mul z3 ?_ (by positivity) (by norm_num)
          have q1 : |Real.sin ((u + v) / 2)| ≤ |u| := by
            refine Real.abs_sin_le_abs.trans ?_
            rw [abs_div, abs_two]
            have := abs_add_le u v
            linarith
          have q2 : |Real.sin ((u - v) / 2)| ≤ |u - v| / 2 := by
            refine Real.abs_sin_le_abs.trans ?_
            rw [abs_div, abs_two]
          calc 2 * |Real.sin ((u + v) / 2)| * |Real.sin ((u - v) / 2)| ≤ 2 * |u| * (|u - v| / 2) := by gcongr
            _ = _ := by ring
  have n1 : ((A - p) + (B - s)) / 2 - (Z - (p + s) / 2) = (A + B) / 2 - Z := by ring
  have n2 : (A - p) - (B - s) = 2 * (u - v) := by rw [eu, ev]; ring
  rw [n1, n2, abs_mul, abs_two]
  have hw := abs_nonneg (u - v)
  have q : |u| * |u - v| ≤ 0.0087267 * |a - b| * |u - v| := mul_le_mul_of_nonneg_right hu hw
  have q0 : 0 ≤ |a - b| * |u - v| := mul_nonneg (abs_nonneg _) hw
  obtain ⟨N, eN⟩ : ∃ N, N = |(A + B) / 2 - Z| := ⟨_, rfl⟩
  obtain ⟨Q, eQ⟩ : ∃ Q, Q = |Real.sin ((A + B) / 2) - Real.sin Z| := ⟨_, rfl⟩
  obtain ⟨P, eP⟩ : ∃ P, P = |a - b| * |u - v| := ⟨_, rfl⟩
  rw [← eN] at ap ⊢
  rw [← eQ] at ap bd
  rw [mul_assoc, ← eP] at q
  rw [← eP] at q0
  rw [show 0.01275 * |a - b| * (2 * |u - v|) = 0.0255 * P by rw [eP]; ring]
  norm_num at ap bd q ⊢
  linarith

/-- **C101 (expansion)**: for two zenith angles of at most 70 degrees, at most 10 degrees apart and not both zero, the expansion
coefficient is at most 0.051 times their distance in degrees. -/
theorem C101_expansion (w : Nat) (hw : w ≤ 5) {a b : ℝ} (ha : |a| ≤ 70) (hb : |b| ≤ 70) (h0 : ¬ (a = 0 ∧ b = 0)) (hg : |a - b| ≤ 10) :
    ∃ ce, (expansionAlignment w (val a : FP ℝ) (val b)).1 = val ce ∧ |ce| ≤ 0.051 * |a - b| := by
  have hex := expansionAlignment_exact w hw ha hb (fun e e0 => h0 ⟨e0, e ▸ e0⟩)
  simp only at hex
  rw [hex]
  refine ⟨_, rfl, ?_⟩
  have hN := expansion_close ha hb hg
  rw [abs_mul, abs_of_pos (by norm_num : (0 : ℝ) < 4), abs_div]
  obtain ⟨D, eD⟩ : ∃ D, D = if a = b then (Spec.rad a - phiR (Spec.rad a)) * 2 else
    (Spec.rad a - phiR (Spec.rad a)) - (Spec.rad b - phiR (Spec.rad b)) := ⟨_, rfl⟩
  rw [← eD]
  by_cases e : a = b
  · subst e
    rw [sub_self, sub_self, abs_zero, mul_zero] at *
    rw [le_antisymm hN (abs_nonneg _)]
    norm_num
  · rw [if_neg e] at eD
    rw [← eD] at hN
    have : |(Spec.rad a - phiR (Spec.rad a) + (Spec.rad b - phiR (Spec.rad b))) / 2
        - (zetaR ((phiR (Spec.rad a) + phiR (Spec.rad b)) / 2) - (phiR (Spec.rad a) + phiR (Spec.rad b)) / 2)| / |D|
          ≤ 0.01275 * |a - b| :=
      div_le_of_le_mul₀ (abs_nonneg _) (by positivity) hN
    linarith

example : ∃ ce, (expansionAlignment 1 (val 45 : FP ℝ) (val 45.1)).1 = val ce ∧ |ce| ≤ 0.0051 := by
  obtain ⟨ce, h1, h2⟩ := C101_expansion 1 (by norm_num) (a := 45) (b := 45.1) (by norm_num [abs_le]) (by norm_num [abs_le]) (by norm_num)
    (by norm_num [abs_le])
  exact ⟨ce, h1, h2.trans (by norm_num [abs_of_neg])⟩

/-! ### one cell -/

/-- **C101 (cell)**: two pixels of a row in the same cell, for every conversion.  If the zenith angles of the cell are at most 70
degrees, not both zero, and at most 5 degrees apart, the pixel that is further in the scan has the larger scan weight. -/
theorem C101_cell (c : Conv) (w : Nat) {r k k' : Nat} (hr : r < c.scanRows * c.factor) (hk : k < c.outCols) (hk' : k' < c.outCols)
    (hcell : cellCol (c.cfg w) k' = cellCol (c.cfg w) k) (satz : Nat → Nat → ℝ) (i0 : Nat) {a b : ℝ}
    (ea : a = satz (i0 + cellRow (c.cfg w) r) (cellCol (c.cfg w) k)) (eb : b = satz (i0 + cellRow (c.cfg w) r) (cellCol (c.cfg w) k + 1))
    (ha : |a| ≤ 70) (hb : |b| ≤ 70) (h0 : ¬ (a = 0 ∧ b = 0)) (hg : |a - b| ≤ 5) {x x' : ℝ} (ex : colPos c w k = val x)
    (ex' : colPos c w k' = val x') (hx : x < x') :
    ∃ S S', (trackScan (c.cfg w) (fun i j => (val (satz i j) : FP ℝ)) i0 r k).2 = val S ∧
      (trackScan (c.cfg w) (fun i j => (val (satz i j) : FP ℝ)) i0 r k').2 = val S' ∧ S < S' := by
  obtain ⟨T, σ, -, -, y1, x1, s1, s2, key⟩ := weights_val c w hr hk i0
  obtain ⟨T', σ', -, -, y1', x1', s1', s2', key'⟩ := weights_val c w hr hk' i0
  have hper : (c.cfg w).perKm ≤ 5 := by cases c <;> simp [Conv.cfg]
  obtain ⟨ce, e1, e2⟩ := C101_expansion _ hper ha hb h0 (hg.trans (by norm_num))
  obtain ⟨ca, f1, -⟩ := C98_alignment _ hper ha hb h0
  obtain rfl : T = T' := by rw [y1, FP.val.injEq] at y1'; linarith
  rw [hcell] at x1' key'
  have hσ : σ < σ' := by
    rw [ex, FP.val.injEq] at x1
    rw [ex', FP.val.injEq] at x1'
    linarith
  have hco : expansionAlignment (c.cfg w).perKm (val a : FP ℝ) (val b) = (val ce, val ca) := by rw [← e1, ← f1]
  rw [ea, eb] at hco
  have z1 := key (fun i j => val (satz i j)) ce ca hco
  have z2 := key' (fun i j => val (satz i j)) ce ca hco
  refine ⟨σ + σ * (1 - σ) * ce + T * (1 - T) * ca, σ' + σ' * (1 - σ') * ce + T * (1 - T) * ca, by rw [z1], by rw [z2], ?_⟩
  clear key key' hco e1 f1 z1 z2 x1 x1' ex ex' y1 ea eb
  have hce : |ce| ≤ 0.255 := e2.trans (by linarith)
  have hq : |(1 - σ - σ') * ce| ≤ 3.4 * 0.255 := by
    rw [abs_mul]
    refine mul_le_mul (abs_le.2 ⟨?_, ?_⟩) hce (abs_nonneg _) (by norm_num) <;> (norm_num at s1 s2 s1' s2' ⊢; linarith)
  have hq' := (abs_le.1 hq).1
  have hp : 0 < (σ' - σ) * (1 + (1 - σ - σ') * ce) := mul_pos (by linarith) (by norm_num at hq' ⊢; linarith)
  have e : (σ' + σ' * (1 - σ') * ce + T * (1 - T) * ca) - (σ + σ * (1 - σ) * ce + T * (1 - T) * ca)
    = (σ' - σ) * (1 + (1 - σ - σ') * ce) := by ring
  linarith

/-- 5 km data at 1 km, the first row, columns 100 and 101 -/
example : ∃ S S', (trackScan (Conv.km5to1.cfg 270) (fun _ j => (val (45 + 0.5 * (j : ℝ)) : FP ℝ)) 0 0 103).2 = val S ∧
    (trackScan (Conv.km5to1.cfg 270) (fun _ j => (val (45 + 0.5 * (j : ℝ)) : FP ℝ)) 0 0 104).2 = val S' ∧ S < S' := by
  have h := (C31_5km_to_1km_partial 270 (Or.inl rfl)).2
  exact C101_cell .km5to1 270 (by decide) (by decide) (by decide) (by decide) (fun _ j => 45 + 0.5 * (j : ℝ)) 0 (a := 55) (b := 55.5)
    (by norm_num [cellCol, Conv.cfg, Cfg.factor5]) (by norm_num [cellCol, Conv.cfg, Cfg.factor5]) (by norm_num [abs_le]) (by norm_num [abs_le])
    (by norm_num) (by norm_num [abs_le]) (h 103 (by norm_num)) (h 104 (by norm_num)) (by norm_num)

/-! ### a row -/

/-- 1 km data: the position of a column in its cell -/
private theorem pos_1km (c : Conv) (hc : c = .km1to500 ∨ c = .km1to250) (w : Nat) {k : Nat} (hk : k < c.outCols) :
    (cellCol (c.cfg w) k : ℝ) ≤ (k : ℝ) / c.factor ∧ (k : ℝ) / c.factor ≤ cellCol (c.cfg w) k + 1.75 ∧
      (cellCol (c.cfg w) k < 1352 → (k : ℝ) / c.factor ≤ cellCol (c.cfg w) k + 0.75) ∧ cellCol (c.cfg w) k ≤ 1352 := by
  rcases hc with rfl | rfl
  · simp only [Conv.factor, Conv.cfg, Conv.outCols, cellCol, if_true] at hk ⊢
    obtain ⟨q, eq⟩ : ∃ q, q = min (k / 2) 1352 := ⟨_, rfl⟩
    rw [← eq]
    have h1 : 2 * q ≤ k := by omega
    have h2 : k ≤ 2 * q + 3 := by omega
    have h3 : q < 1352 → k ≤ 2 * q + 1 := by omega
    have h1' : (2 : ℝ) * q ≤ k := by exact_mod_cast h1
    have h2' : (k : ℝ) ≤ 2 * q + 3 := by exact_mod_cast h2
    refine ⟨by norm_num; linarith, by norm_num; linarith, fun h => ?_, by omega⟩
    have h3' : (k : ℝ) ≤ 2 * q + 1 := by exact_mod_cast h3 h
    norm_num; linarith
  · simp only [Conv.factor, Conv.cfg, Conv.outCols, cellCol, if_true] at hk ⊢
    obtain ⟨q, eq⟩ : ∃ q, q = min (k / 4) 1352 := ⟨_, rfl⟩
    rw [← eq]
    have h1 : 4 * q ≤ k := by omega
    have h2 : k ≤ 4 * q + 7 := by omega
    have h3 : q < 1352 → k ≤ 4 * q + 3 := by omega
    have h1' : (4 : ℝ) * q ≤ k := by exact_mod_cast h1
    have h2' : (k : ℝ) ≤ 4 * q + 7 := by exact_mod_cast h2
    refine ⟨by norm_num; linarith, by norm_num; linarith, fun h => ?_, by omega⟩
    have h3' : (k : ℝ) ≤ 4 * q + 3 := by exact_mod_cast h3 h
    norm_num; linarith

/-- the coefficients of 1 km data -/
private theorem coef_1km {a b : ℝ} (ha : |a| ≤ 70) (hb : |b| ≤ 70) (hl : 0.005 ≤ |a - b|) (hu : |a - b| ≤ 5) :
    ∃ ce ca, expansionAlignment 1 (val a : FP ℝ) (val b) = (val ce, val ca) ∧ |ce| ≤ 0.255 ∧ |ca| ≤ 0.0286 := by
  have hne : a ≠ b := by rintro rfl; norm_num at hl
  have h0 : ¬ (a = 0 ∧ b = 0) := fun h => hne (h.1.trans h.2.symm)
  obtain ⟨ce, e1, e2⟩ := C101_expansion 1 (by norm_num) ha hb h0 (hu.trans (by norm_num))
  obtain ⟨ca, f1, f2⟩ := C98_alignment_sharp 1 (by norm_num) ha hb h0
  refine ⟨ce, ca, by rw [← e1, ← f1], e2.trans (by linarith), f2.trans ?_⟩
  rw [zenithGap_of_ne hne, div_le_iff₀ (lt_of_lt_of_le (by norm_num) hl)]
  norm_num at hl ⊢
  linarith

/-- **C101 (row)**: for the two conversions of 1 km data, the positions of the pixels along a row of a scan, in tie columns (index of the
cell plus scan weight), are strictly increasing: if of two pixels the zenith angles of their cells are at most 70 degrees and
neighbouring ones differ by at least 0.005 and at most 5 degrees, the pixel with the larger column is further along the row. -/
theorem C101_row (c : Conv) (hc : c = .km1to500 ∨ c = .km1to250) (w : Nat) {r k k' : Nat} (hr : r < c.scanRows * c.factor)
    (hkk : k < k') (hk' : k' < c.outCols) (satz : Nat → Nat → ℝ) (i0 : Nat)
    (hz : ∀ j, j = cellCol (c.cfg w) k ∨ j = cellCol (c.cfg w) k' → |satz (i0 + cellRow (c.cfg w) r) j| ≤ 70 ∧
      |satz (i0 + cellRow (c.cfg w) r) (j + 1)| ≤ 70 ∧
      0.005 ≤ |satz (i0 + cellRow (c.cfg w) r) j - satz (i0 + cellRow (c.cfg w) r) (j + 1)| ∧
      |satz (i0 + cellRow (c.cfg w) r) j - satz (i0 + cellRow (c.cfg w) r) (j + 1)| ≤ 5) :
    ∃ S S', (trackScan (c.cfg w) (fun i j => (val (satz i j) : FP ℝ)) i0 r k).2 = val S ∧
      (trackScan (c.cfg w) (fun i j => (val (satz i j) : FP ℝ)) i0 r k').2 = val S' ∧
      (cellCol (c.cfg w) k : ℝ) + S < cellCol (c.cfg w) k' + S' := by
  have hk : k < c.outCols := by omega
  have hf : (0 : ℝ) < c.factor := by rcases hc with rfl | rfl <;> norm_num [Conv.factor]
  obtain ⟨a1, a2, a3, a4⟩ := hz _ (Or.inl rfl)
  have hlt : (k : ℝ) / c.factor < (k' : ℝ) / c.factor := div_lt_div_of_pos_right (by exact_mod_cast hkk) hf
  by_cases hcell : cellCol (c.cfg w) k' = cellCol (c.cfg w) k
  · obtain ⟨S, S', h1, h2, h3⟩ := C101_cell c w hr hk hk' hcell satz i0 rfl rfl a1 a2
      (fun h => by rw [h.1, h.2] at a3; norm_num at a3) a4 (C31_cols_1km_partial c hc w k hk) (C31_cols_1km_partial c hc w k' hk') hlt
    exact ⟨S, S', h1, h2, by rw [hcell]; linarith⟩
  obtain ⟨b1, b2, b3, b4⟩ := hz _ (Or.inr rfl)
  obtain ⟨p1, p2, p3, p4⟩ := pos_1km c hc w hk
  obtain ⟨q1, q2, -, q4⟩ := pos_1km c hc w hk'
  have hle : cellCol (c.cfg w) k + 1 ≤ cellCol (c.cfg w) k' := by
    have : cellCol (c.cfg w) k ≤ cellCol (c.cfg w) k' := by
      rcases hc with rfl | rfl <;> simp only [Conv.cfg, cellCol, if_true] <;> omega
    omega
  have p3 := p3 (by omega)
  obtain ⟨T, σ, t1, t2, y1, x1, -, -, key⟩ := weights_val c w hr hk i0
  obtain ⟨T', σ', -, -, y1', x1', -, -, key'⟩ := weights_val c w hr hk' i0
  obtain rfl : T = T' := by rw [y1, FP.val.injEq] at y1'; linarith
  rw [C31_cols_1km_partial c hc w k hk, FP.val.injEq] at x1
  rw [C31_cols_1km_partial c hc w k' hk', FP.val.injEq] at x1'
  have hper : (c.cfg w).perKm = 1 := by rcases hc with rfl | rfl <;> rfl
  obtain ⟨ce, ca, g1, g2, g3⟩ := coef_1km a1 a2 a3 a4
  obtain ⟨ce', ca', g1', g2', g3'⟩ := coef_1km b1 b2 b3 b4
  refine ⟨_, _, congrArg Prod.snd (key _ ce ca (by rw [hper]; exact g1)), congrArg Prod.snd (key' _ ce' ca' (by rw [hper]; exact g1')), ?_⟩
  show (cellCol (c.cfg w) k : ℝ) + (σ + σ * (1 - σ) * ce + T * (1 - T) * ca)
    < cellCol (c.cfg w) k' + (σ' + σ' * (1 - σ') * ce' + T * (1 - T) * ca')
  have hle' : (cellCol (c.cfg w) k : ℝ) + 1 ≤ cellCol (c.cfg w) k' := by exact_mod_cast hle
  rw [x1] at p1 p2 p3
  rw [x1'] at q1 q2
  clear key key' x1 x1' y1 y1' hz
  have s1 : 0 ≤ σ := by linarith
  have s2 : σ ≤ 0.75 := by linarith
  have s3 : 0 ≤ σ' := by linarith
  have s4 : σ' ≤ 1.75 := by linarith
  have hX : |T * (1 - T)| ≤ 2.775 := by
    rw [abs_mul]
    refine (mul_le_mul (abs_le.2 ⟨?_, t2⟩) (abs_le.2 ⟨?_, ?_⟩ : |1 - T| ≤ 1.5) (abs_nonneg _) (by norm_num)).trans (by norm_num) <;>
      (norm_num at *; linarith)
  have m1 : |T * (1 - T) * ca| ≤ 2.775 * 0.0286 := by rw [abs_mul]; exact mul_le_mul hX g3 (abs_nonneg _) (by norm_num)
  have m2 : |T * (1 - T) * ca'| ≤ 2.775 * 0.0286 := by rw [abs_mul]; exact mul_le_mul hX g3' (abs_nonneg _) (by norm_num)
  have m3 := (abs_le.1 m1).2
  have m4 := (abs_le.1 m2).1
  have n1 : 0 ≤ σ' * (1 + (1 - σ') * ce') := by
    refine mul_nonneg s3 ?_
    have : |(1 - σ') * ce'| ≤ 1 * 0.255 := by
      rw [abs_mul]
      exact mul_le_mul (abs_le.2 ⟨by norm_num at *; linarith, by linarith⟩) g2' (abs_nonneg _) (by norm_num)
    have := (abs_le.1 this).1
    norm_num at this ⊢
    linarith
  have n2 : 0.25 * 0.8 ≤ (1 - σ) * (1 - σ * ce) := by
    have : |σ * ce| ≤ 0.75 * 0.255 := by
      rw [abs_mul]
      exact mul_le_mul (abs_le.2 ⟨by norm_num at *; linarith, s2⟩) g2 (abs_nonneg _) (by norm_num)
    have := (abs_le.1 this).2
    refine mul_le_mul (by norm_num at *; linarith) (by norm_num at *; linarith) (by norm_num) (by norm_num at *; linarith)
  norm_num at m3 m4 n2
  nlinarith

/-- zenith angles growing by 0.04 degrees from column to column (0 to 54 degrees), first row of a scan at 250 m -/
example : ∃ S S', (trackScan (Conv.km1to250.cfg 1354) (fun _ j => (val (0.04 * (j : ℝ)) : FP ℝ)) 0 0 4003).2 = val S ∧
    (trackScan (Conv.km1to250.cfg 1354) (fun _ j => (val (0.04 * (j : ℝ)) : FP ℝ)) 0 0 4004).2 = val S' ∧
      (1000 : ℝ) + S < 1001 + S' := by
  obtain ⟨S, S', h1, h2, h3⟩ := C101_row .km1to250 (Or.inr rfl) 1354 (r := 0) (k := 4003) (k' := 4004) (by decide) (by decide) (by decide)
    (fun _ j => 0.04 * (j : ℝ)) 0 (by
      intro j hj
      simp only [Conv.cfg, cellCol, if_true] at hj
      rcases hj with rfl | rfl <;> norm_num [abs_of_neg])
  refine ⟨S, S', h1, h2, ?_⟩
  norm_num [Conv.cfg, cellCol] at h3
  exact h3

/-- **C101 (row, 5 km data at 1 km)**: the same for 5 km data (270 or 271 columns) at 1 km, if the zenith angles of neighbouring tie
points differ by at least 0.05 and at most 5 degrees. -/
theorem C101_row_5km (w : Nat) (hw : w = 270 ∨ w = 271) {r k k' : Nat} (hr : r < 10) (hkk : k < k') (hk' : k' < 1354)
    (satz : Nat → Nat → ℝ) (i0 : Nat)
    (hz : ∀ j, j = cellCol (Conv.km5to1.cfg w) k ∨ j = cellCol (Conv.km5to1.cfg w) k' → |satz i0 j| ≤ 70 ∧ |satz i0 (j + 1)| ≤ 70 ∧
      0.05 ≤ |satz i0 j - satz i0 (j + 1)| ∧ |satz i0 j - satz i0 (j + 1)| ≤ 5) :
    ∃ S S', (trackScan (Conv.km5to1.cfg w) (fun i j => (val (satz i j) : FP ℝ)) i0 r k).2 = val S ∧
      (trackScan (Conv.km5to1.cfg w) (fun i j => (val (satz i j) : FP ℝ)) i0 r k').2 = val S' ∧
      (cellCol (Conv.km5to1.cfg w) k : ℝ) + S < cellCol (Conv.km5to1.cfg w) k' + S' := by
  have hk : k < 1354 := by omega
  have hrow : cellRow (Conv.km5to1.cfg w) r = 0 := rfl
  have hrs : r < Conv.km5to1.scanRows * Conv.km5to1.factor := by simpa [Conv.scanRows, Conv.factor] using hr
  obtain ⟨cr, cc⟩ := C31_5km_to_1km_partial w hw
  have hne (a b : ℝ) (h : 0.05 ≤ |a - b|) : a ≠ b := by rintro rfl; norm_num at h
  obtain ⟨a1, a2, a3, a4⟩ := hz _ (Or.inl rfl)
  have hlt : ((k : ℝ) - 2) / 5 < ((k' : ℝ) - 2) / 5 := by
    have : (k : ℝ) < k' := by exact_mod_cast hkk
    linarith
  by_cases hcell : cellCol (Conv.km5to1.cfg w) k' = cellCol (Conv.km5to1.cfg w) k
  · obtain ⟨S, S', h1, h2, h3⟩ := C101_cell .km5to1 w hrs hk hk' hcell satz i0 (by rw [hrow]; rfl) (by rw [hrow]; rfl) a1 a2
      (fun h => hne _ _ a3 (h.1.trans h.2.symm)) a4 (cc k hk) (cc k' hk') hlt
    exact ⟨S, S', h1, h2, by rw [hcell]; linarith⟩
  obtain ⟨b1, b2, b3, b4⟩ := hz _ (Or.inr rfl)
  have hle : cellCol (Conv.km5to1.cfg w) k + 1 ≤ cellCol (Conv.km5to1.cfg w) k' := by
    have : cellCol (Conv.km5to1.cfg w) k ≤ cellCol (Conv.km5to1.cfg w) k' := by
      simp only [Conv.cfg, cellCol, show ¬ ((2:Nat) = 10) by omega, if_false]; omega
    omega
  have hp : k ≤ 5 * cellCol (Conv.km5to1.cfg w) k + 6 := by
    rcases hw with rfl | rfl <;>
    · simp only [Conv.cfg, cellCol, show ¬ ((2:Nat) = 10) by omega, if_false] at hle hcell ⊢
      norm_num at hle hcell ⊢
      omega
  have hq : 5 * cellCol (Conv.km5to1.cfg w) k' + 2 ≤ k' ∧ k' ≤ 5 * cellCol (Conv.km5to1.cfg w) k' + 13 := by
    rcases hw with rfl | rfl <;>
    · simp only [Conv.cfg, cellCol, show ¬ ((2:Nat) = 10) by omega, if_false] at hle hcell ⊢
      norm_num at hle hcell ⊢
      omega
  obtain ⟨T, σ, -, -, y1, x1, s1, -, key⟩ := weights_val .km5to1 w hrs hk i0
  obtain ⟨T', σ', -, -, y1', x1', -, -, key'⟩ := weights_val .km5to1 w hrs hk' i0
  obtain rfl : T = T' := by rw [y1, FP.val.injEq] at y1'; linarith
  rw [cr r hr, FP.val.injEq, hrow] at y1
  rw [cc k hk, FP.val.injEq] at x1
  rw [cc k' hk', FP.val.injEq] at x1'
  have coef {a b : ℝ} (ha : |a| ≤ 70) (hb : |b| ≤ 70) (hl : 0.05 ≤ |a - b|) (hu : |a - b| ≤ 5) :
      ∃ ce ca, expansionAlignment 5 (val a : FP ℝ) (val b) = (val ce, val ca) ∧ |ce| ≤ 0.255 ∧ |ca| ≤ 0.0715 := by
    have hn := hne a b hl
    have h0 : ¬ (a = 0 ∧ b = 0) := fun h => hn (h.1.trans h.2.symm)
    obtain ⟨ce, e1, e2⟩ := C101_expansion 5 (by norm_num) ha hb h0 (hu.trans (by norm_num))
    obtain ⟨ca, f1, f2⟩ := C98_alignment_sharp 5 (by norm_num) ha hb h0
    refine ⟨ce, ca, by rw [← e1, ← f1], e2.trans (by linarith), f2.trans ?_⟩
    rw [zenithGap_of_ne hn, div_le_iff₀ (lt_of_lt_of_le (by norm_num) hl)]
    norm_num at hl ⊢
    linarith
  obtain ⟨ce, ca, g1, g2, g3⟩ := coef a1 a2 a3 a4
  obtain ⟨ce', ca', g1', g2', g3'⟩ := coef b1 b2 b3 b4
  refine ⟨_, _, congrArg Prod.snd (key (fun i j => val (satz i j)) ce ca g1), congrArg Prod.snd (key' (fun i j => val (satz i j)) ce' ca' g1'), ?_⟩
  show (cellCol (Conv.km5to1.cfg w) k : ℝ) + (σ + σ * (1 - σ) * ce + T * (1 - T) * ca)
    < cellCol (Conv.km5to1.cfg w) k' + (σ' + σ' * (1 - σ') * ce' + T * (1 - T) * ca')
  have hle' : (cellCol (Conv.km5to1.cfg w) k : ℝ) + 1 ≤ cellCol (Conv.km5to1.cfg w) k' := by exact_mod_cast hle
  have hp' : (k : ℝ) ≤ 5 * cellCol (Conv.km5to1.cfg w) k + 6 := by exact_mod_cast hp
  have hq1 : (5 : ℝ) * cellCol (Conv.km5to1.cfg w) k' + 2 ≤ k' := by exact_mod_cast hq.1
  have hq2 : (k' : ℝ) ≤ 5 * cellCol (Conv.km5to1.cfg w) k' + 13 := by exact_mod_cast hq.2
  have hr0 : (0 : ℝ) ≤ r := Nat.cast_nonneg r
  have hr9 : (r : ℝ) ≤ 9 := by exact_mod_cast (by omega : r ≤ 9)
  have t1 : -0.4 ≤ T := by norm_num at y1 ⊢; linarith
  have t2 : T ≤ 1.4 := by norm_num at y1 ⊢; linarith
  have s2 : σ ≤ 0.8 := by norm_num; linarith
  have s3 : 0 ≤ σ' := by linarith
  have s4 : σ' ≤ 2.2 := by norm_num; linarith
  clear key key' x1 x1' y1 y1' hz cr cc hp' hq1 hq2 hlt
  have hX : |T * (1 - T)| ≤ 0.56 := by
    norm_num at t1 t2
    rw [abs_le]
    constructor <;> norm_num <;> nlinarith [sq_nonneg (T - 1 / 2)]
  have m1 : |T * (1 - T) * ca| ≤ 0.56 * 0.0715 := by rw [abs_mul]; exact mul_le_mul hX g3 (abs_nonneg _) (by norm_num)
  have m2 : |T * (1 - T) * ca'| ≤ 0.56 * 0.0715 := by rw [abs_mul]; exact mul_le_mul hX g3' (abs_nonneg _) (by norm_num)
  have m3 := (abs_le.1 m1).2
  have m4 := (abs_le.1 m2).1
  have n1 : 0 ≤ σ' * (1 + (1 - σ') * ce') := by
    refine mul_nonneg s3 ?_
    have : |(1 - σ') * ce'| ≤ 1.2 * 0.255 := by
      rw [abs_mul]
      exact mul_le_mul (abs_le.2 ⟨by norm_num at *; linarith, by norm_num; linarith⟩) g2' (abs_nonneg _) (by norm_num)
    have := (abs_le.1 this).1
    norm_num at this ⊢
    linarith
  have n2 : 0.2 * 0.796 ≤ (1 - σ) * (1 - σ * ce) := by
    have : |σ * ce| ≤ 0.8 * 0.255 := by
      rw [abs_mul]
      exact mul_le_mul (abs_le.2 ⟨by norm_num at *; linarith, s2⟩) g2 (abs_nonneg _) (by norm_num)
    have := (abs_le.1 this).2
    refine mul_le_mul (by norm_num at *; linarith) (by norm_num at *; linarith) (by norm_num) (by norm_num at *; linarith)
  norm_num at m3 m4 n2
  nlinarith

/-- zenith angles growing by 0.2 degrees, columns 1001 and 1002 (on both sides of a tie point) -/
example : ∃ S S', (trackScan (Conv.km5to1.cfg 270) (fun _ j => (val (0.2 * (j : ℝ)) : FP ℝ)) 0 9 1001).2 = val S ∧
    (trackScan (Conv.km5to1.cfg 270) (fun _ j => (val (0.2 * (j : ℝ)) : FP ℝ)) 0 9 1002).2 = val S' ∧ (199 : ℝ) + S < 200 + S' := by
  obtain ⟨S, S', h1, h2, h3⟩ := C101_row_5km 270 (Or.inl rfl) (r := 9) (k := 1001) (k' := 1002) (by decide) (by decide) (by decide)
    (fun _ j => 0.2 * (j : ℝ)) 0 (by
      intro j hj
      have hj' : j = 199 ∨ j = 200 := hj
      rcases hj' with rfl | rfl <;> norm_num [abs_of_neg])
  exact ⟨S, S', h1, h2, by norm_num [Conv.cfg, cellCol, Cfg.factor5] at h3; exact h3⟩

/-- **C101, negation**: without a least distance of the angles the order is not kept.  There are zenith angles between 44 and 50 degrees
such that, in the first row of a scan of 1 km data interpolated to 500 m, column 0 is placed beyond column 2. -/
theorem C101_negation : ∃ (satz : Nat → Nat → ℝ) (S S' : ℝ), (∀ i j, 44 ≤ satz i j ∧ satz i j ≤ 50) ∧
    (trackScan (Conv.km1to500.cfg 1354) (fun i j => (val (satz i j) : FP ℝ)) 0 0 0).2 = val S ∧
    (trackScan (Conv.km1to500.cfg 1354) (fun i j => (val (satz i j) : FP ℝ)) 0 0 2).2 = val S' ∧
    cellCol (Conv.km1to500.cfg 1354) 0 = 0 ∧ cellCol (Conv.km1to500.cfg 1354) 2 = 1 ∧ 1 + S' < 0 + S := by
  have ht := C31_rows_1km_partial .km1to500 (Or.inl rfl) 1354 0 (by decide)
  obtain ⟨b, S, h1, h2, h3⟩ := C98_negation_weights .km1to500 1354 (r := 0) (k := 0) (by decide) (by decide) 0
    (by rw [ht]; norm_num [cellRow, Conv.cfg, Conv.factor]) (by rw [ht]; norm_num [cellRow, Conv.cfg, Conv.factor]) 3 true
  rw [abs_le] at h1
  rw [if_pos rfl] at h2
  obtain ⟨T, S', σ, z1, -, z3, z4⟩ := C98_weights .km1to500 1354 (r := 0) (k := 2) (by decide) (by decide)
    (fun _ j => if j = 0 then 45 else if j = 1 then b else 50) 0 (a := b) (b := 50) (by simp [cellCol, Conv.cfg]) (by simp [cellCol, Conv.cfg])
    (by rw [abs_le]; constructor <;> linarith) (by norm_num [abs_le]) (by norm_num)
  rw [C31_cols_1km_partial .km1to500 (Or.inl rfl) 1354 2 (by decide), FP.val.injEq] at z3
  obtain rfl : σ = 0 := by norm_num [cellCol, Conv.cfg, Conv.factor] at z3; linarith
  have hne : b ≠ 50 := by rintro rfl; linarith [h1.2]
  rw [zenithGap_of_ne hne, abs_of_neg (by linarith : b - 50 < 0)] at z4
  refine ⟨fun _ j => if j = 0 then 45 else if j = 1 then b else 50, S, S', fun i j => ?_, h3 _ (by simp [cellCol, Conv.cfg]) (by simp [cellCol, Conv.cfg]),
    by rw [z1], by decide, by decide, ?_⟩
  · simp only []
    split_ifs
    · norm_num
    · constructor <;> linarith
    · norm_num
  · have : 0.02 / -(b - 50) ≤ 0.01 := by rw [div_le_iff₀ (by linarith)]; norm_num; linarith
    have := (abs_le.1 z4).2
    norm_num at *
    linarith

/-- **C101, negation (5 km data at 500 m and 250 m)**: there the order is not kept for any zenith angles, because the columns themselves are
placed out of order (C31).  In every row of a scan column 12 (22) is placed before column 11 (21), whatever the two angles of
the cell are: at most 70 degrees, not both zero, at most 5 degrees apart. -/
theorem C101_negation_5km (w : Nat) (hw : w = 270 ∨ w = 271) (satz : Nat → Nat → ℝ) (i0 : Nat) (ha : |satz i0 0| ≤ 70) (hb : |satz i0 1| ≤ 70)
    (h0 : ¬ (satz i0 0 = 0 ∧ satz i0 1 = 0)) (hg : |satz i0 0 - satz i0 1| ≤ 5) :
    (∀ r, r < 20 → ∃ S S', (trackScan (Conv.km5to500.cfg w) (fun i j => (val (satz i j) : FP ℝ)) i0 r 11).2 = val S ∧
      (trackScan (Conv.km5to500.cfg w) (fun i j => (val (satz i j) : FP ℝ)) i0 r 12).2 = val S' ∧ S' < S) ∧
    (∀ r, r < 40 → ∃ S S', (trackScan (Conv.km5to250.cfg w) (fun i j => (val (satz i j) : FP ℝ)) i0 r 21).2 = val S ∧
      (trackScan (Conv.km5to250.cfg w) (fun i j => (val (satz i j) : FP ℝ)) i0 r 22).2 = val S' ∧ S' < S) := by
  obtain ⟨⟨c1, c2⟩, c3, c4⟩ := C31_negation_cols w hw
  have hc1 : cellCol (Conv.km5to500.cfg w) 11 = 0 ∧ cellCol (Conv.km5to500.cfg w) 12 = 0 := by rcases hw with rfl | rfl <;> decide
  have hc2 : cellCol (Conv.km5to250.cfg w) 21 = 0 ∧ cellCol (Conv.km5to250.cfg w) 22 = 0 := by rcases hw with rfl | rfl <;> decide
  constructor
  · intro r hr
    have hrow : cellRow (Conv.km5to500.cfg w) r = 0 := rfl
    obtain ⟨S', S, h1, h2, h3⟩ := C101_cell .km5to500 w (r := r) (k := 12) (k' := 11) (by simpa [Conv.scanRows, Conv.factor] using hr)
      (by decide) (by decide) (by rw [hc1.1, hc1.2]) satz i0 (by rw [hc1.2, hrow]; rfl) (by rw [hc1.2, hrow]; rfl) ha hb h0 hg c2 c1 (by norm_num)
    exact ⟨S, S', h2, h1, h3⟩
  · intro r hr
    have hrow : cellRow (Conv.km5to250.cfg w) r = 0 := rfl
    obtain ⟨S', S, h1, h2, h3⟩ := C101_cell .km5to250 w (r := r) (k := 22) (k' := 21) (by simpa [Conv.scanRows, Conv.factor] using hr)
      (by decide) (by decide) (by rw [hc2.1, hc2.2]) satz i0 (by rw [hc2.2, hrow]; rfl) (by rw [hc2.2, hrow]; rfl) ha hb h0 hg c4 c3 (by norm_num)
    exact ⟨S, S', h2, h1, h3⟩

example : ∃ S S', (trackScan (Conv.km5to500.cfg 270) (fun _ j => (val (45 + 0.5 * (j : ℝ)) : FP ℝ)) 0 7 11).2 = val S ∧
    (trackScan (Conv.km5to500.cfg 270) (fun _ j => (val (45 + 0.5 * (j : ℝ)) : FP ℝ)) 0 7 12).2 = val S' ∧ S' < S :=
  (C101_negation_5km 270 (Or.inl rfl) (fun _ j => 45 + 0.5 * (j : ℝ)) 0 (by norm_num [abs_le]) (by norm_num [abs_le]) (by norm_num)
    (by norm_num [abs_le])).1 7 (by norm_num)
end Verif.Props
