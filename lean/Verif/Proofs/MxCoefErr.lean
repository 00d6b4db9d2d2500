import Verif.Proofs.MxWeights
import Verif.Spec.Zenith

/-!
# The expansion and alignment coefficients in mixed precision, compared with exact arithmetic
-/

namespace Verif.Mx
open Verif Verif.Geo Verif.Modis Verif.FlGeo Verif.Err Verif.Spec.Modis
variable {q : Mixed} {ε : ℝ}

/-! ### both coefficients -/

/-- the coefficients in exact arithmetic -/
theorem expansionAlignment_exact (w : Nat) (hw : w ≤ 5) {a b : ℝ} (ha : |a| ≤ 70) (hb : |b| ≤ 70) (hab : a = b → a ≠ 0) :
    let A := Spec.rad a
    let B := Spec.rad b
    let M := (phiR A + phiR B) / 2
    let Z := zetaR M
    let D := if a = b then (A - phiR A) * 2 else (A - phiR A) - (B - phiR B)
    let d := ((Rk + Hk) / Rk * Real.cos M - Real.cos Z) * (((w : ℤ) : ℝ) / (2 * Hk))
    expansionAlignment w (FP.val a : FP ℝ) (FP.val b)
      = (FP.val (4 * ((((A - phiR A) + (B - phiR B)) / 2 - (Z - M)) / D)),
          FP.val (4 * (Real.cos Z - √(Real.cos Z * Real.cos Z - d * d)) * Real.sin Z / D)) := by
  intro A B M Z D d
  have hpi := Real.pi_pos
  have hinj : A - phiR A = B - phiR B → a = b := by
    intro e
    have : a * (Real.pi / 180) = b * (Real.pi / 180) := theta_inj e
    exact mul_right_cancel₀ (by positivity) this
  have hD : D ≠ 0 := by
    show (if a = b then (A - phiR A) * 2 else (A - phiR A) - (B - phiR B)) ≠ 0
    split
    · next hq =>
      intro e
      have h0 : A - phiR A = 0 - phiR 0 := by rw [phiR_zero]; linarith
      have : a * (Real.pi / 180) = 0 := theta_inj h0
      exact hab hq ((mul_eq_zero.1 this).resolve_right (by positivity))
    · next hq => exact fun e => hq (hinj (sub_eq_zero.1 e))
  have h1 := phiR_70 ((abs_sin_70 ha).trans (by norm_num))
  have h2 := phiR_70 ((abs_sin_70 hb).trans (by norm_num))
  have hM : |M| ≤ mTop := by have := mean_mTop h1 h2; show |(phiR A + phiR B) / 2| ≤ _; linarith
  have hz := abs_le.1 (zeta_arg hM)
  have hR := Rk_pos
  have hzeta : computeZeta (FP.val M : FP ℝ) = FP.val Z := by
    unfold computeZeta
    have e : (Rk + Hk) * Real.sin M / Rk = kap⁻¹ * Real.sin M := by rw [← inv_kap]; ring
    rw [satR_val, satH_val, FP.sin_val, FP.val_add, FP.val_mul, FP.val_div_of_ne _ hR.ne', e,
      FP.asin_val_of (by linarith) (by linarith), FP.toFloating_eq]
    rfl
  have hm : (FP.val (phiR A) + FP.val (phiR B) : FP ℝ) / 2 = FP.val M := by
    rw [FP.val_add, FP.ofNat_eq, FP.val_div_of_ne _ (by norm_num)]
  have hH : (0:ℝ) < 2 * Hk := by norm_num [Hk]
  have hw' : |((w : ℤ) : ℝ) / (2 * Hk)| ≤ 0.003527 := by
    have : 2 * Hk = 1418 := by norm_num [Hk]
    have hw' : ((w : ℤ) : ℝ) ≤ 5 := by exact_mod_cast hw
    rw [this, abs_of_nonneg (by positivity)]
    linarith
  obtain ⟨g1, g2⟩ := align_bounds hM
  have hd : |d| ≤ 0.00099 := by
    show |((Rk + Hk) / Rk * Real.cos M - Real.cos Z) * (((w : ℤ) : ℝ) / (2 * Hk))| ≤ _
    rw [inv_kap, abs_mul, abs_of_nonneg g1]
    calc _ ≤ 0.28 * 0.003527 := mul_le_mul g2 hw' (abs_nonneg _) (by norm_num)
      _ ≤ _ := by norm_num
  have hcz := cos_zetaR hM
  have hroot : 0 ≤ Real.cos Z * Real.cos Z - d * d := by
    have := (sag_bounds (C := Real.cos Z) (d := d) (by show _ ≤ Real.cos (zetaR M); linarith) hd).2.2.2
    rw [← this]; exact mul_self_nonneg _
  have hden : (if Arith.eq (computeTheta (FP.val (Spec.rad a)) (FP.val (phiR (Spec.rad a))) : FP ℝ)
        (computeTheta (FP.val (Spec.rad b)) (FP.val (phiR (Spec.rad b))))
      then computeTheta (FP.val (Spec.rad a)) (FP.val (phiR (Spec.rad a))) * 2
      else computeTheta (FP.val (Spec.rad a)) (FP.val (phiR (Spec.rad a)))
        - computeTheta (FP.val (Spec.rad b)) (FP.val (phiR (Spec.rad b))) : FP ℝ) = FP.val D := by
    have he : Arith.eq (computeTheta (FP.val (Spec.rad a)) (FP.val (phiR (Spec.rad a))) : FP ℝ)
        (computeTheta (FP.val (Spec.rad b)) (FP.val (phiR (Spec.rad b)))) = decide (a = b) := by
      unfold computeTheta
      rw [FP.val_sub, FP.val_sub, FP.eq_val]
      exact decide_eq_decide.2 ⟨hinj, fun e => by rw [e]⟩
    rw [he]
    show _ = FP.val (if a = b then (A - phiR A) * 2 else (A - phiR A) - (B - phiR B))
    split
    · next hq => rw [if_pos (of_decide_eq_true hq), FP.ofNat_eq]; rfl
    · next hq => rw [if_neg (fun e => hq (decide_eq_true e))]; rfl
  unfold expansionAlignment
  simp only [FP.toFloating_eq, cyDeg2rad_eq, deg2rad_val, computePhi_val]
  rw [hden, hm, hzeta]
  simp only [computeTheta, FP.cos_val, FP.sin_val, satR_val, satH_val, FP.val_add, FP.val_sub, FP.val_mul]
  rw [FP.val_div_of_ne _ hR.ne', FP.ofNat_eq 2, FP.val_mul 2 Hk, FP.ofInt_eq,
    FP.val_div_of_ne _ hH.ne', FP.val_div_of_ne _ (by norm_num : (2:ℝ) ≠ 0)]
  simp only [FP.val_sub, FP.val_mul]
  rw [FP.sqrt_val_of hroot, FP.ofNat_eq 4]
  simp only [FP.val_sub, FP.val_mul]
  rw [FP.val_div_of_ne _ hD, FP.val_div_of_ne _ hD, FP.val_mul]

/-- the angles at the centre of the Earth are apart if the zenith angles are -/
theorem theta_apart {a b : ℝ} (A B : ℝ) (hA : A = Spec.rad a) (hB : B = Spec.rad b) :
    0.00174 * |a - b| ≤ |(A - phiR A) - (B - phiR B)| := by
  refine le_trans ?_ (theta_expand A B)
  rw [hA, hB]
  unfold Spec.rad
  rw [← sub_mul, abs_mul, abs_of_pos (by have := Real.pi_pos; positivity : 0 < Real.pi / 180)]
  have h1 := Real.pi_gt_d2
  have h2 := kap_bounds.2
  have h3 := abs_nonneg (a - b)
  have h4 : 0.0174 ≤ Real.pi / 180 := by norm_num at *; linarith
  calc 0.00174 * |a - b| = 0.1 * (|a - b| * 0.0174) := by ring
    _ ≤ _ := mul_le_mul (by norm_num at *; linarith) (mul_le_mul_of_nonneg_left h4 h3) (by positivity)
      (by norm_num at *; linarith)

/-- the numerator of the alignment coefficient is small against the denominator -/
theorem align_num {a b A B M E D : ℝ} (eA : A = Spec.rad a) (eB : B = Spec.rad b) (eM : M = (phiR A + phiR B) / 2)
    (hMT : |M| ≤ mTop) (hE : |E| ≤ 0.0000031) (hDg : 0.00174 * zenithGap a b ≤ |D|)
    (hap : 0.06 ≤ zenithGap a b ∨ 0.01 ≤ zenithGap a b ∧ |a| ≤ 9 ∧ |b| ≤ 9) :
    |4 * E * Real.sin (zetaR M)| ≤ 0.124 * |D| := by
  rw [abs_mul, abs_mul, abs_of_pos (by norm_num : (0 : ℝ) < 4)]
  have hpi := Real.pi_pos
  have s1 := Real.abs_sin_le_one (zetaR M)
  rcases hap with g | ⟨g, g1, g2⟩
  · have := mul_le_mul (by linarith : 4 * |E| ≤ 4 * 0.0000031) s1 (abs_nonneg _) (by norm_num)
    norm_num at this hDg g ⊢
    linarith
  · have s2 : |Real.sin (zetaR M)| ≤ 0.1571 := by
      have hpi2 := Real.pi_lt_d4
      have r9 : ∀ {z : ℝ}, |z| ≤ 9 → |phiR (Spec.rad z)| ≤ kap * 0.1571 := by
        intro z hz
        have := phiR_lip (Spec.rad z) 0
        rw [phiR_zero, sub_zero, sub_zero] at this
        refine this.trans (mul_le_mul_of_nonneg_left ?_ kap_pos.le)
        unfold Spec.rad
        rw [abs_mul, abs_of_pos (by positivity : 0 < Real.pi / 180)]
        calc |z| * (Real.pi / 180) ≤ 9 * (Real.pi / 180) := by gcongr
          _ ≤ _ := by norm_num at hpi2 ⊢; linarith
      have m1 : |M| ≤ kap * 0.1571 := by
        have e1 := r9 g1
        have e2 := r9 g2
        rw [← eA] at e1
        rw [← eB] at e2
        rw [eM, abs_div, abs_two, div_le_iff₀ (by norm_num)]
        exact (abs_add_le _ _).trans (by linarith)
      rw [sin_zetaR hMT, abs_mul, abs_of_pos (inv_pos.2 kap_pos), inv_mul_le_iff₀ kap_pos]
      exact (Real.abs_sin_le_abs).trans m1
    have := mul_le_mul (by linarith : 4 * |E| ≤ 4 * 0.0000031) s2 (abs_nonneg _) (by norm_num)
    norm_num at this hDg g ⊢
    linarith

/-- the denominator -/
theorem den_err (h : Prec q ε) {a b ta tb Ta Tb T D dn : ℝ} (hTa : |Ta| ≤ 1.222) (hTb : |Tb| ≤ 1.222) (hta : |ta - Ta| ≤ 3.6 * ε)
    (htb : |tb - Tb| ≤ 3.6 * ε) (eT : a = b → Ta = Tb) (hN0 : |(Ta + Tb) / 2 - T| ≤ |Ta - Tb| / 2)
    (edn : dn = if a = b then q.s.rnd (ta * 2) else q.s.rnd (ta - tb)) (eD : D = if a = b then Ta * 2 else Ta - Tb) :
    |dn - D| ≤ 9.7 * ε ∧ |D| ≤ 2.444 ∧ |(Ta + Tb) / 2 - T| ≤ |D| / 2 := by
  have h0 := h.pos
  have h1 := h.le'
  rw [edn, eD]
  by_cases e : a = b
  · have eT := eT e
    rw [if_pos e, if_pos e]
    have k1 : |ta * 2 - Ta * 2| ≤ 7.2 * ε := by
      rw [← sub_mul, abs_mul, abs_two]; linarith
    have k2 : |Ta * 2| ≤ 2.444 := by rw [abs_mul, abs_two]; linarith
    refine ⟨(h.rs k2 k1).trans (by nlinarith), k2, ?_⟩
    rw [eT, sub_self, abs_zero, zero_div] at hN0
    rw [eT]
    exact hN0.trans (by positivity)
  · rw [if_neg e, if_neg e]
    have k1 : |(ta - tb) - (Ta - Tb)| ≤ 7.2 * ε := by
      calc _ = |(ta - Ta) - (tb - Tb)| := by ring_nf
        _ ≤ _ := abs_sub _ _
        _ ≤ _ := by linarith
    have k2 : |Ta - Tb| ≤ 2.444 := (abs_sub _ _).trans (by linarith)
    exact ⟨(h.rs k2 k1).trans (by nlinarith), k2, hN0⟩

/-- the denominator in the code -/
theorem den_code {a b x f y g dn : ℝ} (hp : 12 ≤ q.s.p) (exy : a = b → x = y ∧ f = g)
    (edn : dn = if a = b then q.s.rnd (q.s.rnd (x - f) * 2) else q.s.rnd (q.s.rnd (x - f) - q.s.rnd (y - g))) (hne : dn ≠ 0) :
    (if Arith.eq (sgl (q.s.rnd (x - f)) : Mx q) (sgl (q.s.rnd (y - g))) then sgl (q.s.rnd (x - f)) * 2
      else sgl (q.s.rnd (q.s.rnd (x - f) - q.s.rnd (y - g))) : Mx q) = sgl dn := by
  rw [eq_ss]
  by_cases e : a = b
  · have exy := exy e
    rw [edn, if_pos e, if_pos (by simp [exy.1, exy.2]), two_eq, si_mul, rnd_two hp]
  · rw [edn, if_neg e] at hne
    rw [edn, if_neg e, if_neg]
    intro e'
    have : q.s.rnd (x - f) = q.s.rnd (y - g) := by simpa using e'
    rw [this, sub_self, q.s.rnd_zero] at hne
    exact hne rfl

/-- the coefficients of two zenith angles of at most 70 degrees -/
theorem coef_err (h : Prec q ε) (w : Nat) (hw : w ≤ 5) {a b : ℝ} (hab : ZenithsOk ε a b) :
    ∃ ce ca Ce Ca, expansionAlignment w (sgl a : Mx q) (sgl b) = (sgl ce, sgl ca) ∧
      expansionAlignment w (FP.val a : FP ℝ) (FP.val b) = (FP.val Ce, FP.val Ca) ∧
      |ce - Ce| ≤ 48000 * ε / zenithGap a b ∧ |ca - Ca| ≤ 900 * ε / zenithGap a b ∧ |Ce| ≤ 2 ∧ |Ca| ≤ 0.125 := by
  obtain ⟨ha, hb, hgap, hap⟩ := hab
  have h0 := h.pos
  have h1 := h.le'
  have hpi := Real.pi_gt_three
  have hp := h.hp
  have hpd := hd12 hp
  obtain ⟨x, f, ex, ef, hf, hta⟩ := theta_err h ha
  obtain ⟨y, g, ey, eg, hg, htb⟩ := theta_err h hb
  have hA := rad_70 ha
  have hB := rad_70 hb
  have sA := (abs_sin_70 ha).trans (by norm_num : (0.94 : ℝ) ≤ 0.941)
  have sB := (abs_sin_70 hb).trans (by norm_num : (0.94 : ℝ) ≤ 0.941)
  have hex := expansionAlignment_exact w hw ha hb (fun e e0 => by
    rw [← e, zenithGap_self, e0] at hgap; norm_num at hgap; linarith)
  simp only at hex
  obtain ⟨A, eA⟩ : ∃ A, A = Spec.rad a := ⟨_, rfl⟩
  obtain ⟨B, eB⟩ : ∃ B, B = Spec.rad b := ⟨_, rfl⟩
  obtain ⟨D, eD⟩ : ∃ D, D = if a = b then (A - phiR A) * 2 else (A - phiR A) - (B - phiR B) := ⟨_, rfl⟩
  have hDg : 0.00174 * zenithGap a b ≤ |D| := by
    rw [eD]
    by_cases e : a = b
    · rw [if_pos e, ← e, zenithGap_self, abs_mul, abs_two]
      have := theta_apart (b := 0) A 0 eA (by simp [Spec.rad])
      rw [phiR_zero, sub_zero, sub_zero, sub_zero] at this
      linarith
    · rw [if_neg e, zenithGap_of_ne e]
      exact theta_apart A B eA eB
  rw [← eA] at hA sA hta hf hex
  rw [← eB] at hB sB htb hg hex
  rw [← eD] at hex
  have hAb : |A| ≤ Real.pi / 2 := by norm_num at hA ⊢; linarith
  have hBb : |B| ≤ Real.pi / 2 := by norm_num at hB ⊢; linarith
  have pA := phiR_70 sA
  have pB := phiR_70 sB
  obtain ⟨m, z, em, ez, hmT, hm, hz, hth⟩ := mean_err h pA pB hf hg
  have hMT : |(phiR A + phiR B) / 2| ≤ mTop := by have := mean_mTop pA pB; linarith
  have hN0 := expansion_num hAb hBb sA sB
  have hTa : |A - phiR A| ≤ 1.222 := by
    have h3 := theta_lip hAb (y := 0) (by simp; positivity)
    rw [phiR_zero, sub_zero, sub_zero, sub_zero] at h3
    exact h3.trans hA
  have hTb : |B - phiR B| ≤ 1.222 := by
    have h3 := theta_lip hBb (y := 0) (by simp; positivity)
    rw [phiR_zero, sub_zero, sub_zero, sub_zero] at h3
    exact h3.trans hB
  obtain ⟨M, eM⟩ : ∃ M, M = (phiR A + phiR B) / 2 := ⟨_, rfl⟩
  rw [← eM] at hm hz hth hMT hN0 hex
  have hZ := cos_zetaR hMT
  obtain ⟨Ta, eTa⟩ : ∃ Ta, Ta = A - phiR A := ⟨_, rfl⟩
  obtain ⟨Tb, eTb⟩ : ∃ Tb, Tb = B - phiR B := ⟨_, rfl⟩
  rw [← eTa] at hta hTa hN0 hex eD
  rw [← eTb] at htb hTb hN0 hex eD
  have hD100 : 100 * ε ≤ |D| := by norm_num at hDg hgap ⊢; linarith
  obtain ⟨dn, edn⟩ : ∃ dn, dn = if a = b then q.s.rnd (q.s.rnd (x - f) * 2) else q.s.rnd (q.s.rnd (x - f) - q.s.rnd (y - g)) :=
    ⟨_, rfl⟩
  have hden := den_err h (dn := dn) (D := D) hTa hTb hta htb (fun e => by rw [eTa, eTb, eA, eB, e]) hN0 edn eD
  obtain ⟨hden, hD2, hN⟩ := hden
  obtain ⟨hne, hce⟩ := cexp_err h hTa hTb hta htb hth hN hD2 hden hD100
  obtain ⟨hH0, -, -⟩ := sb_err h hw
  obtain ⟨hd1, hd2⟩ := d_err h hw hMT hm hz
  obtain ⟨d0, ed0⟩ : ∃ d0, d0 = ((Rk + Hk) / Rk * Real.cos M - Real.cos (zetaR M)) * (((w : ℤ) : ℝ) / (2 * Hk)) := ⟨_, rfl⟩
  rw [← ed0] at hd1 hd2 hex
  obtain ⟨d', ed'⟩ : ∃ d', d' = q.s.rnd (q.d.rnd (q.d.rnd (q.d.rnd (q.d.rnd (Fl.fRH q.d / Fl.fR q.d) * q.d.cos m)
    - q.d.cos z) * q.s.rnd (q.d.rnd (q.d.rnd ((w : ℤ) : ℝ) / q.d.rnd (2 * Fl.fH q.d))))) := ⟨_, rfl⟩
  rw [← ed'] at hd2
  obtain ⟨hP, hE, he⟩ := e_err h hd1 hd2 hZ hz
  obtain ⟨E, eE⟩ : ∃ E, E = Real.cos (zetaR M) - √(Real.cos (zetaR M) * Real.cos (zetaR M) - d0 * d0) := ⟨_, rfl⟩
  rw [← eE] at hE he hex
  have hsZ := align_num eA eB eM hMT hE hDg hap
  obtain ⟨hca, hca'⟩ := cali_err h hE he hz hden hD100 hsZ
  have hRp : Fl.fR q.d ≠ 0 := by
    obtain ⟨c1, _⟩ := Fl.consts hpd
    linarith
  have hDp : 0 < |D| := by linarith
  have hab0 : 0 < zenithGap a b := by linarith
  have hab1 : zenithGap a b ≤ 140 := by
    unfold zenithGap
    split
    · linarith
    · exact (abs_sub _ _).trans (by linarith)
  have hquot : ∀ k : ℝ, 0 ≤ k → k * ε / |D| ≤ (k / 0.00174) * ε / zenithGap a b := by
    intro k hk
    rw [div_le_div_iff₀ hDp hab0]
    calc k * ε * zenithGap a b = (k / 0.00174) * ε * (0.00174 * zenithGap a b) := by ring
      _ ≤ _ := by gcongr
  have hlin : ∀ k : ℝ, 0 ≤ k → k * ε ≤ (140 * k) * ε / zenithGap a b := by
    intro k hk
    rw [le_div_iff₀ hab0]
    calc k * ε * zenithGap a b ≤ k * ε * 140 := by gcongr
      _ = _ := by ring
  refine ⟨_, _, _, _, ?_, hex, hce.trans ?_, hca.trans ?_, ?_, hca'⟩
  · unfold expansionAlignment
    simp only [ex, ey, ef, eg, em, ez, computeTheta, ss_sub]
    have exy : a = b → x = y ∧ f = g := by
      intro e
      subst e
      rw [ex] at ey
      obtain rfl : x = y := by simpa using ey
      rw [ef] at eg
      exact ⟨rfl, by simpa using eg⟩
    have hdn := den_code hp exy edn hne
    rw [hdn, satR_eq, satH_eq, dd_add, two_eq, four_eq, ofInt_eq, ss_add,
      si_div _ _ (by norm_num), rnd_two hp, ss_sub, id_mul, rnd_two hpd, id_div _ hH0, dd_div_of _ hRp, ss_div _ hne, is_mul,
      rnd_four hp]
    simp only [cos_sgl, sin_sgl, dd_mul, dd_sub, toFloating_dbl, ds_mul, ss_mul, ds_sub]
    have e3 : q.d.rnd (Fl.fR q.d + Fl.fH q.d) = Fl.fRH q.d := rfl
    rw [e3, ← ed', sqrt_dbl hP, dd_sub, toFloating_dbl, is_mul, rnd_four hp, sd_mul, ds_div _ hne, toFloating_dbl]
  · have k1 := hquot 82 (by norm_num)
    have k2 := hlin 6 (by norm_num)
    have k3 : (82 / 0.00174 : ℝ) * ε / zenithGap a b + 140 * 6 * ε / zenithGap a b ≤ 48000 * ε / zenithGap a b := by
      rw [← add_div, ← add_mul]
      gcongr
      norm_num
    linarith
  · have k1 := hquot 1.5 (by norm_num)
    have k2 := hlin 0.2 (by norm_num)
    have k3 : (1.5 / 0.00174 : ℝ) * ε / zenithGap a b + 140 * 0.2 * ε / zenithGap a b ≤ 900 * ε / zenithGap a b := by
      rw [← add_div, ← add_mul]
      gcongr
      norm_num
    linarith
  · rw [abs_mul, abs_of_pos (by norm_num : (0 : ℝ) < 4), abs_div]
    have : |(Ta + Tb) / 2 - (zetaR M - M)| / |D| ≤ 1 / 2 := by
      rw [div_le_iff₀ hDp]; linarith
    linarith

end Verif.Mx
