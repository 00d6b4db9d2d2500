import Verif.Props.MxWeights

/-!
# C98: nearly equal zenith angles

`_compute_expansion_alignment` divides by the difference of the angles of the two tie points at the centre of the Earth, and by twice
the angle if they are equal (_modis_interpolator.pyx:61-64).  The expansion coefficient stays within 2.  The alignment coefficient
does not: its numerator does not vanish with the difference.
-/

namespace Verif.Props
open Verif Verif.Modis Verif.Spec.Modis Verif.Geo Verif.Err Verif.FP Verif.Mx

/-! ### lower bounds -/

/-- difference of the two cosines -/
private theorem align_lower {p : ℝ} (h : |p| ≤ mTop) : 0.1112 ≤ kap⁻¹ * Real.cos p - Real.cos (zetaR p) := by
  have hs := sin_zetaR h
  have hc := cos_of_le_mTop h
  have hz := cos_zetaR h
  obtain ⟨h2, h3⟩ := inv_kap_bounds
  have e1 := Real.sin_sq_add_cos_sq p
  have e2 := Real.sin_sq_add_cos_sq (zetaR p)
  have c1 := Real.cos_le_one p
  have c2 := Real.cos_le_one (zetaR p)
  rw [hs] at e2
  clear hs
  generalize Real.cos (zetaR p) = z at *
  generalize Real.cos p = c at *
  generalize kap⁻¹ = K at *
  have e3 : (K * c - z) * (K * c + z) = K ^ 2 - 1 := by linear_combination K ^ 2 * e1 - e2
  have hc0 : 0 < c := lt_of_lt_of_le (by norm_num) hc
  have hz0 : 0 < z := lt_of_lt_of_le (by norm_num) hz
  have hK : 0 < K := by linarith
  have e4 : 0 < K * c + z := by positivity
  have e5 : K * c + z ≤ K + 1 := by nlinarith
  have e6 : 0 ≤ K * c - z := by
    by_contra hn
    push Not at hn
    nlinarith [mul_pos_of_neg_of_neg hn (neg_neg_of_pos e4)]
  have e7 : (K - 1) * (K + 1) ≤ (K * c - z) * (K + 1) := by
    calc (K - 1) * (K + 1) = (K * c - z) * (K * c + z) := by rw [e3]; ring
      _ ≤ _ := mul_le_mul_of_nonneg_left e5 e6
  have := le_of_mul_le_mul_right e7 (by linarith)
  norm_num at h2 ⊢
  linarith

/-- the sagitta -/
private theorem sag_lower {C d : ℝ} (hC : 0.32 ≤ C) (hC1 : C ≤ 1) (hd : |d| ≤ 0.00099) : d * d / 2 ≤ C - √(C * C - d * d) := by
  obtain ⟨h1, h2, -, h4⟩ := sag_bounds hC hd
  generalize √(C * C - d * d) = s at *
  have e : (C - s) * (C + s) = d * d := by linear_combination -h4
  have : C + s ≤ 2 := by linarith
  nlinarith

private theorem sag_upper {C d : ℝ} (hC : 0.32 ≤ C) (hd : |d| ≤ 0.00099) : C - √(C * C - d * d) ≤ d * d / 0.639 := by
  obtain ⟨h1, h2, -, h4⟩ := sag_bounds hC hd
  generalize √(C * C - d * d) = s at *
  have e : (C - s) * (C + s) = d * d := by linear_combination -h4
  have : 0.639 ≤ C + s := by norm_num at *; linarith
  rw [le_div_iff₀ (by norm_num), ← e]
  exact mul_le_mul_of_nonneg_left this h2

/-- the angle at the satellite is increasing -/
private theorem phiR_mono {x y : ℝ} (hx : -(Real.pi / 2) ≤ x) (hy : y ≤ Real.pi / 2) (h : x ≤ y) : phiR x ≤ phiR y := by
  apply Real.monotone_arcsin
  exact mul_le_mul_of_nonneg_left (Real.sin_le_sin_of_le_of_le_pi_div_two hx hy h) kap_pos.le

/-- the angle at the centre is increasing -/
private theorem theta_lt {x y : ℝ} (h : x < y) : x - phiR x < y - phiR y := by
  have h1 := phiR_lip y x
  rw [abs_of_pos (by linarith : 0 < y - x)] at h1
  have h2 := (abs_le.1 h1).2
  have h3 := kap_lt
  nlinarith

/-- the pieces of the alignment coefficient -/
private theorem pieces (w : Nat) (hw : w ≤ 5) {a b : ℝ} (ha : |a| ≤ 70) (hb : |b| ≤ 70) :
    let A := Spec.rad a
    let B := Spec.rad b
    let M := (phiR A + phiR B) / 2
    let Z := zetaR M
    let d := ((Rk + Hk) / Rk * Real.cos M - Real.cos Z) * (((w : ℤ) : ℝ) / (2 * Hk))
    let E := Real.cos Z - √(Real.cos Z * Real.cos Z - d * d)
    |M| ≤ mTop ∧ 0.00000000307 * (w : ℝ) ^ 2 ≤ E ∧ E ≤ 0.000000062 * (w : ℝ) ^ 2 := by
  intro A B M Z d E
  have h1 := phiR_70 ((abs_sin_70 ha).trans (by norm_num))
  have h2 := phiR_70 ((abs_sin_70 hb).trans (by norm_num))
  have hM : |M| ≤ mTop := by have := mean_mTop h1 h2; show |(phiR A + phiR B) / 2| ≤ _; linarith
  have hH : 2 * Hk = 1418 := by norm_num [Hk]
  have hw' : ((w : ℤ) : ℝ) ≤ 5 := by exact_mod_cast hw
  have hw0 : (0 : ℝ) ≤ ((w : ℤ) : ℝ) := by positivity
  obtain ⟨g1, g2⟩ := align_bounds hM
  have g3 := align_lower hM
  have hcz := cos_zetaR hM
  have hd0 : 0 ≤ ((w : ℤ) : ℝ) / (2 * Hk) := by rw [hH]; positivity
  have hd : |d| ≤ 0.00099 := by
    show |((Rk + Hk) / Rk * Real.cos M - Real.cos Z) * (((w : ℤ) : ℝ) / (2 * Hk))| ≤ _
    rw [inv_kap, abs_mul, abs_of_nonneg g1, abs_of_nonneg hd0]
    calc _ ≤ 0.28 * 0.003527 := mul_le_mul g2 (by rw [hH]; linarith) hd0 (by norm_num)
      _ ≤ _ := by norm_num
  have hd' : 0.1112 * (w / 1418) ≤ d := by
    show _ ≤ ((Rk + Hk) / Rk * Real.cos M - Real.cos Z) * (((w : ℤ) : ℝ) / (2 * Hk))
    rw [inv_kap, hH]
    push_cast
    exact mul_le_mul_of_nonneg_right g3 (by positivity)
  have hC : 0.32 ≤ Real.cos Z := by show _ ≤ Real.cos (zetaR M); linarith
  have hd'' : |d| ≤ 0.28 * (w / 1418) := by
    show |((Rk + Hk) / Rk * Real.cos M - Real.cos Z) * (((w : ℤ) : ℝ) / (2 * Hk))| ≤ _
    rw [inv_kap, abs_mul, abs_of_nonneg g1, abs_of_nonneg hd0, hH]
    push_cast
    exact mul_le_mul_of_nonneg_right g2 (by positivity)
  refine ⟨hM, ?_, ?_⟩
  rotate_left
  · refine (sag_upper hC hd).trans ?_
    have hq := mul_le_mul hd'' hd'' (abs_nonneg _) (by positivity)
    rw [abs_mul_abs_self] at hq
    rw [div_le_iff₀ (by norm_num)]
    nlinarith [sq_nonneg (w : ℝ)]
  refine le_trans ?_ (sag_lower hC (Real.cos_le_one _) hd)
  have hq : (0.1112 * ((w : ℝ) / 1418)) * (0.1112 * (w / 1418)) ≤ d * d :=
    mul_le_mul hd' hd' (by positivity) (le_trans (by positivity) hd')
  nlinarith [sq_nonneg (w : ℝ)]

/-- **C98 (expansion)**: the expansion coefficient of two zenith angles of at most 70 degrees, not both zero, is at most 2, however
close the angles are. -/
theorem C98_expansion (w : Nat) (hw : w ≤ 5) {a b : ℝ} (ha : |a| ≤ 70) (hb : |b| ≤ 70) (h0 : ¬ (a = 0 ∧ b = 0)) :
    ∃ ce, (expansionAlignment w (val a : FP ℝ) (val b)).1 = val ce ∧ |ce| ≤ 2 := by
  have hex := expansionAlignment_exact w hw ha hb (fun e e0 => h0 ⟨e0, e ▸ e0⟩)
  simp only at hex
  rw [hex]
  refine ⟨_, rfl, ?_⟩
  have hpi := Real.pi_gt_three
  have sA := (abs_sin_70 ha).trans (by norm_num : (0.94 : ℝ) ≤ 0.941)
  have sB := (abs_sin_70 hb).trans (by norm_num : (0.94 : ℝ) ≤ 0.941)
  have hA : |Spec.rad a| ≤ Real.pi / 2 := (rad_70 ha).trans (by norm_num; linarith)
  have hB : |Spec.rad b| ≤ Real.pi / 2 := (rad_70 hb).trans (by norm_num; linarith)
  have hN := expansion_num hA hB sA sB
  rw [abs_mul, abs_of_pos (by norm_num : (0 : ℝ) < 4), abs_div]
  by_cases e : a = b
  · subst e
    rw [sub_self, abs_zero, zero_div] at hN
    have : |(Spec.rad a - phiR (Spec.rad a) + (Spec.rad a - phiR (Spec.rad a))) / 2
      - (zetaR ((phiR (Spec.rad a) + phiR (Spec.rad a)) / 2) - (phiR (Spec.rad a) + phiR (Spec.rad a)) / 2)| = 0 :=
      le_antisymm hN (abs_nonneg _)
    rw [this]; norm_num
  · rw [if_neg e]
    have : |(Spec.rad a - phiR (Spec.rad a) + (Spec.rad b - phiR (Spec.rad b))) / 2
        - (zetaR ((phiR (Spec.rad a) + phiR (Spec.rad b)) / 2) - (phiR (Spec.rad a) + phiR (Spec.rad b)) / 2)|
        / |Spec.rad a - phiR (Spec.rad a) - (Spec.rad b - phiR (Spec.rad b))| ≤ 1 / 2 :=
      div_le_of_le_mul₀ (abs_nonneg _) (by norm_num) (by linarith)
    linarith

example : ∃ ce, (expansionAlignment 1 (val 45 : FP ℝ) (val 45.000001)).1 = val ce ∧ |ce| ≤ 2 :=
  C98_expansion 1 (by norm_num) (by norm_num [abs_le]) (by norm_num [abs_le]) (by norm_num)

/-- **C98 (alignment)**: the alignment coefficient is at most `0.000143 w²` divided by the difference of the angles (degrees), or by
twice the angle if they are equal; `w` the width of the scan in km. -/
theorem C98_alignment_sharp (w : Nat) (hw : w ≤ 5) {a b : ℝ} (ha : |a| ≤ 70) (hb : |b| ≤ 70) (h0 : ¬ (a = 0 ∧ b = 0)) :
    ∃ ca, (expansionAlignment w (val a : FP ℝ) (val b)).2 = val ca ∧ |ca| ≤ 0.000143 * (w : ℝ) ^ 2 / zenithGap a b := by
  have hex := expansionAlignment_exact w hw ha hb (fun e e0 => h0 ⟨e0, e ▸ e0⟩)
  obtain ⟨hM, e1, e2⟩ := pieces w hw ha hb
  simp only at hex
  rw [hex]
  refine ⟨_, rfl, ?_⟩
  obtain ⟨A, eA⟩ : ∃ A, A = Spec.rad a := ⟨_, rfl⟩
  obtain ⟨B, eB⟩ : ∃ B, B = Spec.rad b := ⟨_, rfl⟩
  obtain ⟨D, eD⟩ : ∃ D, D = if a = b then (A - phiR A) * 2 else (A - phiR A) - (B - phiR B) := ⟨_, rfl⟩
  have hDg : 0.00174 * zenithGap a b ≤ |D| := by
    rw [eD]
    by_cases e : a = b
    · rw [if_pos e, ← e, zenithGap_self, abs_mul, abs_two]
      have := theta_apart (b := 0) A 0 eA (by simp [Spec.rad])
      rw [phiR_zero, sub_zero, sub_zero, sub_zero] at this
      linarith
    · rw [if_neg e, zenithGap_of_ne e]
      exact theta_apart A B eA eB
  rw [← eA, ← eB] at e1 e2 hM ⊢
  rw [← eD]
  have hg : 0 < zenithGap a b := by
    unfold zenithGap
    split
    · next e =>
      have : a ≠ 0 := fun e0 => h0 ⟨e0, e ▸ e0⟩
      positivity
    · next e => exact abs_pos.2 (sub_ne_zero.2 e)
  have hD : 0 < |D| := lt_of_lt_of_le (by positivity) hDg
  obtain ⟨E, eE⟩ : ∃ E, E = Real.cos (zetaR ((phiR A + phiR B) / 2)) - √(Real.cos (zetaR ((phiR A + phiR B) / 2))
      * Real.cos (zetaR ((phiR A + phiR B) / 2)) - ((Rk + Hk) / Rk * Real.cos ((phiR A + phiR B) / 2)
      - Real.cos (zetaR ((phiR A + phiR B) / 2))) * (((w : ℤ) : ℝ) / (2 * Hk)) * (((Rk + Hk) / Rk * Real.cos ((phiR A + phiR B) / 2)
      - Real.cos (zetaR ((phiR A + phiR B) / 2))) * (((w : ℤ) : ℝ) / (2 * Hk)))) := ⟨_, rfl⟩
  rw [← eE] at e1 e2 ⊢
  have hE0 : 0 ≤ E := le_trans (by positivity) e1
  rw [abs_div, abs_mul, abs_mul, abs_of_pos (by norm_num : (0 : ℝ) < 4), abs_of_nonneg hE0, div_le_div_iff₀ hD hg]
  have s1 := Real.abs_sin_le_one (zetaR ((phiR A + phiR B) / 2))
  calc 4 * E * |Real.sin (zetaR ((phiR A + phiR B) / 2))| * zenithGap a b ≤ 4 * (0.000000062 * (w : ℝ) ^ 2) * 1 * zenithGap a b := by gcongr
    _ ≤ 0.000143 * (w : ℝ) ^ 2 * (0.00174 * zenithGap a b) := by nlinarith [mul_nonneg (sq_nonneg (w : ℝ)) hg.le]
    _ ≤ _ := mul_le_mul_of_nonneg_left hDg (by positivity)

/-- **C98 (alignment)**: at most 0.0072 divided by the difference, for the two widths. -/
theorem C98_alignment (w : Nat) (hw : w ≤ 5) {a b : ℝ} (ha : |a| ≤ 70) (hb : |b| ≤ 70) (h0 : ¬ (a = 0 ∧ b = 0)) :
    ∃ ca, (expansionAlignment w (val a : FP ℝ) (val b)).2 = val ca ∧ |ca| ≤ 0.0072 / zenithGap a b := by
  obtain ⟨ca, h1, h2⟩ := C98_alignment_sharp w hw ha hb h0
  refine ⟨ca, h1, h2.trans ?_⟩
  have hg : 0 ≤ zenithGap a b := by unfold zenithGap; split <;> positivity
  refine div_le_div_of_nonneg_right ?_ hg
  have : (w : ℝ) ≤ 5 := by exact_mod_cast hw
  nlinarith [(Nat.cast_nonneg w : (0 : ℝ) ≤ w)]

/-- 1 km data, one degree apart: at most 0.00015 -/
example : ∃ ca, (expansionAlignment 1 (val 45 : FP ℝ) (val 46)).2 = val ca ∧ |ca| ≤ 0.00015 := by
  obtain ⟨ca, h1, h2⟩ := C98_alignment_sharp 1 (by norm_num) (a := 45) (b := 46) (by norm_num [abs_le]) (by norm_num [abs_le]) (by norm_num)
  refine ⟨ca, h1, h2.trans ?_⟩
  norm_num [zenithGap, abs_of_neg]

example : ∃ ca, (expansionAlignment 1 (val 45 : FP ℝ) (val 46)).2 = val ca ∧ |ca| ≤ 0.0072 / zenithGap (45 : ℝ) 46 :=
  C98_alignment 1 (by norm_num) (by norm_num [abs_le]) (by norm_num [abs_le]) (by norm_num)

/-- **C98 (divergence)**: for two different zenith angles between 30 and 70 degrees the alignment coefficient is at least
`0.00000034 w² / |a - b|` in absolute value, `w` the width of the scan in km (1 or 5), with the sign of `a - b`. -/
theorem C98_diverges (w : Nat) (hw : w ≤ 5) {a b : ℝ} (ha : 30 ≤ a) (ha' : a ≤ 70) (hb : 30 ≤ b) (hb' : b ≤ 70) (hab : a ≠ b) :
    ∃ ca, (expansionAlignment w (val a : FP ℝ) (val b)).2 = val ca ∧
      (a < b → ca ≤ -(0.00000034 * (w : ℝ) ^ 2 / (b - a))) ∧ (b < a → 0.00000034 * (w : ℝ) ^ 2 / (a - b) ≤ ca) := by
  have ha70 : |a| ≤ 70 := abs_le.2 ⟨by linarith, ha'⟩
  have hb70 : |b| ≤ 70 := abs_le.2 ⟨by linarith, hb'⟩
  have hex := expansionAlignment_exact w hw ha70 hb70 (fun e => absurd e hab)
  obtain ⟨hM, e1, e2⟩ := pieces w hw ha70 hb70
  simp only at hex
  rw [hex, if_neg hab]
  refine ⟨_, rfl, ?_⟩
  have hpi := Real.pi_pos
  have hpi4 := Real.pi_lt_d4
  have r1 : ∀ {z : ℝ}, 30 ≤ z → Real.pi / 6 ≤ Spec.rad z := by
    intro z hz; unfold Spec.rad; nlinarith
  have r2 : ∀ {z : ℝ}, z ≤ 70 → Spec.rad z ≤ Real.pi / 2 := by
    intro z hz; unfold Spec.rad; nlinarith
  have hA1 := r1 ha
  have hA2 := r2 ha'
  have hB1 := r1 hb
  have hB2 := r2 hb'
  have eAB : Spec.rad a - Spec.rad b = (a - b) * (Real.pi / 180) := by unfold Spec.rad; ring
  obtain ⟨A, eA⟩ : ∃ A, A = Spec.rad a := ⟨_, rfl⟩
  obtain ⟨B, eB⟩ : ∃ B, B = Spec.rad b := ⟨_, rfl⟩
  rw [← eA] at e1 e2 hM hA1 hA2 eAB ⊢
  rw [← eB] at e1 e2 hM hB1 hB2 eAB ⊢
  have hlip := theta_lip (x := A) (y := B) (abs_le.2 ⟨by linarith, hA2⟩) (abs_le.2 ⟨by linarith, hB2⟩)
  -- sine of the angle of the mean
  have pA := phiR_mono (x := Real.pi / 6) (y := A) (by linarith) hA2 hA1
  have pB := phiR_mono (x := Real.pi / 6) (y := B) (by linarith) hB2 hB1
  obtain ⟨M, eM⟩ : ∃ M, M = (phiR A + phiR B) / 2 := ⟨_, rfl⟩
  rw [← eM] at e1 e2 hM ⊢
  have hMl : phiR (Real.pi / 6) ≤ M := by rw [eM]; linarith
  have hsin : 1 / 2 ≤ Real.sin (zetaR M) := by
    rw [sin_zetaR hM, ← Real.sin_pi_div_six]
    have h1 : kap * Real.sin (Real.pi / 6) ≤ Real.sin M := by
      rw [← sin_phiR]
      have hMp := (abs_le.1 hM).2
      have := mTop_lt
      have h3 := Real.pi_gt_three
      exact Real.sin_le_sin_of_le_of_le_pi_div_two (Real.neg_pi_div_two_le_arcsin _) (by norm_num at this; linarith) hMl
    rw [← div_eq_inv_mul, le_div_iff₀ kap_pos]
    linarith
  obtain ⟨E, eE⟩ : ∃ E, E = Real.cos (zetaR M) - √(Real.cos (zetaR M) * Real.cos (zetaR M) - ((Rk + Hk) / Rk * Real.cos M
      - Real.cos (zetaR M)) * (((w : ℤ) : ℝ) / (2 * Hk)) * (((Rk + Hk) / Rk * Real.cos M - Real.cos (zetaR M))
      * (((w : ℤ) : ℝ) / (2 * Hk)))) := ⟨_, rfl⟩
  rw [← eE] at e1 e2 ⊢
  have hN : 0.00000000614 * (w : ℝ) ^ 2 ≤ 4 * E * Real.sin (zetaR M) := by
    have hw2 : 0 ≤ (w : ℝ) ^ 2 := by positivity
    have hE0 : 0 ≤ E := le_trans (by positivity) e1
    calc 0.00000000614 * (w : ℝ) ^ 2 = 4 * (0.00000000307 * (w : ℝ) ^ 2) * (1 / 2) := by ring
      _ ≤ 4 * E * (1 / 2) := by linarith
      _ ≤ _ := mul_le_mul_of_nonneg_left hsin (by linarith)
  obtain ⟨N, eN⟩ : ∃ N, N = 4 * E * Real.sin (zetaR M) := ⟨_, rfl⟩
  rw [← eN] at hN ⊢
  have hN0 : 0 ≤ N := le_trans (by positivity) hN
  have key : ∀ D g : ℝ, 0 < D → 0 < g → D ≤ g * (Real.pi / 180) → 0.00000034 * (w : ℝ) ^ 2 / g ≤ N / D := by
    intro D g hD hg hDg
    rw [div_le_div_iff₀ hg hD]
    calc 0.00000034 * (w : ℝ) ^ 2 * D ≤ 0.00000034 * (w : ℝ) ^ 2 * (g * (Real.pi / 180)) := by gcongr
      _ ≤ 0.00000000614 * (w : ℝ) ^ 2 * g := by
        have : 0 ≤ (w : ℝ) ^ 2 * g := by positivity
        norm_num at hpi4 ⊢
        nlinarith
      _ ≤ _ := by gcongr
  constructor
  · intro h
    have hl : A < B := by rw [eA, eB]; unfold Spec.rad; nlinarith
    have ht := theta_lt hl
    rw [abs_of_neg (by linarith), abs_of_neg (by linarith), eAB] at hlip
    have := key (-((A - phiR A) - (B - phiR B))) (b - a) (by linarith) (by linarith) (by linarith)
    rw [div_neg] at this
    linarith
  · intro h
    have hl : B < A := by rw [eA, eB]; unfold Spec.rad; nlinarith
    have ht := theta_lt hl
    rw [abs_of_pos (by linarith), abs_of_pos (by linarith), eAB] at hlip
    exact key _ (a - b) (by linarith) (by linarith) hlip

example : ∃ ca, (expansionAlignment 1 (val 45 : FP ℝ) (val 45.0000001)).2 = val ca ∧ ca ≤ -3.4 := by
  obtain ⟨ca, h1, h2, -⟩ := C98_diverges 1 (by norm_num) (a := 45) (b := 45.0000001) (by norm_num) (by norm_num) (by norm_num)
    (by norm_num) (by norm_num)
  refine ⟨ca, h1, (h2 (by norm_num)).trans ?_⟩
  norm_num

/-! ### the weights of a pixel -/

/-- the weights of a pixel from the coefficients of its cell -/
theorem weights_val (c : Conv) (w : Nat) {r k : Nat} (hr : r < c.scanRows * c.factor) (hk : k < c.outCols)
    (i0 : Nat) :
    ∃ T σ : ℝ, -0.5 ≤ T ∧ T ≤ 1.85 ∧ rowPos c w r = val ((cellRow (c.cfg w) r : ℝ) + T) ∧ colPos c w k = val ((cellCol (c.cfg w) k : ℝ) + σ) ∧
      -0.4 ≤ σ ∧ σ ≤ 2.2 ∧ ∀ (satz : Nat → Nat → FP ℝ) (Ce Ca : ℝ), expansionAlignment (c.cfg w).perKm (satz (i0 + cellRow (c.cfg w) r)
        (cellCol (c.cfg w) k)) (satz (i0 + cellRow (c.cfg w) r) (cellCol (c.cfg w) k + 1)) = (val Ce, val Ca) →
        trackScan (c.cfg w) satz i0 r k = (val T, val (σ + σ * (1 - σ) * Ce + T * (1 - T) * Ca)) := by
  obtain ⟨x, y, -, x2, -, y2, b1, b2, b3, b4⟩ := coords_mx (q := Mixed.ieee) prec_ieee.hp c w hr hk
  have hf2 : 2 ≤ c.factor ∧ c.factor ≤ 20 := by cases c <;> simp [Conv.factor]
  have hF : (c.factor : ℝ) ≠ 0 := by have := hf2.1; positivity
  have hF' : (((c.factor : ℕ) : ℤ) : ℝ) ≠ 0 := by exact_mod_cast hF
  have hf : (c.cfg w).f = c.factor := c.cfg_f w
  refine ⟨y / c.factor, x / c.factor, b3, b4, ?_, ?_, b1, b2, fun satz Ce Ca h => ?_⟩
  · unfold rowPos
    rw [y2, hf, FP.ofInt_eq, FP.val_div_of_ne _ hF', FP.val_add]
    push_cast
    rfl
  · unfold colPos
    rw [x2, hf, FP.ofInt_eq, FP.val_div_of_ne _ hF', FP.val_add]
    push_cast
    rfl
  · unfold trackScan
    simp only []
    rw [h, x2, y2]
    unfold atrackAscan
    simp only [hf, FP.ofInt_eq, FP.one_eq]
    rw [FP.val_div_of_ne _ hF', FP.val_div_of_ne _ hF']
    simp only [FP.val_sub, FP.val_mul, FP.val_add]
    push_cast
    rfl

/-- **C98 (weights)**: for zenith angles of at most 70 degrees, not both zero, the scan weight of a pixel is within
`2 |σ (1 - σ)| + 0.02 / g` of its position `σ` in the cell, `g` the difference of the angles in degrees (twice the angle if they are
equal). -/
theorem C98_weights (c : Conv) (w : Nat) {r k : Nat} (hr : r < c.scanRows * c.factor) (hk : k < c.outCols)
    (satz : Nat → Nat → ℝ) (i0 : Nat) {a b : ℝ} (ea : a = satz (i0 + cellRow (c.cfg w) r) (cellCol (c.cfg w) k))
    (eb : b = satz (i0 + cellRow (c.cfg w) r) (cellCol (c.cfg w) k + 1)) (ha : |a| ≤ 70) (hb : |b| ≤ 70) (h0 : ¬ (a = 0 ∧ b = 0)) :
    ∃ T S σ, trackScan (c.cfg w) (fun i j => (val (satz i j) : FP ℝ)) i0 r k = (val T, val S) ∧ rowPos c w r = val ((cellRow (c.cfg w) r : ℝ) + T) ∧
      colPos c w k = val ((cellCol (c.cfg w) k : ℝ) + σ) ∧ |S - σ| ≤ 2 * |σ * (1 - σ)| + 0.02 / zenithGap a b := by
  obtain ⟨T, σ, b3, b4, y1, x1, -, -, key⟩ := weights_val c w hr hk i0
  have hper : (c.cfg w).perKm ≤ 5 := by cases c <;> simp [Conv.cfg]
  obtain ⟨ce, e1, e2⟩ := C98_expansion _ hper ha hb h0
  obtain ⟨ca, f1, f2⟩ := C98_alignment _ hper ha hb h0
  refine ⟨T, _, σ, key _ ce ca ?_, y1, x1, ?_⟩
  · rw [← ea, ← eb, ← e1, ← f1]
  · have hg : 0 ≤ zenithGap a b := by unfold zenithGap; split <;> positivity
    rw [add_assoc, add_sub_cancel_left]
    refine (abs_add_le _ _).trans ?_
    rw [abs_mul _ ce, abs_mul _ ca]
    have g1 := mul_le_mul_of_nonneg_left e2 (abs_nonneg (σ * (1 - σ)))
    have g2 : |T * (1 - T)| ≤ 2.775 := by
      rw [abs_mul]
      refine (mul_le_mul (abs_le.2 ⟨?_, b4⟩) (abs_le.2 ⟨?_, ?_⟩ : |1 - T| ≤ 1.5) (abs_nonneg _) (by norm_num)).trans (by norm_num) <;>
        (norm_num at *; linarith)
    have g3 : |T * (1 - T)| * |ca| ≤ 2.775 * (0.0072 / zenithGap a b) := mul_le_mul g2 f2 (abs_nonneg _) (by norm_num)
    have g4 : 2.775 * (0.0072 / zenithGap a b) ≤ 0.02 / zenithGap a b := by
      rw [← mul_div_assoc]
      exact div_le_div_of_nonneg_right (by norm_num) hg
    linarith

/-- zenith angles 45 and 45.5 degrees, the column in the middle of the cell: the scan weight within 0.54 of 0.5 -/
example : ∃ T S, trackScan (Conv.km1to500.cfg 1354) (fun _ j => (val (45 + 0.5 * (j : ℝ)) : FP ℝ)) 0 3 1 = (val T, val S) ∧
    |S - 1 / 2| ≤ 0.54 := by
  obtain ⟨T, S, σ, h1, -, h3, h4⟩ := C98_weights .km1to500 1354 (r := 3) (k := 1) (by decide) (by decide)
    (fun _ j => 45 + 0.5 * (j : ℝ)) 0 (a := 45) (b := 45.5) (by norm_num [cellCol, Conv.cfg]) (by norm_num [cellCol, Conv.cfg])
    (by norm_num [abs_le]) (by norm_num [abs_le]) (by norm_num)
  rw [C31_cols_1km_partial .km1to500 (Or.inl rfl) 1354 1 (by decide), FP.val.injEq] at h3
  obtain rfl : σ = 1 / 2 := by norm_num [cellCol, Conv.cfg, Conv.factor] at h3; linarith
  refine ⟨T, S, h1, h4.trans ?_⟩
  norm_num [zenithGap, abs_of_neg, abs_of_pos]

/-- **C98, negation (weights)**: no bound holds for all angles.  For every pixel that is not in the row of a tie point there are, for
every number `K`, an angle `b` within a degree of 45 such that the scan weight of the pixel exceeds `K` if its cell has the angles
45 and `b`, and one such that it is below `-K`. -/
theorem C98_negation_weights (c : Conv) (w : Nat) {r k : Nat} (hr : r < c.scanRows * c.factor) (hk : k < c.outCols)
    (i0 : Nat) (h0 : rowPos c w r ≠ val (cellRow (c.cfg w) r : ℝ))
    (h1 : rowPos c w r ≠ val ((cellRow (c.cfg w) r : ℝ) + 1)) (K : ℝ) (up : Bool) :
    ∃ b S : ℝ, |b - 45| ≤ 1 ∧ (if up then K < S else S < -K) ∧ ∀ satz : Nat → Nat → FP ℝ,
      satz (i0 + cellRow (c.cfg w) r) (cellCol (c.cfg w) k) = val 45 →
      satz (i0 + cellRow (c.cfg w) r) (cellCol (c.cfg w) k + 1) = val b → (trackScan (c.cfg w) satz i0 r k).2 = val S := by
  obtain ⟨T, σ, b3, b4, y1, x1, s1, s2, key⟩ := weights_val c w hr hk i0
  have hper : (c.cfg w).perKm ≤ 5 := by cases c <;> simp [Conv.cfg]
  have hper1 : 1 ≤ (c.cfg w).perKm := by cases c <;> simp [Conv.cfg]
  have hT0 : T ≠ 0 := fun e => h0 (by rw [y1, e, add_zero])
  have hT1 : 1 - T ≠ 0 := fun e => h1 (by rw [y1, ← sub_eq_zero.1 e])
  have hσ : |σ * (1 - σ)| ≤ 3.08 := by
    rw [abs_mul]
    refine (mul_le_mul (abs_le.2 ⟨?_, s2⟩) (abs_le.2 ⟨?_, ?_⟩ : |1 - σ| ≤ 1.4) (abs_nonneg _) (by norm_num)).trans (by norm_num) <;>
      (norm_num at *; linarith)
  obtain ⟨X, eX⟩ : ∃ X, X = T * (1 - T) := ⟨_, rfl⟩
  have hX : X ≠ 0 := by rw [eX]; exact mul_ne_zero hT0 hT1
  have hXp := abs_pos.2 hX
  -- the size of the difference
  obtain ⟨L, eL⟩ : ∃ L, L = |K| + 10 := ⟨_, rfl⟩
  have hL : 0 < L := by rw [eL]; positivity
  obtain ⟨g, eg⟩ : ∃ g, g = min 1 (0.00000034 * |X| / L) := ⟨_, rfl⟩
  have hg0 : 0 < g := by rw [eg]; exact lt_min (by norm_num) (by positivity)
  have hg1 : g ≤ 1 := by rw [eg]; exact min_le_left _ _
  have hgL : L ≤ |X| * (0.00000034 * ((c.cfg w).perKm : ℝ) ^ 2 / g) := by
    have : g ≤ 0.00000034 * |X| / L := by rw [eg]; exact min_le_right _ _
    rw [le_div_iff₀ hL] at this
    have hp2 : (1 : ℝ) ≤ ((c.cfg w).perKm : ℝ) ^ 2 := by
      have : (1 : ℝ) ≤ (c.cfg w).perKm := by exact_mod_cast hper1
      nlinarith
    rw [← mul_div_assoc, le_div_iff₀ hg0]
    nlinarith [mul_le_mul_of_nonneg_left hp2 (by positivity : 0 ≤ 0.00000034 * |X|)]
  -- the coefficients for an angle at distance `g`, on either side
  have main : ∀ b : ℝ, (b = 45 + g ∨ b = 45 - g) → ∃ Ce Ca : ℝ, expansionAlignment (c.cfg w).perKm (val 45 : FP ℝ) (val b) = (val Ce, val Ca)
      ∧ |Ce| ≤ 2 ∧ (b = 45 + g → Ca ≤ -(0.00000034 * ((c.cfg w).perKm : ℝ) ^ 2 / g)) ∧
        (b = 45 - g → 0.00000034 * ((c.cfg w).perKm : ℝ) ^ 2 / g ≤ Ca) := by
    intro b hb
    have hb1 : 44 ≤ b := by rcases hb with rfl | rfl <;> linarith
    have hb2 : b ≤ 46 := by rcases hb with rfl | rfl <;> linarith
    obtain ⟨ce, e1, e2⟩ := C98_expansion _ hper (a := 45) (b := b) (by norm_num [abs_le]) (abs_le.2 ⟨by linarith, by linarith⟩) (by norm_num)
    obtain ⟨ca, f1, f2, f3⟩ := C98_diverges _ hper (a := 45) (b := b) (by norm_num) (by norm_num) (by linarith) (by linarith)
      (by rcases hb with rfl | rfl <;> intro e <;> linarith)
    refine ⟨ce, ca, by rw [← e1, ← f1], e2, fun e => ?_, fun e => ?_⟩
    · have := f2 (by linarith)
      rwa [e, add_sub_cancel_left] at this
    · have := f3 (by linarith)
      rwa [e, sub_sub_cancel] at this
  have size : ∀ Ce : ℝ, |Ce| ≤ 2 → |σ + σ * (1 - σ) * Ce| < 10 := by
    intro Ce hCe
    refine lt_of_le_of_lt (abs_add_le _ _) ?_
    rw [abs_mul _ Ce]
    have k1 : |σ| ≤ 2.2 := abs_le.2 ⟨by norm_num at *; linarith, s2⟩
    have k2 : |σ * (1 - σ)| * |Ce| ≤ 3.08 * 2 := mul_le_mul hσ hCe (abs_nonneg _) (by norm_num)
    norm_num at *
    linarith
  have hK := le_abs_self K
  -- `X` times a large coefficient of the right sign
  have fin : ∀ (b Ce Ca : ℝ), (b = 45 + g ∨ b = 45 - g) → expansionAlignment (c.cfg w).perKm (val 45 : FP ℝ) (val b) = (val Ce, val Ca) →
      |Ce| ≤ 2 → (if up then L ≤ X * Ca else X * Ca ≤ -L) → ∃ b S : ℝ, |b - 45| ≤ 1 ∧ (if up then K < S else S < -K) ∧
        ∀ satz : Nat → Nat → FP ℝ, satz (i0 + cellRow (c.cfg w) r) (cellCol (c.cfg w) k) = val 45 →
          satz (i0 + cellRow (c.cfg w) r) (cellCol (c.cfg w) k + 1) = val b → (trackScan (c.cfg w) satz i0 r k).2 = val S := by
    intro b Ce Ca hb he hCe hXC
    have hs := abs_lt.1 (size Ce hCe)
    refine ⟨b, σ + σ * (1 - σ) * Ce + T * (1 - T) * Ca, ?_, ?_, fun satz z1 z2 => ?_⟩
    · rcases hb with rfl | rfl
      · rw [add_sub_cancel_left, abs_of_pos hg0]; exact hg1
      · rw [sub_sub_cancel_left, abs_neg, abs_of_pos hg0]; exact hg1
    · rw [← eX]
      cases up
      · rw [if_neg (by simp)] at hXC ⊢
        linarith
      · rw [if_pos rfl] at hXC ⊢
        linarith
    · rw [key satz Ce Ca (by rw [z1, z2, he])]
  obtain ⟨Ce, Ca, p1, p2, p3, -⟩ := main (45 + g) (Or.inl rfl)
  obtain ⟨Ce', Ca', q1, q2, -, q3⟩ := main (45 - g) (Or.inr rfl)
  have p3 := p3 rfl
  have q3 := q3 rfl
  obtain ⟨Q, eQ⟩ : ∃ Q, Q = 0.00000034 * ((c.cfg w).perKm : ℝ) ^ 2 / g := ⟨_, rfl⟩
  rw [← eQ] at p3 q3 hgL
  rcases lt_or_gt_of_ne hX with hn | hp
  · rw [abs_of_neg hn] at hgL
    cases up
    · exact fin _ Ce' Ca' (Or.inr rfl) q1 q2 (by rw [if_neg (by simp)]; nlinarith)
    · exact fin _ Ce Ca (Or.inl rfl) p1 p2 (by rw [if_pos rfl]; nlinarith)
  · rw [abs_of_pos hp] at hgL
    cases up
    · exact fin _ Ce Ca (Or.inl rfl) p1 p2 (by rw [if_neg (by simp)]; nlinarith)
    · exact fin _ Ce' Ca' (Or.inr rfl) q1 q2 (by rw [if_pos rfl]; nlinarith)

/-- the first row of a scan at 500 m, a scan weight beyond a million -/
example : ∃ b S : ℝ, |b - 45| ≤ 1 ∧ 1000000 < S ∧ ∀ satz : Nat → Nat → FP ℝ, satz 0 0 = val 45 → satz 0 1 = val b →
    (trackScan (Conv.km1to500.cfg 1354) satz 0 0 0).2 = val S := by
  have ht := C31_rows_1km_partial .km1to500 (Or.inl rfl) 1354 0 (by decide)
  obtain ⟨b, S, h1, h2, h3⟩ := C98_negation_weights .km1to500 1354 (r := 0) (k := 0) (by decide) (by decide) 0
    (by rw [ht]; norm_num [cellRow, Conv.cfg, Conv.factor]) (by rw [ht]; norm_num [cellRow, Conv.cfg, Conv.factor]) 1000000 true
  exact ⟨b, S, h1, by simpa using h2, h3⟩

/-! ### the position of a pixel -/

/-- a point beyond the axis, on the side of positive `y`, is reported east of 90 degrees -/
private theorem lonR_far {x y : ℝ} (hx : x < 0) (hy : 0 < y) : 90 < lonR x y := by
  have hr : 0 < rho x y := lt_of_lt_of_le (abs_pos.mpr hx.ne) (abs_le_rho _ _)
  unfold lonR
  rw [sgn_pos hy, mul_one]
  have h1 : Real.pi / 2 < Real.arccos (x / rho x y) := by
    rw [Real.arccos_eq_pi_div_two_sub_arcsin]
    have := Real.arcsin_lt_zero.2 (div_neg_of_neg_of_pos hx hr)
    linarith
  unfold Spec.deg
  have hpi := Real.pi_pos
  rw [← div_lt_iff₀ (by positivity)]
  calc 90 / (180 / Real.pi) = Real.pi / 2 := by field_simp; norm_num
    _ < _ := h1

/-- the four tie points of the example in component `k` -/
private theorem fine_edge (T S a b : ℝ) : fineComponent (val T : FP ℝ) (val S) (val a) (val b) (val b) (val a) = val (a + S * (b - a)) := by
  simp [fineComponent]
  ring

/-- **C98, negation**: the pixels are not near their tie points.  For every conversion there is a scan on the equator between the
longitudes 0 and 1, with zenith angles between 44 and 46 degrees, in which a pixel is reported east of 90 degrees. -/
theorem C98_negation (c : Conv) {W : Nat} (hW : c.WidthOk W) (junk : Nat → Nat → Nat → Nat → FP ℝ) :
    ∃ lon lat satz : Arr2 (FP ℝ), ScanInput c 1 lon lat satz ∧ lon.cols = W ∧
      (∀ i j, ∃ l, lon.cell i j = val l ∧ 0 ≤ l ∧ l ≤ 1) ∧ (∀ i j, lat.cell i j = val 0) ∧
      (∀ i j, ∃ z, satz.cell i j = val z ∧ 44 ≤ z ∧ z ≤ 46) ∧
      ∃ out l, c.run lon lat satz junk = .ok out ∧ out.1.cell 0 0 = val l ∧ 90 < l := by
  have hr : 0 < c.scanRows * c.factor := by cases c <;> decide
  have hk : 0 < c.outCols := by cases c <;> decide
  have hrow : cellRow (c.cfg W) 0 = 0 := by cases c <;> simp [cellRow, Conv.cfg]
  have hcol : cellCol (c.cfg W) 0 = 0 := by cases c <;> simp [cellCol, Conv.cfg]
  have hpos : ∃ t : ℝ, rowPos c W 0 = val t ∧ t < 0 := by
    cases c
    · exact ⟨_, C31_rows_1km_partial _ (Or.inl rfl) W 0 (by decide), by norm_num [Conv.factor]⟩
    · exact ⟨_, C31_rows_1km_partial _ (Or.inr rfl) W 0 (by decide), by norm_num [Conv.factor]⟩
    · exact ⟨_, (C31_5km_to_1km_partial W hW).1 0 (by decide), by norm_num⟩
    · exact ⟨_, (C31_negation_rows _ (Or.inl rfl) W 0).1, by norm_num [Conv.factor]⟩
    · exact ⟨_, (C31_negation_rows _ (Or.inr rfl) W 0).1, by norm_num [Conv.factor]⟩
  obtain ⟨t, ht, ht0⟩ := hpos
  obtain ⟨u, eu⟩ : ∃ u, u = Spec.rad 1 := ⟨_, rfl⟩
  have hpi := Real.pi_pos
  have hu0 : 0 < u := by rw [eu]; unfold Spec.rad; positivity
  have hu1 : u < Real.pi / 2 := by rw [eu]; unfold Spec.rad; nlinarith
  have hcos : Real.cos u < 1 := by
    rw [← Real.cos_zero]
    exact Real.cos_lt_cos_of_nonneg_of_le_pi le_rfl (by linarith) hu0
  have hsin : 0 < Real.sin u := Real.sin_pos_of_pos_of_lt_pi hu0 (by linarith)
  obtain ⟨b, S, hb, hS, key⟩ := C98_negation_weights c W hr hk 0 (by rw [ht, hrow]; simp; exact ht0.ne)
    (by rw [ht, hrow]; simp; linarith) (1 / (1 - Real.cos u)) true
  rw [if_pos rfl] at hS
  rw [hrow, hcol] at key
  have hb' := abs_le.1 hb
  have key := key (fun _ j => val (if j = 1 then b else 45)) rfl rfl
  have hts : ∃ T : ℝ, trackScan (c.cfg W) (fun _ j => (val (if j = 1 then b else 45) : FP ℝ)) 0 0 0 = (val T, val S) := by
    obtain ⟨T, σ, -, -, -, -, -, -, kk⟩ := weights_val c W hr hk 0
    have hper : (c.cfg W).perKm ≤ 5 := by cases c <;> simp [Conv.cfg]
    have h45 : |(45 : ℝ)| ≤ 70 := by norm_num [abs_le]
    have hbb : |b| ≤ 70 := abs_le.2 ⟨by linarith, by linarith⟩
    obtain ⟨ce, e1, -⟩ := C98_expansion _ hper h45 hbb (by norm_num)
    obtain ⟨ca, f1, -⟩ := C98_alignment _ hper h45 hbb (by norm_num)
    have := kk (fun _ j => val (if j = 1 then b else 45)) ce ca (by
      rw [hcol, ← e1, ← f1]; rfl)
    exact ⟨T, Prod.ext (by rw [this]) key⟩
  obtain ⟨T, hts⟩ := hts
  have h : ScanInput c 1 (⟨c.scanRows, W, fun _ j => val (if j = 0 then 0 else 1)⟩ : Arr2 (FP ℝ)) ⟨c.scanRows, W, fun _ _ => val 0⟩
      ⟨c.scanRows, W, fun _ j => val (if j = 1 then b else 45)⟩ :=
    ⟨hW, (Nat.one_mul _).symm, (Nat.one_mul _).symm, (Nat.one_mul _).symm, rfl, rfl⟩
  refine ⟨_, _, _, h, rfl, fun i j => ⟨_, rfl, ?_, ?_⟩, fun _ _ => rfl, fun i j => ⟨_, rfl, ?_, ?_⟩, ?_⟩
  · split <;> norm_num
  · split <;> norm_num
  · split <;> linarith
  · split <;> linarith
  obtain ⟨out, e, p1, -⟩ := run_pixel c h junk
  refine ⟨out, lonR (6370997 * (1 + S * (Real.cos u - 1))) (6370997 * (S * Real.sin u)), e, ?_, ?_⟩
  · rw [p1.cell 0 0 (by rw [Nat.one_mul]; exact hr) hk trivial]
    simp only [pixel, scanPixel, Nat.zero_div, Nat.zero_mul, Nat.zero_mod]
    have hx : ∀ k, ∀ lat : Nat → Nat → FP ℝ, (∀ i j, lat i j = val 0) → fineXyz (c.cfg W) (ties (fun _ j => val (if j = 0 then 0 else 1)) lat)
        (fun _ j => (val (if j = 1 then b else 45) : FP ℝ)) 0 0 0 k
        = comp (val (6370997 * (1 + S * (Real.cos u - 1))), val (6370997 * (S * Real.sin u)), val 0) k := by
      intro k lat hlat
      unfold fineXyz
      simp only [hts, hrow, hcol, ties, tieXyz, hlat, earthRadius_val, cyLonlat2xyz_eq, lonlat2xyz_val]
      unfold comp
      split
      · simp only [Nat.zero_add, if_true, if_false, one_ne_zero, fine_edge]
        congr 1
        simp only [Spec.spherePoint, ← eu]
        simp [Spec.rad]
        ring
      · split
        · simp only [Nat.zero_add, if_true, if_false, one_ne_zero, fine_edge]
          congr 1
          simp only [Spec.spherePoint, ← eu]
          simp [Spec.rad]
          ring
        · simp only [Nat.zero_add, if_true, if_false, one_ne_zero, fine_edge]
          congr 1
          simp [Spec.spherePoint, Spec.rad]
    rw [hx 0 _ (fun _ _ => rfl), hx 1 _ (fun _ _ => rfl), hx 2 _ (fun _ _ => rfl)]
    simp only [comp, if_true, if_false, one_ne_zero, OfNat.ofNat_ne_zero, OfNat.ofNat_ne_one, earthRadius_val]
    rw [show (cyThr : FP ℝ) = val (4 / 5) by simp [cyThr]; norm_num, cyXyz2lonlat_val _ _ _ _ _ _ (by norm_num)]
    refine lonFP_of_ne (lt_of_lt_of_le (abs_pos.mpr ?_) (abs_le_rho _ _))
    rw [div_lt_iff₀ (by linarith)] at hS
    exact ne_of_lt (by nlinarith)
  · have hS0 : 0 < S := lt_trans (by have : 0 < 1 - Real.cos u := by linarith
                                     positivity) hS
    rw [div_lt_iff₀ (by linarith)] at hS
    exact lonR_far (by nlinarith) (by positivity)

end Verif.Props
