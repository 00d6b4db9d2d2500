import Verif.Proofs.ModisAngle
import Verif.Proofs.MxCoef
import Verif.Proofs.FlRound

/-!
# Error bounds of the expansion and alignment coefficients in mixed precision

`ε` bounds the relative error of a float32 rounding, `ε / 1000` that of the double roundings and library functions.
-/

namespace Verif.Mx
open Verif Verif.Geo Verif.Modis Verif.FlGeo Verif.Err
variable {q : Mixed} {ε : ℝ}

/-- The precision: float32 roundings to `ε`, doubles a thousand times better. -/
structure Prec (q : Mixed) (ε : ℝ) : Prop where
  hp : 12 ≤ q.s.p
  s : q.s.u ≤ ε
  d : LibRel q.d (ε / 1000)
  le : ε ≤ 1 / 2 ^ 20

namespace Prec

theorem pos (h : Prec q ε) : 0 < ε := lt_of_lt_of_le q.s.u_pos h.s
theorem le' (h : Prec q ε) : ε ≤ 0.000001 := h.le.trans (by norm_num)
theorem d_le (h : Prec q ε) : ε / 1000 ≤ 1 / 4096 := by have := h.le'; norm_num at this ⊢; linarith

/-- rounding to `float` -/
theorem rs (h : Prec q ε) {x c m e : ℝ} (hm : |c| ≤ m) (hx : |x - c| ≤ e) :
    |q.s.rnd x - c| ≤ (m + e) * ε + e := by
  have h0 := h.pos
  have h1 := q.s.abs_rnd_sub_le_u x
  have h2 : |x| ≤ m + e := by
    calc |x| = |c + (x - c)| := by ring_nf
      _ ≤ _ := abs_add_le _ _
      _ ≤ _ := add_le_add hm hx
  have h3 : q.s.u * |x| ≤ (m + e) * ε := by
    rw [mul_comm]; exact mul_le_mul h2 h.s q.s.u_pos.le ((abs_nonneg x).trans h2)
  calc |q.s.rnd x - c| = |(q.s.rnd x - x) + (x - c)| := by ring_nf
    _ ≤ _ := abs_add_le _ _
    _ ≤ _ := by linarith

/-- rounding to `double` -/
theorem rd (h : Prec q ε) {x c m e : ℝ} (hm : |c| ≤ m) (hx : |x - c| ≤ e) :
    |q.d.rnd x - c| ≤ (m + e) * (ε / 1000) + e := by
  have h0 := h.pos
  have h1 := q.d.abs_rnd_sub_le_u x
  have h2 : |x| ≤ m + e := by
    calc |x| = |c + (x - c)| := by ring_nf
      _ ≤ _ := abs_add_le _ _
      _ ≤ _ := add_le_add hm hx
  have h3 : q.d.u * |x| ≤ (m + e) * (ε / 1000) := by
    rw [mul_comm]; exact mul_le_mul h2 h.d.u q.d.u_pos.le ((abs_nonneg x).trans h2)
  calc |q.d.rnd x - c| = |(q.d.rnd x - x) + (x - c)| := by ring_nf
    _ ≤ _ := abs_add_le _ _
    _ ≤ _ := by linarith

end Prec

/-! ### the constants -/

theorem fR_rel (h : Prec q ε) : Rel (ε / 1000) (Fl.fR q.d) Rk := by
  have := rel_rnd (r := q.d) h.d.u (((6370997 : ℕ) : ℝ) / (10 : ℝ) ^ 3)
  unfold Fl.fR Rk
  exact_mod_cast this

theorem fH_rel (h : Prec q ε) : Rel (ε / 1000) (Fl.fH q.d) Hk := by
  have := rel_rnd (r := q.d) h.d.u (((7090 : ℕ) : ℝ) / (10 : ℝ) ^ 1)
  unfold Fl.fH Hk
  exact_mod_cast this

theorem Hk_pos : 0 < Hk := by norm_num [Hk]

theorem fRH_rel (h : Prec q ε) : Rel (2.01 * (ε / 1000)) (Fl.fRH q.d) (Rk + Hk) := by
  have h0 := h.pos
  have h1 := h.le'
  refine (((fR_rel h).add (fH_rel h) Rk_pos.le Hk_pos.le).rnd h.d.u).mono ?_
  nlinarith

/-! ### the angles -/

/-- the arc sine of a computed argument -/
theorem asin_core (h : Prec q ε) {g v : ℝ} (hv : |v| ≤ 0.946) (hg : Rel (6.1 * (ε / 1000)) g v) :
    |g| ≤ 1 ∧ |q.d.asin g - Real.arcsin v| ≤ 0.022 * ε := by
  have h0 := h.pos
  have h1 := h.le'
  have hd : |g - v| ≤ 6.1 * (ε / 1000) * 0.946 := le_trans hg (by gcongr)
  have hg' : |g| ≤ 0.95 := by
    calc |g| = |(g - v) + v| := by ring_nf
      _ ≤ _ := abs_add_le _ _
      _ ≤ _ := by norm_num at *; linarith
  have hg1 : |g| ≤ 1 := hg'.trans (by norm_num)
  refine ⟨hg1, ?_⟩
  have hcos : ∀ {t : ℝ}, |t| ≤ 0.95 → 0.312 ≤ Real.cos (Real.arcsin t) := by
    intro t ht
    rw [Real.cos_arcsin]
    apply Real.le_sqrt_of_sq_le
    have : t ^ 2 ≤ 0.95 ^ 2 := by rw [← sq_abs]; exact pow_le_pow_left₀ (abs_nonneg _) ht 2
    norm_num at this ⊢
    linarith
  have hb : ∀ t : ℝ, |Real.arcsin t| ≤ Real.pi / 2 := fun t =>
    abs_le.2 ⟨by linarith [Real.neg_pi_div_two_le_arcsin t], Real.arcsin_le_pi_div_two t⟩
  have h2 := sin_expand (s := Real.arcsin g) (t := Real.arcsin v) (c := 0.312) (by norm_num) (hb g) (hb v) (hcos hg')
    (hcos (hv.trans (by norm_num)))
  rw [Real.sin_arcsin (abs_le.1 hg1).1 (abs_le.1 hg1).2,
    Real.sin_arcsin (by linarith [(abs_le.1 hv).1]) (by linarith [(abs_le.1 hv).2])] at h2
  have h3 := h.d.asin g hg1
  unfold Err.Rel at h3
  have h4 : |Real.arcsin g| ≤ 1.58 := (hb g).trans (by have := Real.pi_lt_d2; norm_num at *; linarith)
  have h5 : ε / 1000 * |Real.arcsin g| ≤ ε / 1000 * 1.58 := by gcongr
  calc |q.d.asin g - Real.arcsin v| = |(q.d.asin g - Real.arcsin g) + (Real.arcsin g - Real.arcsin v)| := by ring_nf
    _ ≤ _ := abs_add_le _ _
    _ ≤ _ := by norm_num at *; linarith

/-- degrees to radians -/
theorem deg2rad_err (h : Prec q ε) {a : ℝ} (ha : |a| ≤ 70) :
    ∃ x, cyDeg2rad (sgl a : Mx q) = sgl x ∧ |x - Spec.rad a| ≤ 1.23 * ε := by
  have h0 := h.pos
  have h1 := h.le'
  have hF : radFactor q = q.d.rnd (q.d.rnd Real.pi / 180) := by unfold radFactor; rw [rnd_180 h.hp]
  refine ⟨_, cyDeg2rad_mx a, ?_⟩
  rw [hF]
  have h2 := (rad_rel h.d h.d_le a).rnd h.s
  have hr : |Spec.rad a| ≤ 1.222 := by
    unfold Spec.rad
    rw [abs_mul, abs_of_pos (by have := Real.pi_pos; positivity : 0 < Real.pi / 180)]
    have := Real.pi_lt_d4
    calc |a| * (Real.pi / 180) ≤ 70 * (3.1416 / 180) := by gcongr
      _ ≤ _ := by norm_num
  refine le_trans h2 ?_
  calc _ ≤ (1.004 * ε) * 1.222 := by
        gcongr
        nlinarith
    _ ≤ _ := by nlinarith

/-- the angle at the satellite -/
theorem phi_err (h : Prec q ε) {x : ℝ} (hx : |Real.sin x| ≤ 0.941) :
    ∃ f, computePhi (sgl x : Mx q) = sgl f ∧ |f - phiR x| ≤ 1.08 * ε := by
  have h0 := h.pos
  have h1 := h.le'
  obtain ⟨c1, _, _, _, c5, _⟩ := Fl.consts (hd12 h.hp)
  have hpos : 0 < Fl.fRH q.d := by linarith
  have hnum : Rel (3.01 * (ε / 1000)) (q.d.rnd (Fl.fR q.d * q.d.sin x)) (Rk * Real.sin x) := by
    refine (((fR_rel h).mul (h.d.sin x) (by positivity)).rnd h.d.u).mono ?_
    nlinarith
  have hg : Rel (6.1 * (ε / 1000)) (q.d.rnd (q.d.rnd (Fl.fR q.d * q.d.sin x) / Fl.fRH q.d)) (kap * Real.sin x) := by
    have h2 := (hnum.div (fRH_rel h) (by positivity) (by linarith)).mono (f := 5.04 * (ε / 1000)) (by
      rw [div_le_iff₀ (by linarith)]; nlinarith)
    have e : Rk * Real.sin x / (Rk + Hk) = kap * Real.sin x := by unfold kap; ring
    rw [e] at h2
    refine (h2.rnd h.d.u).mono ?_
    nlinarith
  have hv : |kap * Real.sin x| ≤ 0.946 := by
    rw [abs_mul, abs_of_pos kap_pos]
    have := kap_bounds.2
    calc _ ≤ 1 * 0.941 := mul_le_mul (by linarith) hx (abs_nonneg _) (by norm_num)
      _ ≤ _ := by norm_num
  obtain ⟨hq1, ha⟩ := asin_core h hv hg
  refine ⟨q.s.rnd (q.d.asin (q.d.rnd (q.d.rnd (Fl.fR q.d * q.d.sin x) / Fl.fRH q.d))), ?_, ?_⟩
  · unfold computePhi
    rw [satRH_eq, satR_eq, sin_sgl, dd_mul, dd_div_of _ hpos.ne', asin_dbl hq1, toFloating_dbl]
  · have hm : |phiR x| ≤ 1.048 := (phiR_70 hx).trans (by have := mTop_lt; linarith)
    refine (h.rs hm ha).trans ?_
    nlinarith

/-- the zenith angle of an angle at the satellite -/
theorem zeta_err (h : Prec q ε) {m : ℝ} (hm : |m| ≤ mTop) :
    ∃ z, computeZeta (sgl m : Mx q) = sgl z ∧ |z - zetaR m| ≤ 1.6 * ε := by
  have h0 := h.pos
  have h1 := h.le'
  obtain ⟨c1, _, _, _, c5, _⟩ := Fl.consts (hd12 h.hp)
  have hpos : 0 < Fl.fR q.d := by linarith
  have hnum : Rel (4.02 * (ε / 1000)) (q.d.rnd (Fl.fRH q.d * q.d.sin m)) ((Rk + Hk) * Real.sin m) := by
    refine (((fRH_rel h).mul (h.d.sin m) (by positivity)).rnd h.d.u).mono ?_
    obtain ⟨y, hy⟩ : ∃ y, y = ε / 1000 := ⟨_, rfl⟩
    have hy0 : 0 < y := by rw [hy]; positivity
    have hy1 : y ≤ 0.001 := by rw [hy]; linarith
    rw [← hy]
    have : y * y ≤ 0.001 * y := by nlinarith
    have : y * (y * y) ≤ 0.001 * y := by nlinarith
    nlinarith
  have hg : Rel (6.1 * (ε / 1000)) (q.d.rnd (q.d.rnd (Fl.fRH q.d * q.d.sin m) / Fl.fR q.d)) (kap⁻¹ * Real.sin m) := by
    have h2 := (hnum.div (fR_rel h) (by positivity) (by linarith)).mono (f := 5.04 * (ε / 1000)) (by
      rw [div_le_iff₀ (by linarith)]; nlinarith)
    have e : (Rk + Hk) * Real.sin m / Rk = kap⁻¹ * Real.sin m := by rw [← inv_kap]; ring
    rw [e] at h2
    refine (h2.rnd h.d.u).mono ?_
    nlinarith
  obtain ⟨hq1, ha⟩ := asin_core h ((zeta_arg hm).trans (by norm_num)) hg
  refine ⟨q.s.rnd (q.d.asin (q.d.rnd (q.d.rnd (Fl.fRH q.d * q.d.sin m) / Fl.fR q.d))), ?_, ?_⟩
  · unfold computeZeta
    rw [satRH_eq, satR_eq, sin_sgl, dd_mul, dd_div_of _ hpos.ne', asin_dbl hq1, toFloating_dbl]
  · have hm : |zetaR m| ≤ 1.5708 := by
      have := Real.pi_lt_d4
      unfold zetaR
      rw [abs_le]
      constructor
      · have := Real.neg_pi_div_two_le_arcsin (kap⁻¹ * Real.sin m); linarith
      · have := Real.arcsin_le_pi_div_two (kap⁻¹ * Real.sin m); linarith
    refine (h.rs hm ha).trans ?_
    nlinarith

theorem rad_70 {a : ℝ} (ha : |a| ≤ 70) : |Spec.rad a| ≤ 1.222 := by
  unfold Spec.rad
  rw [abs_mul, abs_of_pos (by have := Real.pi_pos; positivity : 0 < Real.pi / 180)]
  have := Real.pi_lt_d4
  calc |a| * (Real.pi / 180) ≤ 70 * (3.1416 / 180) := by gcongr
    _ ≤ _ := by norm_num

/-- one zenith angle: the angle at the satellite and the angle at the centre of the Earth -/
theorem theta_err (h : Prec q ε) {a : ℝ} (ha : |a| ≤ 70) :
    ∃ x f, cyDeg2rad (sgl a : Mx q) = sgl x ∧ computePhi (sgl x : Mx q) = sgl f ∧ |f - phiR (Spec.rad a)| ≤ 2.2 * ε ∧
      |q.s.rnd (x - f) - (Spec.rad a - phiR (Spec.rad a))| ≤ 3.6 * ε := by
  have h0 := h.pos
  have h1 := h.le'
  have hpi := Real.pi_gt_three
  obtain ⟨x, ex, hx⟩ := deg2rad_err h ha
  have hA := rad_70 ha
  have hs := abs_sin_70 ha
  obtain ⟨A, eA⟩ : ∃ A, A = Spec.rad a := ⟨_, rfl⟩
  rw [← eA] at hx hA hs ⊢
  have hsx : |Real.sin x| ≤ 0.941 := by
    have := Real.abs_sin_sub_sin_le x A
    calc |Real.sin x| = |(Real.sin x - Real.sin A) + Real.sin A| := by ring_nf
      _ ≤ _ := abs_add_le _ _
      _ ≤ _ := by norm_num at *; linarith
  obtain ⟨f, ef, hf⟩ := phi_err h hsx
  have hxb : |x| ≤ Real.pi / 2 := by
    calc |x| = |(x - A) + A| := by ring_nf
      _ ≤ _ := abs_add_le _ _
      _ ≤ _ := by norm_num at *; linarith
  have hAb : |A| ≤ Real.pi / 2 := by norm_num at *; linarith
  have hl := phiR_lip x A
  have hk := kap_bounds.2
  have hl' : kap * |x - A| ≤ 0.9 * (1.23 * ε) := mul_le_mul (hk.trans (by norm_num)) hx (abs_nonneg _) (by norm_num)
  refine ⟨x, f, ex, ef, ?_, ?_⟩
  · calc |f - phiR A| = |(f - phiR x) + (phiR x - phiR A)| := by ring_nf
      _ ≤ _ := abs_add_le _ _
      _ ≤ _ := by linarith
  · have ht := theta_lip hxb hAb
    have h2 : |(x - f) - (A - phiR A)| ≤ 2.31 * ε := by
      calc |(x - f) - (A - phiR A)| = |-(f - phiR x) + ((x - phiR x) - (A - phiR A))| := by ring_nf
        _ ≤ _ := abs_add_le _ _
        _ ≤ _ := by rw [abs_neg]; linarith
    have h3 := theta_lip hAb (y := 0) (by simp; positivity)
    rw [phiR_zero, sub_zero, sub_zero, sub_zero] at h3
    refine (h.rs (h3.trans hA) h2).trans ?_
    nlinarith

/-- the mean angle and its zenith angle -/
theorem mean_err (h : Prec q ε) {f g p s : ℝ} (hp : |p| ≤ mTop - 0.003) (hs : |s| ≤ mTop - 0.003) (hf : |f - p| ≤ 2.2 * ε)
    (hg : |g - s| ≤ 2.2 * ε) :
    ∃ m z, (sgl f + sgl g : Mx q) / 2 = sgl m ∧ computeZeta (sgl m : Mx q) = sgl z ∧ |m| ≤ mTop ∧
      |m - (p + s) / 2| ≤ 4.31 * ε ∧ |z - zetaR ((p + s) / 2)| ≤ 9.4 * ε ∧
      |q.s.rnd (z - m) - (zetaR ((p + s) / 2) - (p + s) / 2)| ≤ 6 * ε := by
  have h0 := h.pos
  have h1 := h.le'
  have hT := mTop_lt
  have hT0 := mTop_nonneg
  have hm := mean_mTop hp hs
  have a1 : |f + g - (p + s)| ≤ 4.4 * ε := by
    calc |f + g - (p + s)| = |(f - p) + (g - s)| := by ring_nf
      _ ≤ _ := abs_add_le _ _
      _ ≤ _ := by linarith
  have a2 : |p + s| ≤ 2.096 := by
    have := abs_add_le p s
    linarith
  have a3 : |q.s.rnd (f + g) - (p + s)| ≤ 6.5 * ε := (h.rs a2 a1).trans (by nlinarith)
  have a4 : |q.s.rnd (f + g) / 2 - (p + s) / 2| ≤ 3.25 * ε := by
    rw [← sub_div, abs_div, abs_two]; linarith
  obtain ⟨M, eM⟩ : ∃ M, M = (p + s) / 2 := ⟨_, rfl⟩
  rw [← eM] at hm a4 ⊢
  have a5 : |q.s.rnd (q.s.rnd (f + g) / 2) - M| ≤ 4.31 * ε := (h.rs (m := 1.048) (by linarith) a4).trans (by nlinarith)
  obtain ⟨m, em⟩ : ∃ m, m = q.s.rnd (q.s.rnd (f + g) / 2) := ⟨_, rfl⟩
  rw [← em] at a5
  have hmT : |m| ≤ mTop := by
    calc |m| = |(m - M) + M| := by ring_nf
      _ ≤ _ := abs_add_le _ _
      _ ≤ _ := by linarith
  obtain ⟨z, ez, hz⟩ := zeta_err h hmT
  refine ⟨m, z, ?_, ez, hmT, a5, ?_, ?_⟩
  · rw [two_eq, ss_add, si_div _ _ (by norm_num), rnd_two h.hp, em]
  · have := zeta_lip hmT (show |M| ≤ mTop by linarith)
    calc |z - zetaR M| = |(z - zetaR m) + (zetaR m - zetaR M)| := by ring_nf
      _ ≤ _ := abs_add_le _ _
      _ ≤ _ := by norm_num at *; linarith
  · have := zeta_sub_lip hmT (show |M| ≤ mTop by linarith)
    have b1 : |(z - m) - (zetaR M - M)| ≤ 5.05 * ε := by
      calc |(z - m) - (zetaR M - M)| = |(z - zetaR m) + ((zetaR m - m) - (zetaR M - M))| := by ring_nf
        _ ≤ _ := abs_add_le _ _
        _ ≤ _ := by norm_num at *; linarith
    have b2 : |zetaR M - M| ≤ 0.84 := by
      have := zeta_sub_lip (x := M) (y := 0) (by linarith) (by simpa using hT0)
      have e0 : zetaR 0 = 0 := by simp [zetaR]
      rw [e0, sub_zero, sub_zero, sub_zero] at this
      norm_num at *; linarith
    exact (h.rs b2 b1).trans (by nlinarith)

/-! ### the coefficients -/

/-- an error in the numerator and one in the denominator -/
theorem quot_err {N D n d e1 e2 : ℝ} (hD : 0 < |D|) (hn : |n - N| ≤ e1) (hd : |d - D| ≤ e2) (h2 : e2 ≤ 0.1 * |D|) :
    0.9 * |D| ≤ |d| ∧ |n / d - N / D| ≤ (e1 + |N / D| * e2) / (0.9 * |D|) := by
  have h3 : 0.9 * |D| ≤ |d| := by
    have : |D| ≤ |d| + |d - D| := by
      calc |D| = |d - (d - D)| := by ring_nf
        _ ≤ _ := abs_sub _ _
    norm_num at *; linarith
  have hd0 : 0 < |d| := lt_of_lt_of_le (by positivity) h3
  have hdne : d ≠ 0 := abs_pos.1 hd0
  have hDne : D ≠ 0 := abs_pos.1 hD
  refine ⟨h3, ?_⟩
  have e : n / d - N / D = ((n - N) - (N / D) * (d - D)) / d := by field_simp; ring
  rw [e, abs_div]
  have h4 : |(n - N) - (N / D) * (d - D)| ≤ e1 + |N / D| * e2 := by
    refine (abs_sub _ _).trans ?_
    rw [abs_mul]
    gcongr
  have h5 : 0 ≤ e1 + |N / D| * e2 := (abs_nonneg _).trans h4
  exact div_le_div₀ h5 h4 (by positivity) h3

/-- the expansion coefficient -/
theorem cexp_err (h : Prec q ε) {ta tb t d Ta Tb T D : ℝ} (hTa : |Ta| ≤ 1.222) (hTb : |Tb| ≤ 1.222) (ha : |ta - Ta| ≤ 3.6 * ε)
    (hb : |tb - Tb| ≤ 3.6 * ε) (ht : |t - T| ≤ 6 * ε) (hN : |(Ta + Tb) / 2 - T| ≤ |D| / 2) (d2 : |D| ≤ 2.444)
    (d3 : |d - D| ≤ 9.7 * ε) (hD : 100 * ε ≤ |D|) :
    d ≠ 0 ∧
    |q.s.rnd (4 * q.s.rnd (q.s.rnd (q.s.rnd (q.s.rnd (ta + tb) / 2) - t) / d)) - 4 * (((Ta + Tb) / 2 - T) / D)|
      ≤ 82 * ε / |D| + 6 * ε := by
  have h0 := h.pos
  have h1 := h.le'
  have hDp : 0 < |D| := by linarith
  -- the numerator
  have n1 : |(ta + tb) - (Ta + Tb)| ≤ 7.2 * ε := by
    calc |(ta + tb) - (Ta + Tb)| = |(ta - Ta) + (tb - Tb)| := by ring_nf
      _ ≤ _ := abs_add_le _ _
      _ ≤ _ := by linarith
  have n2 : |Ta + Tb| ≤ 2.444 := (abs_add_le _ _).trans (by linarith)
  have n3 : |q.s.rnd (ta + tb) - (Ta + Tb)| ≤ 9.65 * ε := (h.rs n2 n1).trans (by nlinarith)
  have n4 : |q.s.rnd (ta + tb) / 2 - (Ta + Tb) / 2| ≤ 4.825 * ε := by
    rw [← sub_div, abs_div, abs_two]; linarith
  have n5 : |(Ta + Tb) / 2| ≤ 1.222 := by rw [abs_div, abs_two]; linarith
  have n6 : |q.s.rnd (q.s.rnd (ta + tb) / 2) - (Ta + Tb) / 2| ≤ 6.05 * ε := (h.rs n5 n4).trans (by nlinarith)
  obtain ⟨N, eN⟩ : ∃ N, N = (Ta + Tb) / 2 - T := ⟨_, rfl⟩
  have n7 : |q.s.rnd (q.s.rnd (ta + tb) / 2) - t - N| ≤ 12.05 * ε := by
    calc |q.s.rnd (q.s.rnd (ta + tb) / 2) - t - N| = |(q.s.rnd (q.s.rnd (ta + tb) / 2) - (Ta + Tb) / 2) - (t - T)| := by
          rw [eN]; ring_nf
      _ ≤ _ := abs_sub _ _
      _ ≤ _ := by linarith
  rw [← eN] at hN ⊢
  have n8 : |q.s.rnd (q.s.rnd (q.s.rnd (ta + tb) / 2) - t) - N| ≤ 13.3 * ε :=
    (h.rs (m := 1.222) (by linarith) n7).trans (by nlinarith)
  obtain ⟨n, en⟩ : ∃ n, n = q.s.rnd (q.s.rnd (q.s.rnd (ta + tb) / 2) - t) := ⟨_, rfl⟩
  rw [← en] at n8 ⊢
  obtain ⟨k1, k2⟩ := quot_err hDp n8 d3 (by linarith)
  have hdne : d ≠ 0 := abs_pos.1 (lt_of_lt_of_le (by positivity) k1)
  have hr : |N / D| ≤ 1 / 2 := by
    rw [abs_div, div_le_iff₀ hDp]; linarith
  have k3 : |n / d - N / D| ≤ 20.2 * ε / |D| := by
    refine k2.trans ?_
    rw [div_le_div_iff₀ (by positivity) hDp]
    have : |N / D| * (9.7 * ε) ≤ 1 / 2 * (9.7 * ε) := by gcongr
    have h3 : 13.3 * ε + |N / D| * (9.7 * ε) ≤ 18.18 * ε := by linarith
    calc _ ≤ 18.18 * ε * |D| := by gcongr
      _ = _ := by ring
  have k4 : 20.2 * ε / |D| ≤ 0.202 := by
    rw [div_le_iff₀ hDp]; linarith
  obtain ⟨E, eE⟩ : ∃ E, E = ε / |D| := ⟨_, rfl⟩
  have e1 : 20.2 * ε / |D| = 20.2 * E := by rw [eE]; ring
  have e2 : 82 * ε / |D| = 82 * E := by rw [eE]; ring
  rw [e1] at k3 k4
  have hE0 : 0 < E := by rw [eE]; positivity
  have k5 : |q.s.rnd (n / d) - N / D| ≤ 20.2 * E + 0.71 * ε := (h.rs hr k3).trans (by nlinarith)
  have k6 : |4 * q.s.rnd (n / d) - 4 * (N / D)| ≤ 80.8 * E + 2.84 * ε := by
    rw [← mul_sub, abs_mul, abs_of_pos (by norm_num : (0 : ℝ) < 4)]; linarith
  have k7 : |4 * (N / D)| ≤ 2 := by rw [abs_mul, abs_of_pos (by norm_num : (0 : ℝ) < 4)]; linarith
  refine ⟨hdne, ?_⟩
  rw [e2]
  refine (h.rs k7 k6).trans ?_
  nlinarith

/-- `w / (2 H)` -/
theorem sb_err (h : Prec q ε) {w : Nat} (hw : w ≤ 5) :
    q.d.rnd (2 * Fl.fH q.d) ≠ 0 ∧ |((w : ℤ) : ℝ) / (2 * Hk)| ≤ 0.003527 ∧
    |q.s.rnd (q.d.rnd (q.d.rnd ((w : ℤ) : ℝ) / q.d.rnd (2 * Fl.fH q.d))) - ((w : ℤ) : ℝ) / (2 * Hk)| ≤ 0.00356 * ε := by
  have h0 := h.pos
  have h1 := h.le'
  obtain ⟨_, _, c3, _, _, _⟩ := Fl.consts (hd12 h.hp)
  have hpos : 0 < q.d.rnd (2 * Fl.fH q.d) := q.d.rnd_pos (by linarith)
  have hb : |((w : ℤ) : ℝ) / (2 * Hk)| ≤ 0.003527 := by
    have : 2 * Hk = 1418 := by norm_num [Hk]
    have hw' : ((w : ℤ) : ℝ) ≤ 5 := by exact_mod_cast hw
    rw [this, abs_of_nonneg (by positivity)]
    linarith
  refine ⟨hpos.ne', hb, ?_⟩
  obtain ⟨y, hy⟩ : ∃ y, y = ε / 1000 := ⟨_, rfl⟩
  have hy0 : 0 < y := by rw [hy]; positivity
  have hy1 : y ≤ 0.001 := by rw [hy]; linarith
  have k1 : Rel (2.01 * y) (q.d.rnd (2 * Fl.fH q.d)) (2 * Hk) := by
    have := (Rel.refl (le_refl (0 : ℝ)) 2).mul (fH_rel h) le_rfl
    refine (this.rnd h.d.u).mono ?_
    rw [← hy]; nlinarith
  have k2 := (rel_rnd h.d.u ((w : ℤ) : ℝ))
  rw [← hy] at k2
  have k3 : Rel (3.1 * y) (q.d.rnd ((w : ℤ) : ℝ) / q.d.rnd (2 * Fl.fH q.d)) (((w : ℤ) : ℝ) / (2 * Hk)) :=
    (k2.div k1 hy0.le (by linarith)).mono (by rw [div_le_iff₀ (by linarith)]; nlinarith)
  have k4 : Rel (4.2 * y) (q.d.rnd (q.d.rnd ((w : ℤ) : ℝ) / q.d.rnd (2 * Fl.fH q.d))) (((w : ℤ) : ℝ) / (2 * Hk)) :=
    (k3.rnd h.d.u).mono (by rw [← hy]; nlinarith)
  have k5 := (k4.rnd h.s).mono (f := 1.005 * ε) (by rw [hy]; nlinarith)
  refine le_trans k5 ?_
  calc _ ≤ 1.005 * ε * 0.003527 := by gcongr
    _ ≤ _ := by nlinarith

/-- the distance of the pixels -/
theorem d_err (h : Prec q ε) {w : Nat} (hw : w ≤ 5) {m z M : ℝ} (hM : |M| ≤ mTop) (hm : |m - M| ≤ 4.31 * ε)
    (hz : |z - zetaR M| ≤ 9.4 * ε) :
    let A := q.d.rnd (q.d.rnd (Fl.fRH q.d / Fl.fR q.d) * q.d.cos m)
    let sb := q.s.rnd (q.d.rnd (q.d.rnd ((w : ℤ) : ℝ) / q.d.rnd (2 * Fl.fH q.d)))
    let d := ((Rk + Hk) / Rk * Real.cos M - Real.cos (zetaR M)) * (((w : ℤ) : ℝ) / (2 * Hk))
    |d| ≤ 0.000988 ∧ |q.s.rnd (q.d.rnd (q.d.rnd (A - q.d.cos z) * sb)) - d| ≤ 0.053 * ε := by
  intro A sb d
  have h0 := h.pos
  have h1 := h.le'
  obtain ⟨-, s1, s2⟩ := sb_err h hw
  obtain ⟨g1, g2⟩ := align_bounds hM
  obtain ⟨i1, i2⟩ := inv_kap_bounds
  obtain ⟨y, hy⟩ : ∃ y, y = ε / 1000 := ⟨_, rfl⟩
  have hy0 : 0 < y := by rw [hy]; positivity
  have hy1 : y ≤ 0.001 := by rw [hy]; linarith
  have hyy : y * y ≤ 0.001 * y := by nlinarith
  have k1 : Rel (3.1 * y) (Fl.fRH q.d / Fl.fR q.d) kap⁻¹ := by
    have := (fRH_rel h).div (fR_rel h) (by positivity) (by linarith)
    rw [inv_kap, ← hy] at this
    exact this.mono (by rw [div_le_iff₀ (by linarith)]; nlinarith)
  have k2 : Rel (4.2 * y) (q.d.rnd (Fl.fRH q.d / Fl.fR q.d)) kap⁻¹ := (k1.rnd h.d.u).mono (by rw [← hy]; nlinarith)
  have k3 := k2.mul (h.d.cos m) (by positivity)
  have k4 : Rel (6.5 * y) A (kap⁻¹ * Real.cos m) := (k3.rnd h.d.u).mono (by
    rw [← hy]
    have : y * (y * y) ≤ 0.001 * y := by nlinarith
    nlinarith)
  have k5 : |A - kap⁻¹ * Real.cos m| ≤ 7.3 * y := by
    refine le_trans k4 ?_
    have : |kap⁻¹ * Real.cos m| ≤ 1.1113 * 1 := by
      rw [abs_mul, abs_of_nonneg (by linarith)]
      exact mul_le_mul i2 (Real.abs_cos_le_one m) (abs_nonneg _) (by norm_num)
    calc _ ≤ 6.5 * y * (1.1113 * 1) := by gcongr
      _ ≤ _ := by nlinarith
  have k6 : |q.d.cos z - Real.cos z| ≤ y := by
    have := h.d.cos z
    unfold Err.Rel at this
    have h2 := Real.abs_cos_le_one z
    rw [← hy] at this
    nlinarith
  have k7 := Real.abs_cos_sub_cos_le z (zetaR M)
  have k8 := Real.abs_cos_sub_cos_le m M
  have k9 : |kap⁻¹ * Real.cos m - kap⁻¹ * Real.cos M| ≤ 1.1113 * (4.31 * ε) := by
    rw [← mul_sub, abs_mul, abs_of_nonneg (by linarith : 0 ≤ kap⁻¹)]
    exact mul_le_mul i2 (k8.trans hm) (abs_nonneg _) (by norm_num)
  obtain ⟨G, eG⟩ : ∃ G, G = kap⁻¹ * Real.cos M - Real.cos (zetaR M) := ⟨_, rfl⟩
  have k10 : |A - q.d.cos z - G| ≤ 14.21 * ε := by
    have e : A - q.d.cos z - G = (A - kap⁻¹ * Real.cos m) + (kap⁻¹ * Real.cos m - kap⁻¹ * Real.cos M)
        - ((q.d.cos z - Real.cos z) + (Real.cos z - Real.cos (zetaR M))) := by rw [eG]; ring
    rw [e]
    refine (abs_sub _ _).trans ((add_le_add (abs_add_le _ _) (abs_add_le _ _)).trans ?_)
    have : y * 1000 = ε := by rw [hy]; ring
    norm_num at *
    linarith
  rw [← eG] at g1 g2
  have hGa : |G| ≤ 0.28 := by rw [abs_of_nonneg g1]; exact g2
  have k11 : |q.d.rnd (A - q.d.cos z) - G| ≤ 14.22 * ε := (h.rd hGa k10).trans (by nlinarith)
  obtain ⟨P, eP⟩ : ∃ P, P = q.d.rnd (A - q.d.cos z) := ⟨_, rfl⟩
  obtain ⟨S, eS⟩ : ∃ S, S = ((w : ℤ) : ℝ) / (2 * Hk) := ⟨_, rfl⟩
  have ed : d = G * S := by
    show ((Rk + Hk) / Rk * Real.cos M - Real.cos (zetaR M)) * (((w : ℤ) : ℝ) / (2 * Hk)) = _
    rw [inv_kap, ← eG, ← eS]
  rw [← eP] at k11 ⊢
  rw [← eS] at s1 s2
  rw [ed]
  have hd1 : |G * S| ≤ 0.000988 := by
    rw [abs_mul]
    calc _ ≤ 0.28 * 0.003527 := mul_le_mul hGa s1 (abs_nonneg _) (by norm_num)
      _ ≤ _ := by norm_num
  refine ⟨hd1, ?_⟩
  have hsb : |sb| ≤ 0.00353 := by
    calc |sb| = |(sb - S) + S| := by ring_nf
      _ ≤ _ := abs_add_le _ _
      _ ≤ 0.00356 * ε + 0.003527 := add_le_add s2 s1
      _ ≤ _ := by nlinarith
  have k12 : |P * sb - G * S| ≤ 0.0515 * ε := by
    have e : P * sb - G * S = (P - G) * sb + G * (sb - S) := by ring
    rw [e]
    refine (abs_add_le _ _).trans ?_
    rw [abs_mul, abs_mul]
    have e1 : |P - G| * |sb| ≤ 14.22 * ε * 0.00353 := mul_le_mul k11 hsb (abs_nonneg _) (by positivity)
    have e2 : |G| * |sb - S| ≤ 0.28 * (0.00356 * ε) := mul_le_mul hGa s2 (abs_nonneg _) (by norm_num)
    norm_num at *
    linarith
  have k13 : |q.d.rnd (P * sb) - G * S| ≤ 0.0516 * ε := (h.rd hd1 k12).trans (by nlinarith)
  exact (h.rs hd1 k13).trans (by nlinarith)

/-- `C - sqrt (C² - d²)` -/
theorem sag_bounds {C d : ℝ} (hC : 0.32 ≤ C) (hd : |d| ≤ 0.00099) :
    0.319 ≤ √(C * C - d * d) ∧ 0 ≤ C - √(C * C - d * d) ∧ C - √(C * C - d * d) ≤ 0.0000031 ∧
    √(C * C - d * d) * √(C * C - d * d) = C * C - d * d := by
  have hd2 : d * d ≤ 0.00099 * 0.00099 := by
    have := mul_le_mul hd hd (abs_nonneg _) (by norm_num)
    rwa [abs_mul_abs_self] at this
  have hdd := mul_self_nonneg d
  have hCC : 0.32 * 0.32 ≤ C * C := by nlinarith
  have hge : 0 ≤ C * C - d * d := by norm_num at *; linarith
  have hs := Real.mul_self_sqrt hge
  obtain ⟨s, es⟩ : ∃ s, s = √(C * C - d * d) := ⟨_, rfl⟩
  have hs0 : 0 ≤ s := es ▸ Real.sqrt_nonneg _
  rw [← es] at hs ⊢
  have h1 : 0.319 ≤ s := by
    by_contra hc
    push Not at hc
    nlinarith
  have h2 : s ≤ C := by
    by_contra hc
    push Not at hc
    nlinarith
  refine ⟨h1, by linarith, ?_, hs⟩
  -- (C - s) (C + s) = d²
  have h3 : (C - s) * (C + s) = d * d := by linarith
  by_contra hc
  push Not at hc
  nlinarith

/-- errors of the two arguments -/
theorem sag_lip {C d C' d' e1 e2 : ℝ} (hC : 0.32 ≤ C) (hd : |d| ≤ 0.00099) (hC' : 0.32 ≤ C') (hd' : |d'| ≤ 0.00099)
    (h1 : |C' - C| ≤ e1) (h2 : |d' - d| ≤ e2) :
    |(C' - √(C' * C' - d' * d')) - (C - √(C * C - d * d))| ≤ 0.00001 * e1 + 0.0032 * e2 := by
  obtain ⟨a1, a2, a3, a4⟩ := sag_bounds hC hd
  obtain ⟨b1, b2, b3, b4⟩ := sag_bounds hC' hd'
  obtain ⟨s, es⟩ : ∃ s, s = √(C * C - d * d) := ⟨_, rfl⟩
  obtain ⟨t, et⟩ : ∃ t, t = √(C' * C' - d' * d') := ⟨_, rfl⟩
  rw [← es] at a1 a2 a3 a4 ⊢
  rw [← et] at b1 b2 b3 b4 ⊢
  have hst : 0 < s + t := by linarith
  have e : (C' - t) - (C - s) = ((d' - d) * (d' + d) - (C' - C) * ((C - s) + (C' - t))) / (s + t) := by
    rw [eq_div_iff hst.ne']
    linear_combination a4 - b4
  rw [e, abs_div, abs_of_pos hst, div_le_iff₀ hst]
  have f1 : |(d' - d) * (d' + d)| ≤ e2 * 0.00198 := by
    rw [abs_mul]
    have : |d' + d| ≤ 0.00198 := (abs_add_le _ _).trans (by norm_num at *; linarith)
    exact mul_le_mul h2 this (abs_nonneg _) ((abs_nonneg _).trans h2)
  have f2 : |(C' - C) * ((C - s) + (C' - t))| ≤ e1 * 0.0000062 := by
    rw [abs_mul, abs_of_nonneg (by linarith : 0 ≤ (C - s) + (C' - t))]
    exact mul_le_mul h1 (by norm_num at *; linarith) (by linarith) ((abs_nonneg _).trans h1)
  have g1 := (abs_nonneg _).trans h1
  have g2 := (abs_nonneg _).trans h2
  have hst' : 0.638 ≤ s + t := by norm_num at *; linarith
  have := mul_le_mul_of_nonneg_left hst' g1
  have := mul_le_mul_of_nonneg_left hst' g2
  refine (abs_sub _ _).trans ?_
  nlinarith

theorem root_err {P t e : ℝ} (hP : 0 ≤ P) (ht : 0.319 ≤ t) (h : |P - t * t| ≤ e) : |√P - t| ≤ e * 3.14 := by
  have hsP := Real.mul_self_sqrt hP
  have hsP0 := Real.sqrt_nonneg P
  have e' : P - t * t = (√P - t) * (√P + t) := by linear_combination -hsP
  rw [e', abs_mul, abs_of_pos (by linarith : 0 < √P + t)] at h
  have h2 := mul_le_mul_of_nonneg_left (by linarith : 0.319 ≤ √P + t) (abs_nonneg (√P - t))
  have h3 := abs_nonneg (√P - t)
  linarith

/-- the last steps of the alignment -/
theorem e_tail (h : Prec q ε) {C t p E : ℝ} (h1 : |p - t| ≤ 0.0064 * ε) (ht : |t| ≤ 1.0001) (hCt : |C - t| ≤ 0.0000031)
    (hE : |(C - t) - E| ≤ 0.0003 * ε) : |q.s.rnd (q.d.rnd (C - q.d.rnd p)) - E| ≤ 0.0086 * ε := by
  have h0 := h.pos
  have hl := h.le'
  have r7 : |q.d.rnd p - t| ≤ 0.0075 * ε := (h.rd ht h1).trans (by nlinarith)
  have r8 : |(C - q.d.rnd p) - (C - t)| ≤ 0.0075 * ε := by
    rw [show (C - q.d.rnd p) - (C - t) = -(q.d.rnd p - t) by ring, abs_neg]; exact r7
  have r9 : |q.d.rnd (C - q.d.rnd p) - (C - t)| ≤ 0.0076 * ε := (h.rd hCt r8).trans (by nlinarith)
  have r10 : |q.s.rnd (q.d.rnd (C - q.d.rnd p)) - (C - t)| ≤ 0.0077 * ε := (h.rs hCt r9).trans (by nlinarith)
  calc |q.s.rnd (q.d.rnd (C - q.d.rnd p)) - E| = |(q.s.rnd (q.d.rnd (C - q.d.rnd p)) - (C - t)) + ((C - t) - E)| := by ring_nf
    _ ≤ _ := abs_add_le _ _
    _ ≤ _ := by norm_num at *; linarith

/-- the alignment of the two pixels -/
theorem e_err (h : Prec q ε) {d d' z Z : ℝ} (hd : |d| ≤ 0.000988) (hd' : |d' - d| ≤ 0.053 * ε) (hZ : 0.327 ≤ Real.cos Z)
    (hz : |z - Z| ≤ 9.4 * ε) :
    let C := q.d.cos z
    let s := q.d.rnd √(q.d.rnd (q.d.rnd (C * C) - q.s.rnd (d' * d')))
    let E := Real.cos Z - √(Real.cos Z * Real.cos Z - d * d)
    0 ≤ q.d.rnd (q.d.rnd (C * C) - q.s.rnd (d' * d')) ∧ |E| ≤ 0.0000031 ∧ |q.s.rnd (q.d.rnd (C - s)) - E| ≤ 0.0086 * ε := by
  intro C s E
  have h0 := h.pos
  have h1 := h.le'
  have k6 : |C - Real.cos z| ≤ ε / 1000 := by
    have := h.d.cos z
    unfold Err.Rel at this
    have h2 := Real.abs_cos_le_one z
    exact le_trans this (by nlinarith)
  have k7 := Real.abs_cos_sub_cos_le z Z
  have hCZ : |C - Real.cos Z| ≤ 9.41 * ε := by
    calc |C - Real.cos Z| = |(C - Real.cos z) + (Real.cos z - Real.cos Z)| := by ring_nf
      _ ≤ _ := abs_add_le _ _
      _ ≤ _ := by norm_num at *; linarith
  have hC : 0.3265 ≤ C := by
    have := (abs_le.1 hCZ).1
    norm_num at *; linarith
  have hC1 : C ≤ 1.00001 := by
    have := (abs_le.1 hCZ).2
    have := Real.cos_le_one Z
    norm_num at *; linarith
  have hdd : |d'| ≤ 0.00099 := by
    calc |d'| = |(d' - d) + d| := by ring_nf
      _ ≤ _ := abs_add_le _ _
      _ ≤ _ := by norm_num at *; linarith
  obtain ⟨b1, b2, b3, b4⟩ := sag_bounds (C := C) (d := d') (by linarith) hdd
  obtain ⟨a1, a2, a3, a4⟩ := sag_bounds (C := Real.cos Z) (d := d) (by linarith) (by linarith)
  -- the number under the root
  have hCC : |C * C| ≤ 1.001 := by
    rw [abs_of_nonneg (mul_self_nonneg C)]
    nlinarith
  have hd2 : |d' * d'| ≤ 0.000001 := by
    rw [abs_mul]
    calc _ ≤ 0.00099 * 0.00099 := mul_le_mul hdd hdd (abs_nonneg _) (by norm_num)
      _ ≤ _ := by norm_num
  have r1 := h.rd hCC (by simp : |C * C - C * C| ≤ 0)
  have r2 := h.rs hd2 (by simp : |d' * d' - d' * d'| ≤ 0)
  have r3 : |q.d.rnd (C * C) - q.s.rnd (d' * d') - (C * C - d' * d')| ≤ 0.001003 * ε := by
    calc |q.d.rnd (C * C) - q.s.rnd (d' * d') - (C * C - d' * d')|
        = |(q.d.rnd (C * C) - C * C) - (q.s.rnd (d' * d') - d' * d')| := by ring_nf
      _ ≤ _ := abs_sub _ _
      _ ≤ _ := by norm_num at *; linarith
  have r4 : |C * C - d' * d'| ≤ 1.0011 := (abs_sub _ _).trans (by norm_num at *; linarith)
  have r5 : |q.d.rnd (q.d.rnd (C * C) - q.s.rnd (d' * d')) - (C * C - d' * d')| ≤ 0.00201 * ε := (h.rd r4 r3).trans (by nlinarith)
  obtain ⟨P, eP⟩ : ∃ P, P = q.d.rnd (q.d.rnd (C * C) - q.s.rnd (d' * d')) := ⟨_, rfl⟩
  have es : s = q.d.rnd √P := by rw [eP]
  rw [← eP] at r5 ⊢
  have hCd : 0.1 ≤ C * C - d' * d' := by
    have := le_abs_self (d' * d')
    nlinarith
  have hP : 0 ≤ P := by
    have := (abs_le.1 r5).1
    norm_num at *; linarith
  refine ⟨hP, ?_, ?_⟩
  · show |Real.cos Z - √(Real.cos Z * Real.cos Z - d * d)| ≤ _
    rw [abs_of_nonneg a2]; exact a3
  obtain ⟨t, et⟩ : ∃ t, t = √(C * C - d' * d') := ⟨_, rfl⟩
  rw [← et] at b1 b2 b3 b4
  have r6 : |√P - t| ≤ 0.0064 * ε := by
    rw [← b4] at r5
    exact (root_err hP b1 r5).trans (by linarith)
  have ht1 : |t| ≤ 1.0001 := by
    rw [abs_of_nonneg (by linarith)]; linarith
  have hCt : |C - t| ≤ 0.0000031 := by rw [abs_of_nonneg b2]; exact b3
  have r11 := sag_lip (C := Real.cos Z) (d := d) (C' := C) (d' := d') (by linarith) (by linarith) (by linarith) hdd hCZ hd'
  rw [← et] at r11
  rw [es]
  exact e_tail h r6 ht1 hCt (r11.trans (by linarith))

/-- the alignment coefficient -/
theorem cali_err (h : Prec q ε) {e E z Z d D : ℝ} (hE : |E| ≤ 0.0000031) (he : |e - E| ≤ 0.0086 * ε) (hz : |z - Z| ≤ 9.4 * ε)
    (hd : |d - D| ≤ 9.7 * ε) (hD : 100 * ε ≤ |D|) (hr : |4 * E * Real.sin Z| ≤ 0.124 * |D|) :
    |q.s.rnd (q.d.rnd (q.d.rnd (q.s.rnd (4 * e) * q.d.sin z) / d)) - 4 * E * Real.sin Z / D| ≤ 1.5 * ε / |D| + 0.2 * ε ∧
    |4 * E * Real.sin Z / D| ≤ 0.125 := by
  have h0 := h.pos
  have h1 := h.le'
  have hDp : 0 < |D| := by linarith
  have k1 : |4 * e - 4 * E| ≤ 0.0344 * ε := by
    rw [← mul_sub, abs_mul, abs_of_pos (by norm_num : (0 : ℝ) < 4)]; linarith
  have k2 : |4 * E| ≤ 0.0000124 := by rw [abs_mul, abs_of_pos (by norm_num : (0 : ℝ) < 4)]; linarith
  have k3 : |q.s.rnd (4 * e) - 4 * E| ≤ 0.0345 * ε := (h.rs k2 k1).trans (by nlinarith)
  have k4 : |q.d.sin z - Real.sin Z| ≤ 9.41 * ε := by
    have := h.d.sin z
    unfold Err.Rel at this
    have h2 := Real.abs_sin_le_one z
    have h3 := Real.abs_sin_sub_sin_le z Z
    have h4 : |q.d.sin z - Real.sin z| ≤ ε / 1000 := le_trans this (by nlinarith)
    calc |q.d.sin z - Real.sin Z| = |(q.d.sin z - Real.sin z) + (Real.sin z - Real.sin Z)| := by ring_nf
      _ ≤ _ := abs_add_le _ _
      _ ≤ _ := by norm_num at *; linarith
  obtain ⟨G, eG⟩ : ∃ G, G = q.s.rnd (4 * e) := ⟨_, rfl⟩
  obtain ⟨S, eS⟩ : ∃ S, S = q.d.sin z := ⟨_, rfl⟩
  rw [← eG] at k3 ⊢
  rw [← eS] at k4 ⊢
  have hsZ := Real.abs_sin_le_one Z
  have k5 : |G * S - 4 * E * Real.sin Z| ≤ 0.0347 * ε := by
    have e' : G * S - 4 * E * Real.sin Z = (G - 4 * E) * S + 4 * E * (S - Real.sin Z) := by ring
    have hS : |S| ≤ 1.001 := by
      calc |S| = |(S - Real.sin Z) + Real.sin Z| := by ring_nf
        _ ≤ _ := abs_add_le _ _
        _ ≤ _ := by norm_num at *; linarith
    rw [e']
    refine (abs_add_le _ _).trans ?_
    rw [abs_mul, abs_mul (4 * E)]
    have f1 : |G - 4 * E| * |S| ≤ 0.0345 * ε * 1.001 := mul_le_mul k3 hS (abs_nonneg _) (by positivity)
    have f2 : |4 * E| * |S - Real.sin Z| ≤ 0.0000124 * (9.41 * ε) := mul_le_mul k2 k4 (abs_nonneg _) (by norm_num)
    norm_num at *
    linarith
  obtain ⟨N, eN⟩ : ∃ N, N = 4 * E * Real.sin Z := ⟨_, rfl⟩
  rw [← eN] at k5 hr ⊢
  have hN : |N| ≤ 0.0000124 := by
    rw [eN, abs_mul]
    calc _ ≤ 0.0000124 * 1 := mul_le_mul k2 hsZ (abs_nonneg _) (by norm_num)
      _ ≤ _ := by norm_num
  have k6 : |q.d.rnd (G * S) - N| ≤ 0.0348 * ε := (h.rd hN k5).trans (by nlinarith)
  have hr : |N / D| ≤ 0.124 := by
    rw [abs_div, div_le_iff₀ hDp]; exact hr
  obtain ⟨l1, l2⟩ := quot_err hDp k6 hd (by norm_num at *; linarith)
  obtain ⟨X, eX⟩ : ∃ X, X = ε / |D| := ⟨_, rfl⟩
  have e1 : 1.5 * ε / |D| = 1.5 * X := by rw [eX]; ring
  have hX0 : 0 < X := by rw [eX]; positivity
  have l3 : |q.d.rnd (G * S) / d - N / D| ≤ 1.4 * X := by
    refine l2.trans ?_
    have : |N / D| * (9.7 * ε) ≤ 0.124 * (9.7 * ε) := by gcongr
    rw [div_le_iff₀ (by positivity), eX]
    have e2 : 1.4 * (ε / |D|) * (0.9 * |D|) = 1.26 * ε := by field_simp; norm_num
    rw [e2]
    norm_num at *
    linarith
  have hX1 : X ≤ 0.01 := by
    rw [eX, div_le_iff₀ hDp]; norm_num at *; linarith
  rw [e1]
  refine ⟨?_, hr.trans (by norm_num)⟩
  have l4 : |q.d.rnd (q.d.rnd (G * S) / d) - N / D| ≤ 1.4 * X + 0.001 * ε := (h.rd hr l3).trans (by nlinarith)
  exact (h.rs hr l4).trans (by nlinarith)

end Verif.Mx
