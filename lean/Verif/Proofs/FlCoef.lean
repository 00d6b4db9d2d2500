import Verif.Proofs.FlGeo
import Verif.Proofs.FlLin
import Verif.Model.ModisInterp
import Mathlib.Analysis.Convex.SpecificFunctions.Deriv
import Mathlib.Analysis.Real.Pi.Bounds

/-!
# The expansion and alignment coefficients with rounding
-/

namespace Verif.Fl
open Verif Verif.Geo Verif.Modis Verif.FlGeo
variable {r : Rounding}

/-- Accuracy of the library: sine and arc sine to 0.1 % of the value, cosine to 0.001.  (Real libraries are accurate to
about one last bit.) -/
structure LibAcc (r : Rounding) : Prop where
  sin : ∀ x, |r.sin x - Real.sin x| ≤ |Real.sin x| / 1000
  cos : ∀ x, |r.cos x - Real.cos x| ≤ 1 / 1000
  asin : ∀ x, |x| ≤ 1 → |r.asin x - Real.arcsin x| ≤ |Real.arcsin x| / 1000

theorem u_le_12 (hp : 12 ≤ r.p) : r.u ≤ 1 / 4096 := by
  unfold Rounding.u
  have : (2 : ℝ) ^ (-(r.p : ℤ)) ≤ 2 ^ (-12 : ℤ) := zpow_le_zpow_right₀ (by norm_num) (by omega)
  exact this.trans (by norm_num)

/-- correctly rounded functions are accurate -/
theorem libAcc_correct (p : Nat) (hp : 12 ≤ p) : LibAcc (Rounding.correct p (by omega)) := by
  set r := Rounding.correct p (by omega) with hr
  have hu : r.u ≤ 1 / 4096 := u_le_12 hp
  have key : ∀ x, |r.rnd x - x| ≤ |x| / 1000 := fun x => (r.abs_rnd_sub_le_u x).trans (by
    have := mul_le_mul_of_nonneg_right hu (abs_nonneg x)
    have := abs_nonneg x
    linarith)
  exact ⟨fun x => key _, fun x => (key _).trans (by have := Real.abs_cos_le_one x; linarith), fun x _ => key _⟩

theorem abs_rnd_le (x : ℝ) : |r.rnd x| ≤ (1 + r.u) * |x| := by
  have := r.abs_rnd_sub_le_u x
  calc |r.rnd x| = |(r.rnd x - x) + x| := by ring_nf
    _ ≤ |r.rnd x - x| + |x| := abs_add_le _ _
    _ ≤ _ := by linarith

theorem LibAcc.abs_sin_le (h : LibAcc r) (x : ℝ) : |r.sin x| ≤ 1.001 * |Real.sin x| := by
  have := h.sin x
  calc |r.sin x| = |(r.sin x - Real.sin x) + Real.sin x| := by ring_nf
    _ ≤ |r.sin x - Real.sin x| + |Real.sin x| := abs_add_le _ _
    _ ≤ _ := by linarith

theorem LibAcc.abs_cos_le (h : LibAcc r) (x : ℝ) : |r.cos x| ≤ 1.001 := by
  have := h.cos x
  have h1 := Real.abs_cos_le_one x
  calc |r.cos x| = |(r.cos x - Real.cos x) + Real.cos x| := by ring_nf
    _ ≤ |r.cos x - Real.cos x| + |Real.cos x| := abs_add_le _ _
    _ ≤ _ := by linarith

theorem LibAcc.abs_asin_le (h : LibAcc r) {x : ℝ} (hx : |x| ≤ 1) : |r.asin x| ≤ 1.001 * |Real.arcsin x| := by
  have := h.asin x hx
  calc |r.asin x| = |(r.asin x - Real.arcsin x) + Real.arcsin x| := by ring_nf
    _ ≤ |r.asin x - Real.arcsin x| + |Real.arcsin x| := abs_add_le _ _
    _ ≤ _ := by linarith

/-- concavity of the sine -/
theorem mul_sin_le {c x : ℝ} (hc0 : 0 ≤ c) (hc1 : c ≤ 1) (hx0 : 0 ≤ x) (hx1 : x ≤ Real.pi) :
    c * Real.sin x ≤ Real.sin (c * x) := by
  have := strictConcaveOn_sin_Icc.concaveOn.2 (x := x) (y := 0) ⟨hx0, hx1⟩ ⟨le_rfl, Real.pi_pos.le⟩ hc0
    (sub_nonneg.2 hc1) (by ring)
  simpa using this

theorem abs_arcsin (x : ℝ) : |Real.arcsin x| = Real.arcsin |x| := by
  rcases abs_cases x with ⟨e, h⟩ | ⟨e, h⟩ <;> rw [e]
  · rw [abs_of_nonneg (Real.arcsin_nonneg.2 h)]
  · rw [Real.arcsin_neg, abs_of_nonpos (Real.arcsin_nonpos.2 h.le)]

theorem abs_sin_of {x : ℝ} (h : |x| ≤ Real.pi) : |Real.sin x| = Real.sin |x| := by
  rcases abs_cases x with ⟨e, h'⟩ | ⟨e, h'⟩ <;> rw [e] at h ⊢
  · rw [abs_of_nonneg (Real.sin_nonneg_of_nonneg_of_le_pi h' h)]
  · rw [Real.sin_neg, abs_of_nonpos]
    have := Real.sin_nonneg_of_nonneg_of_le_pi (by linarith : 0 ≤ -x) h
    rw [Real.sin_neg] at this; linarith

/-! ### the constants -/

/-- the radius as rounded -/
noncomputable def fR (r : Rounding) : ℝ := r.rnd ((6370997 : ℕ) / (10 : ℝ) ^ 3)
/-- the altitude as rounded -/
noncomputable def fH (r : Rounding) : ℝ := r.rnd ((7090 : ℕ) / (10 : ℝ) ^ 1)
/-- the sum as rounded -/
noncomputable def fRH (r : Rounding) : ℝ := r.rnd (fR r + fH r)

theorem satR_eq : (satR : Fl r) = val (fR r) := rfl
theorem satH_eq : (satH : Fl r) = val (fH r) := rfl
theorem satRH_eq : (satR + satH : Fl r) = val (fRH r) := rfl

theorem consts (hp : 12 ≤ r.p) : 6369 ≤ fR r ∧ fR r ≤ 6373 ∧ 708 ≤ fH r ∧ fH r ≤ 710 ∧
    1.1 * fR r ≤ fRH r ∧ fRH r ≤ 1.12 * fR r := by
  have hu := u_le_12 hp
  have hu0 := r.u_pos
  have h1 := abs_le.1 (r.abs_rnd_sub_le_u ((6370997 : ℕ) / (10 : ℝ) ^ 3))
  have h2 := abs_le.1 (r.abs_rnd_sub_le_u ((7090 : ℕ) / (10 : ℝ) ^ 1))
  have h3 := abs_le.1 (r.abs_rnd_sub_le_u (fR r + fH r))
  rw [abs_of_nonneg (by positivity)] at h1 h2
  norm_num at h1 h2
  have e1 : r.rnd (6370997 / 1000) = fR r := by unfold fR; norm_num
  have e2 : r.rnd 709 = fH r := by unfold fH; norm_num
  rw [e1] at h1
  rw [e2] at h2
  have a1 : 6369 ≤ fR r := by nlinarith [h1.1]
  have a2 : fR r ≤ 6373 := by nlinarith [h1.2]
  have a3 : 708 ≤ fH r := by nlinarith [h2.1]
  have a4 : fH r ≤ 710 := by nlinarith [h2.2]
  rw [abs_of_nonneg (by linarith)] at h3
  have e3 : r.rnd (fR r + fH r) = fRH r := rfl
  rw [e3] at h3
  refine ⟨a1, a2, a3, a4, ?_, ?_⟩
  · nlinarith [h3.1]
  · nlinarith [h3.2]

/-! ### the angles -/

/-- degrees to radians -/
theorem deg2rad_num (hp : 12 ≤ r.p) (a : ℝ) (ha : |a| ≤ 70) :
    ∃ x, cyDeg2rad (val a : Fl r) = val x ∧ Rep r.p x ∧ |x| ≤ 1.24 ∧ (x = 0 ↔ a = 0) := by
  have h180 : (180 : Fl r) = val 180 := by
    have := ofNat_of_rep (r := r) 180 (by simpa using rep_180 (r := r) (by omega))
    simpa using this
  have hpi : 0 < r.rnd Real.pi := r.rnd_pos Real.pi_pos
  refine ⟨r.rnd (a * r.rnd (r.rnd Real.pi / 180)), ?_, r.rep _, ?_, ?_⟩
  · unfold cyDeg2rad
    rw [toFloating_eq]
    rw [h180, pi_eq, val_div_of_ne _ (by norm_num), val_mul]
  · have hu := u_le_12 hp
    have hu0 := r.u_pos
    have h1 := abs_rnd_le (r := r) (a * r.rnd (r.rnd Real.pi / 180))
    have h2 := abs_rnd_le (r := r) (r.rnd Real.pi / 180)
    have h3 := abs_rnd_le (r := r) Real.pi
    rw [abs_of_pos Real.pi_pos] at h3
    rw [abs_div, abs_of_pos (by norm_num : (0:ℝ) < 180)] at h2
    have hq : |r.rnd Real.pi| ≤ 3.1424 := by
      have := Real.pi_lt_d4
      nlinarith
    have hq2 : |r.rnd (r.rnd Real.pi / 180)| ≤ 0.01747 := by nlinarith [abs_nonneg (r.rnd Real.pi)]
    rw [abs_mul] at h1
    have hq3 : |a| * |r.rnd (r.rnd Real.pi / 180)| ≤ 70 * 0.01747 :=
      mul_le_mul ha hq2 (abs_nonneg _) (by norm_num)
    nlinarith
  · rw [r.rnd_eq_zero, mul_eq_zero, r.rnd_eq_zero]
    constructor
    · rintro (h | h)
      · exact h
      · exact absurd h (by positivity)
    · exact Or.inl

/-- the sine of an angle of at most 71 degrees -/
theorem sin_bound {x : ℝ} (h : |x| ≤ 1.24) : |Real.sin x| ≤ 0.973 := by
  have h1 := Real.one_sub_sq_div_two_le_cos (x := x)
  have h2 := Real.sin_sq_add_cos_sq x
  have h3 : x ^ 2 ≤ 1.24 ^ 2 := by
    rw [← sq_abs]; exact pow_le_pow_left₀ (abs_nonneg _) h 2
  have h4 : 0.2312 ≤ Real.cos x := by norm_num at h3 ⊢; linarith
  have h5 : 0.2312 ^ 2 ≤ Real.cos x ^ 2 := pow_le_pow_left₀ (by norm_num) h4 2
  refine abs_le_of_sq_le_sq ?_ (by norm_num)
  nlinarith

/-- factor of the sine in the angle at the centre of the Earth -/
noncomputable def fQ (r : Rounding) : ℝ := (1 + r.u) ^ 2 * 1.001 * (fR r / fRH r)

theorem fQ_bounds (hp : 12 ≤ r.p) : 0 < fQ r ∧ fQ r ≤ 0.915 := by
  obtain ⟨h1, _, _, _, h5, _⟩ := consts hp
  have hu := u_le_12 hp
  have hu0 := r.u_pos
  have hpos : 0 < fRH r := by linarith
  have hq : fR r / fRH r ≤ 1 / 1.1 := by
    rw [div_le_div_iff₀ hpos (by norm_num)]; linarith
  have hq0 : 0 < fR r / fRH r := div_pos (by linarith) hpos
  unfold fQ
  refine ⟨by positivity, ?_⟩
  have : (1 + r.u) ^ 2 ≤ 1.0005 := by nlinarith
  calc (1 + r.u) ^ 2 * 1.001 * (fR r / fRH r) ≤ 1.0005 * 1.001 * (1 / 1.1) := by gcongr
    _ ≤ _ := by norm_num

theorem phi_num (hp : 12 ≤ r.p) (hl : LibAcc r) (x : ℝ) (hx : |x| ≤ 1.24) :
    ∃ f, computePhi (val x : Fl r) = val f ∧ Rep r.p f ∧ |f| ≤ 0.92 * |x| ∧
      |f| ≤ 1.001 * Real.arcsin (fQ r * 0.973) := by
  obtain ⟨h1, _, _, _, h5, _⟩ := consts hp
  obtain ⟨q0, q1⟩ := fQ_bounds hp
  have hu0 := r.u_pos
  have hpos : 0 < fRH r := by linarith
  have hR : 0 < fR r := by linarith
  set q := r.rnd (r.rnd (fR r * r.sin x) / fRH r) with hq
  have hqs : |q| ≤ fQ r * |Real.sin x| := by
    have e1 := abs_rnd_le (r := r) (r.rnd (fR r * r.sin x) / fRH r)
    have e2 := abs_rnd_le (r := r) (fR r * r.sin x)
    rw [abs_mul, abs_of_pos hR] at e2
    rw [abs_div, abs_of_pos hpos] at e1
    have e3 := hl.abs_sin_le x
    calc |q| ≤ (1 + r.u) * (|r.rnd (fR r * r.sin x)| / fRH r) := e1
      _ ≤ (1 + r.u) * ((1 + r.u) * (fR r * (1.001 * |Real.sin x|)) / fRH r) := by gcongr; exact e2.trans (by gcongr)
      _ = _ := by unfold fQ; ring
  have hqs2 : |q| ≤ fQ r * 0.973 := hqs.trans (by gcongr; exact sin_bound hx)
  have hq1 : |q| ≤ 1 := hqs2.trans (by nlinarith)
  refine ⟨r.asin q, ?_, r.asin_rep _, ?_, ?_⟩
  · unfold computePhi
    rw [satRH_eq, satR_eq, sin_val, val_mul, val_div_of_ne _ hpos.ne', asin_val_of hq1, toFloating_eq]
  · refine (hl.abs_asin_le hq1).trans ?_
    rw [abs_arcsin]
    have hxpi : |x| ≤ Real.pi := hx.trans (by have := Real.pi_gt_three; linarith)
    have : Real.arcsin |q| ≤ fQ r * |x| := by
      rw [Real.arcsin_le_iff_le_sin ⟨by linarith [abs_nonneg q], hq1⟩]
      · rw [abs_sin_of hxpi] at hqs
        exact hqs.trans (mul_sin_le q0.le (by linarith) (abs_nonneg _) hxpi)
      · refine ⟨?_, ?_⟩
        · have : 0 ≤ fQ r * |x| := by positivity
          have := Real.pi_pos; linarith
        · have := Real.pi_gt_three
          nlinarith [abs_nonneg x]
    nlinarith [abs_nonneg x]
  · refine (hl.abs_asin_le hq1).trans ?_
    rw [abs_arcsin]
    gcongr

/-- the mean of two such angles, and the zenith angle it corresponds to -/
theorem zeta_num (hp : 12 ≤ r.p) (hl : LibAcc r) {f g : ℝ} (hf : |f| ≤ 1.001 * Real.arcsin (fQ r * 0.973))
    (hg : |g| ≤ 1.001 * Real.arcsin (fQ r * 0.973)) :
    ∃ m z, (val f + val g : Fl r) / 2 = val m ∧ computeZeta (val m : Fl r) = val z ∧ Rep r.p z ∧ 0.19 ≤ r.cos z := by
  obtain ⟨h1, h2, _, _, h5, h6⟩ := consts hp
  obtain ⟨q0, q1⟩ := fQ_bounds hp
  have hu := u_le_12 hp
  have hu0 := r.u_pos
  have hpos : 0 < fRH r := by linarith
  have hR : 0 < fR r := by linarith
  have h2' : (2 : Fl r) = val 2 := by
    have := ofNat_of_rep (r := r) 2 (by exact_mod_cast rep_small (r := r) (by omega) (n := 2) (by norm_num))
    simpa using this
  set y := Real.arcsin (fQ r * 0.973) with hy
  set c := fQ r * 0.973 with hc
  have hc0 : 0 < c := by positivity
  have hc1 : c ≤ 0.8903 := by rw [hc]; nlinarith
  have hy0 : 0 ≤ y := Real.arcsin_nonneg.2 hc0.le
  have hsy : Real.sin y = c := Real.sin_arcsin (by linarith) (by linarith)
  -- the angle is not near a right angle
  have hy1 : y ≤ Real.pi / 2 - 0.4 := by
    have e1 : Real.cos y = √(1 - c ^ 2) := Real.cos_arcsin c
    have e2 : 0.4 ≤ √(1 - c ^ 2) := by
      apply Real.le_sqrt_of_sq_le
      nlinarith
    have e3 : Real.cos y = Real.sin (Real.pi / 2 - y) := (Real.sin_pi_div_two_sub y).symm
    have e4 : Real.sin (Real.pi / 2 - y) ≤ Real.pi / 2 - y := Real.sin_le (by linarith [Real.arcsin_le_pi_div_two c])
    linarith
  set m := r.rnd (r.rnd (f + g) / 2) with hm
  set k : ℝ := (1 + r.u) ^ 2 * 1.001 with hk
  have hk1 : 1 ≤ k := by rw [hk]; nlinarith
  have hk2 : k ≤ 1.0016 := by rw [hk]; nlinarith
  have hmk : |m| ≤ k * y := by
    have e1 := abs_rnd_le (r := r) (r.rnd (f + g) / 2)
    have e2 := abs_rnd_le (r := r) (f + g)
    rw [abs_div, abs_two] at e1
    have e3 : |f + g| ≤ 2 * (1.001 * y) := (abs_add_le _ _).trans (by linarith)
    calc |m| ≤ (1 + r.u) * (|r.rnd (f + g)| / 2) := e1
      _ ≤ (1 + r.u) * ((1 + r.u) * (2 * (1.001 * y)) / 2) := by gcongr; exact e2.trans (by gcongr)
      _ = _ := by rw [hk]; ring
  have hpi4 := Real.pi_lt_d4
  have hky : k * y ≤ Real.pi / 2 := by nlinarith
  have hmpi : |m| ≤ Real.pi := hmk.trans (by linarith [Real.pi_pos])
  have hsm : |Real.sin m| ≤ k * c := by
    rw [abs_sin_of hmpi]
    have e1 : Real.sin |m| ≤ Real.sin (k * y) :=
      Real.sin_le_sin_of_le_of_le_pi_div_two (by linarith [abs_nonneg m, Real.pi_pos]) hky hmk
    have e2 := mul_sin_le (c := 1 / k) (x := k * y) (by positivity) (by rw [div_le_one (by linarith)]; exact hk1)
      (by positivity) (by linarith [Real.pi_pos])
    rw [show 1 / k * (k * y) = y by field_simp, hsy] at e2
    have e3 : Real.sin (k * y) = k * (1 / k * Real.sin (k * y)) := by field_simp
    rw [e3] at e1
    exact e1.trans (by gcongr)
  set q := r.rnd (r.rnd (fRH r * r.sin m) / fR r) with hq
  have hqb : |q| ≤ 0.98 := by
    have e1 := abs_rnd_le (r := r) (r.rnd (fRH r * r.sin m) / fR r)
    have e2 := abs_rnd_le (r := r) (fRH r * r.sin m)
    rw [abs_mul, abs_of_pos hpos] at e2
    rw [abs_div, abs_of_pos hR] at e1
    have e3 := hl.abs_sin_le m
    calc |q| ≤ (1 + r.u) * (|r.rnd (fRH r * r.sin m)| / fR r) := e1
      _ ≤ (1 + r.u) * ((1 + r.u) * (fRH r * (1.001 * (k * c))) / fR r) := by
        gcongr
        exact e2.trans (by gcongr; exact e3.trans (by gcongr))
      _ = (1 + r.u) ^ 6 * 1.001 ^ 3 * 0.973 := by
        rw [hc, hk]; unfold fQ; field_simp
      _ ≤ (1 + 1 / 4096) ^ 6 * 1.001 ^ 3 * 0.973 := by gcongr
      _ ≤ _ := by norm_num
  have hq1 : |q| ≤ 1 := hqb.trans (by norm_num)
  refine ⟨m, r.asin q, ?_, ?_, r.asin_rep _, ?_⟩
  · rw [h2', val_add, val_div_of_ne _ (by norm_num)]
  · unfold computeZeta
    rw [satRH_eq, satR_eq, sin_val, val_mul, val_div_of_ne _ hR.ne', asin_val_of hq1, toFloating_eq]
  · have e1 := abs_le.1 (hl.cos (r.asin q))
    have e2 := hl.asin q hq1
    have e3 : |Real.arcsin q| ≤ 1.6 := by
      rw [abs_le]
      have := Real.neg_pi_div_two_le_arcsin q
      have := Real.arcsin_le_pi_div_two q
      constructor <;> linarith
    have e4 : 0.198 ≤ Real.cos (Real.arcsin q) := by
      rw [Real.cos_arcsin]
      apply Real.le_sqrt_of_sq_le
      have : q ^ 2 ≤ 0.98 ^ 2 := by rw [← sq_abs]; exact pow_le_pow_left₀ (abs_nonneg _) hqb 2
      norm_num at this ⊢
      linarith
    have e5 := abs_le.1 (Real.abs_cos_sub_cos_le (r.asin q) (Real.arcsin q))
    linarith [e5.1, e1.1]

/-- the number under the root is not negative -/
theorem root_num (hp : 12 ≤ r.p) (hl : LibAcc r) {w : Nat} (hw : w ≤ 50) (m : ℝ) {z : ℝ} (hz : 0.19 ≤ r.cos z) :
    ∃ s, Rep r.p s ∧
      (let d : Fl r := ((satR + satH) / satR * Trig.cos (val m) - Trig.cos (val z)) * (Arith.ofInt w / (2 * satH))
       Trig.sqrt (Trig.cos (val z) * Trig.cos (val z) - d * d)) = val s := by
  obtain ⟨h1, h2, h3, h4, h5, h6⟩ := consts hp
  have hu := u_le_12 hp
  have hu0 := r.u_pos
  have hpos : 0 < fRH r := by linarith
  have hR : 0 < fR r := by linarith
  have h2' : (2 : Fl r) = val 2 := by
    have := ofNat_of_rep (r := r) 2 (by exact_mod_cast rep_small (r := r) (by omega) (n := 2) (by norm_num))
    simpa using this
  have hHH : 1400 ≤ r.rnd (2 * fH r) := by
    have := abs_le.1 (r.abs_rnd_sub_le_u (2 * fH r))
    rw [abs_of_nonneg (by linarith)] at this
    nlinarith [this.1]
  set sb := r.rnd (r.rnd ((w : ℤ) : ℝ) / r.rnd (2 * fH r)) with hsb
  set d := r.rnd (r.rnd (r.rnd (r.rnd (fRH r / fR r) * r.cos m) - r.cos z) * sb) with hd
  have hsbb : |sb| ≤ 0.04 := by
    have e1 := abs_rnd_le (r := r) (r.rnd ((w : ℤ) : ℝ) / r.rnd (2 * fH r))
    have e2 := abs_rnd_le (r := r) ((w : ℤ) : ℝ)
    have hw' : |((w : ℤ) : ℝ)| ≤ 50 := by
      rw [abs_of_nonneg (by positivity)]; exact_mod_cast hw
    rw [abs_div, abs_of_pos (by linarith : 0 < r.rnd (2 * fH r))] at e1
    calc |sb| ≤ (1 + r.u) * (|r.rnd ((w : ℤ) : ℝ)| / r.rnd (2 * fH r)) := e1
      _ ≤ (1 + 1 / 4096) * ((1 + 1 / 4096) * 50 / 1400) := by
        gcongr
        exact e2.trans (by gcongr)
      _ ≤ _ := by norm_num
  have hg : |r.rnd (fRH r / fR r)| ≤ 1.13 := by
    have e1 := abs_rnd_le (r := r) (fRH r / fR r)
    rw [abs_of_pos (div_pos hpos hR)] at e1
    have e2 : fRH r / fR r ≤ 1.12 := by rw [div_le_iff₀ hR]; exact h6
    calc _ ≤ _ := e1
      _ ≤ (1 + 1 / 4096) * 1.12 := by gcongr
      _ ≤ _ := by norm_num
  have hgc : |r.rnd (r.rnd (fRH r / fR r) * r.cos m)| ≤ 1.14 := by
    have e1 := abs_rnd_le (r := r) (r.rnd (fRH r / fR r) * r.cos m)
    rw [abs_mul] at e1
    calc _ ≤ _ := e1
      _ ≤ (1 + 1 / 4096) * (1.13 * 1.001) := by gcongr; exact hl.abs_cos_le m
      _ ≤ _ := by norm_num
  have hdiff : |r.rnd (r.rnd (r.rnd (fRH r / fR r) * r.cos m) - r.cos z)| ≤ 2.2 := by
    have e1 := abs_rnd_le (r := r) (r.rnd (r.rnd (fRH r / fR r) * r.cos m) - r.cos z)
    calc _ ≤ _ := e1
      _ ≤ (1 + 1 / 4096) * (1.14 + 1.001) := by
        gcongr
        exact (abs_sub _ _).trans (add_le_add hgc (hl.abs_cos_le z))
      _ ≤ _ := by norm_num
  have hdd : |d| ≤ 0.19 := by
    have e1 := abs_rnd_le (r := r) (r.rnd (r.rnd (r.rnd (fRH r / fR r) * r.cos m) - r.cos z) * sb)
    rw [abs_mul] at e1
    calc _ ≤ _ := e1
      _ ≤ (1 + 1 / 4096) * (2.2 * 0.04) := by gcongr
      _ ≤ _ := by norm_num
  have hge : 0 ≤ r.rnd (r.rnd (r.cos z * r.cos z) - r.rnd (d * d)) := by
    apply r.rnd_nonneg
    rw [sub_nonneg]
    apply r.mono
    rw [← abs_mul_abs_self d]
    exact mul_le_mul (hdd.trans hz) (hdd.trans hz) (abs_nonneg _) (by linarith)
  refine ⟨r.rnd √(r.rnd (r.rnd (r.cos z * r.cos z) - r.rnd (d * d))), r.rep _, ?_⟩
  simp only [satRH_eq]
  rw [satR_eq, satH_eq, h2', ofInt_eq, val_mul, val_div_of_ne _ (by linarith : r.rnd (2 * fH r) ≠ 0), val_div_of_ne _ hR.ne']
  simp only [cos_val, val_mul, val_sub]
  exact sqrt_val_of hge

end Verif.Fl
