import Mathlib.Analysis.SpecialFunctions.Trigonometric.Inverse
import Mathlib.Analysis.SpecialFunctions.Trigonometric.Bounds
import Mathlib.Analysis.Real.Pi.Bounds
import Mathlib.Analysis.Real.Pi.Irrational
import Mathlib.Tactic.Linarith
import Mathlib.Tactic.Positivity
import Mathlib.Tactic.FieldSimp
import Mathlib.Tactic.NormNum
import Mathlib.Tactic.Ring
import Verif.Base.Fl

/-!
# Relative errors, and the sensitivity of the angles

Real analysis used for the error bounds of the conversions (no model code here).
-/

namespace Verif.Err
open Verif

/-- `a` approximates `b` with relative error at most `e`. -/
def Rel (e a b : ℝ) : Prop := |a - b| ≤ e * |b|

theorem Rel.mono {e f a b : ℝ} (h : Rel e a b) (hef : e ≤ f) : Rel f a b :=
  le_trans h (mul_le_mul_of_nonneg_right hef (abs_nonneg b))

theorem Rel.refl {e : ℝ} (he : 0 ≤ e) (a : ℝ) : Rel e a a := by
  unfold Rel; rw [sub_self, abs_zero]; positivity

theorem Rel.abs_le {e a b : ℝ} (h : Rel e a b) : |a| ≤ (1 + e) * |b| := by
  unfold Rel at h
  calc |a| = |(a - b) + b| := by ring_nf
    _ ≤ |a - b| + |b| := abs_add_le _ _
    _ ≤ _ := by linarith

theorem Rel.le_abs {e a b : ℝ} (h : Rel e a b) : (1 - e) * |b| ≤ |a| := by
  unfold Rel at h
  have : |b| ≤ |a| + |a - b| := by
    calc |b| = |a - (a - b)| := by ring_nf
      _ ≤ |a| + |a - b| := abs_sub _ _
  linarith

theorem Rel.trans {e f a b c : ℝ} (h : Rel e a b) (h' : Rel f b c) (he : 0 ≤ e) : Rel (e + f + e * f) a c := by
  have h1 := h'.abs_le
  unfold Rel at *
  calc |a - c| = |(a - b) + (b - c)| := by ring_nf
    _ ≤ |a - b| + |b - c| := abs_add_le _ _
    _ ≤ e * |b| + f * |c| := add_le_add h h'
    _ ≤ e * ((1 + f) * |c|) + f * |c| := by gcongr
    _ = _ := by ring

theorem Rel.mul {e f a b c d : ℝ} (h : Rel e a b) (h' : Rel f c d) (he : 0 ≤ e) : Rel (e + f + e * f) (a * c) (b * d) := by
  have h1 := h'.abs_le
  unfold Rel at *
  calc |a * c - b * d| = |(a - b) * c + b * (c - d)| := by ring_nf
    _ ≤ |(a - b) * c| + |b * (c - d)| := abs_add_le _ _
    _ = |a - b| * |c| + |b| * |c - d| := by rw [abs_mul, abs_mul]
    _ ≤ (e * |b|) * ((1 + f) * |d|) + |b| * (f * |d|) := by gcongr
    _ = _ := by rw [abs_mul]; ring

theorem Rel.inv {e a b : ℝ} (h : Rel e a b) (he : e < 1) : Rel (e / (1 - e)) a⁻¹ b⁻¹ := by
  have h2 := h.le_abs
  unfold Rel at *
  by_cases hb : b = 0
  · rw [hb, abs_zero, mul_zero, sub_zero] at h
    rw [abs_nonpos_iff.1 h, hb]; simp
  · have hbp : 0 < |b| := abs_pos.2 hb
    have ha : a ≠ 0 := by
      rintro rfl
      rw [abs_zero] at h2
      have : 0 < (1 - e) * |b| := mul_pos (by linarith) hbp
      linarith
    have hap : 0 < |a| := abs_pos.2 ha
    have e1 : a⁻¹ - b⁻¹ = (b - a) / (a * b) := by field_simp
    have h1e : 0 < 1 - e := by linarith
    rw [e1, abs_div, abs_mul, abs_inv, abs_sub_comm b a, div_mul_eq_mul_div, div_le_div_iff₀ (by positivity) h1e]
    have h0 := abs_nonneg (a - b)
    have : e * |b|⁻¹ * (|a| * |b|) = e * |a| := by field_simp
    rw [this]
    have he0 : 0 ≤ e := by
      by_contra hc
      have := mul_neg_of_neg_of_pos (not_le.1 hc) hbp
      linarith
    nlinarith

theorem Rel.div {e f a b c d : ℝ} (h : Rel e a b) (h' : Rel f c d) (he : 0 ≤ e) (hf : f < 1) :
    Rel ((e + f) / (1 - f)) (a / c) (b / d) := by
  rw [div_eq_mul_inv a c, div_eq_mul_inv b d]
  refine (h.mul (h'.inv hf) he).mono (le_of_eq ?_)
  have : 1 - f ≠ 0 := by linarith
  field_simp; ring

theorem Rel.sqrt {e a b : ℝ} (h : Rel e a b) (ha : 0 ≤ a) (hb : 0 ≤ b) : Rel e √a √b := by
  unfold Rel at *
  rcases hb.eq_or_lt with rfl | hb'
  · rw [abs_zero, mul_zero, sub_zero] at h
    rw [abs_nonpos_iff.1 h]; simp
  · have hs := Real.sqrt_pos.2 hb'
    have hs' := Real.sqrt_nonneg a
    rw [abs_of_pos hs]
    rw [abs_of_pos hb'] at h
    have e1 : a - b = (√a - √b) * (√a + √b) := by
      ring_nf; rw [Real.sq_sqrt ha, Real.sq_sqrt hb]
    rw [e1, abs_mul, abs_of_pos (by linarith : 0 < √a + √b)] at h
    have e2 : e * b = e * √b * √b := by rw [mul_assoc, Real.mul_self_sqrt hb]
    rw [e2] at h
    have h0 := abs_nonneg (√a - √b)
    have : |√a - √b| * √b ≤ e * √b * √b := le_trans (mul_le_mul_of_nonneg_left (by linarith) h0) h
    exact le_of_mul_le_mul_right this hs

theorem Rel.add {e a b c d : ℝ} (h : Rel e a b) (h' : Rel e c d) (hb : 0 ≤ b) (hd : 0 ≤ d) : Rel e (a + c) (b + d) := by
  unfold Rel at *
  rw [abs_of_nonneg hb] at h
  rw [abs_of_nonneg hd] at h'
  rw [abs_of_nonneg (add_nonneg hb hd)]
  calc |a + c - (b + d)| = |(a - b) + (c - d)| := by ring_nf
    _ ≤ |a - b| + |c - d| := abs_add_le _ _
    _ ≤ _ := by linarith

theorem Rel.rnd {e a b ε : ℝ} {r : Rounding} (h : Rel e a b) (hu : r.u ≤ ε) : Rel (ε + e + ε * e) (r.rnd a) b := by
  have h1 : Rel ε (r.rnd a) a := (show Rel r.u (r.rnd a) a from r.abs_rnd_sub_le_u a).mono hu
  exact h1.trans h (r.u_pos.le.trans hu)

theorem rel_rnd {ε : ℝ} {r : Rounding} (hu : r.u ≤ ε) (a : ℝ) : Rel ε (r.rnd a) a :=
  (show Rel r.u (r.rnd a) a from r.abs_rnd_sub_le_u a).mono hu

/-- The arc cosine is Hölder continuous with exponent 1/2. -/
theorem arccos_holder {a b : ℝ} (ha : |a| ≤ 1) (hb : |b| ≤ 1) :
    |Real.arccos a - Real.arccos b| ≤ Real.pi * √(|a - b| / 2) := by
  wlog hle : Real.arccos b ≤ Real.arccos a generalizing a b with H
  · have := H hb ha (le_of_not_ge hle)
    rwa [abs_sub_comm, abs_sub_comm b a] at this
  set s := Real.arccos a with hs
  set t := Real.arccos b with ht
  have ea : a = Real.cos s := (Real.cos_arccos (abs_le.1 ha).1 (abs_le.1 ha).2).symm
  have eb : b = Real.cos t := (Real.cos_arccos (abs_le.1 hb).1 (abs_le.1 hb).2).symm
  have hs1 := Real.arccos_le_pi a
  have ht0 := Real.arccos_nonneg b
  have hpi := Real.pi_pos
  have hd0 : 0 ≤ (s - t) / 2 := by linarith
  have hd1 : (s - t) / 2 ≤ Real.pi / 2 := by linarith
  -- cos t − cos s = 2 sin((s+t)/2) sin((s−t)/2)
  have e1 : b - a = 2 * Real.sin ((s + t) / 2) * Real.sin ((s - t) / 2) := by
    rw [ea, eb, Real.cos_sub_cos]
    rw [show (t + s) / 2 = (s + t) / 2 by ring, show (t - s) / 2 = -((s - t) / 2) by ring, Real.sin_neg]
    ring
  have hsin0 : 0 ≤ Real.sin ((s - t) / 2) := Real.sin_nonneg_of_nonneg_of_le_pi hd0 (by linarith)
  -- the mean is at least the half difference away from 0 and π
  have hsm : Real.sin ((s - t) / 2) ≤ Real.sin ((s + t) / 2) := by
    rcases le_total ((s + t) / 2) (Real.pi / 2) with h | h
    · exact Real.sin_le_sin_of_le_of_le_pi_div_two (by linarith) h (by linarith)
    · rw [← Real.sin_pi_sub ((s + t) / 2)]
      exact Real.sin_le_sin_of_le_of_le_pi_div_two (by linarith) (by linarith) (by linarith)
  have hj : 2 / Real.pi * ((s - t) / 2) ≤ Real.sin ((s - t) / 2) := Real.mul_le_sin hd0 hd1
  have hj' : (s - t) / Real.pi ≤ Real.sin ((s - t) / 2) := by
    calc _ = 2 / Real.pi * ((s - t) / 2) := by ring
      _ ≤ _ := hj
  have h0 : 0 ≤ (s - t) / Real.pi := div_nonneg (by linarith) hpi.le
  have h2 : 2 * ((s - t) / Real.pi) ^ 2 ≤ b - a := by
    rw [e1]
    nlinarith [mul_le_mul hj' hj' h0 hsin0, mul_le_mul_of_nonneg_right hsm hsin0]
  have h3 : b - a ≤ |a - b| := by rw [abs_sub_comm]; exact le_abs_self _
  rw [abs_of_nonneg (by linarith)]
  have h4 : (s - t) / Real.pi ≤ √(|a - b| / 2) := by
    apply Real.le_sqrt_of_sq_le; linarith
  rw [div_le_iff₀ hpi] at h4
  linarith

/-- the sine is expanding where the cosine is not small -/
theorem sin_expand {s t c : ℝ} (hc : 0 < c) (hs : |s| ≤ Real.pi / 2) (ht : |t| ≤ Real.pi / 2)
    (h1 : c ≤ Real.cos s) (h2 : c ≤ Real.cos t) : c * |s - t| ≤ |Real.sin s - Real.sin t| := by
  wlog hle : t ≤ s generalizing s t with H
  · have := H ht hs h2 h1 (le_of_not_ge hle)
    rwa [abs_sub_comm s t, abs_sub_comm (Real.sin s)]
  rcases hle.eq_or_lt with rfl | hlt
  · simp
  obtain ⟨x, ⟨hx1, hx2⟩, hx⟩ := exists_deriv_eq_slope Real.sin hlt Real.continuous_sin.continuousOn
    Real.differentiable_sin.differentiableOn
  rw [Real.deriv_sin] at hx
  have hs' := abs_le.1 hs
  have ht' := abs_le.1 ht
  -- the cosine between is at least the smaller of the ends
  have hcx : c ≤ Real.cos x := by
    rcases le_total 0 x with h0 | h0
    · exact h1.trans (Real.cos_le_cos_of_nonneg_of_le_pi h0 (by linarith [Real.pi_pos]) hx2.le)
    · have := Real.cos_le_cos_of_nonneg_of_le_pi (x := -x) (y := -t) (by linarith) (by linarith [Real.pi_pos]) (by linarith)
      rw [Real.cos_neg, Real.cos_neg] at this
      exact h2.trans this
  have hd : 0 < s - t := by linarith
  rw [abs_of_pos hd]
  have e : Real.sin s - Real.sin t = Real.cos x * (s - t) := by rw [hx]; field_simp
  rw [e, abs_of_nonneg (mul_nonneg (hc.le.trans hcx) hd.le)]
  exact mul_le_mul_of_nonneg_right hcx hd.le

theorem angle_near_sin {C h lam mu x y η : ℝ} (hC : 0 < C) (hη0 : 0 ≤ η) (hη : η ≤ 1 / 16)
    (hh : 0 ≤ h)
    (hx : x = h * Real.cos mu) (hy : y = h * Real.sin mu)
    (hd : (x - C * Real.cos lam) ^ 2 + (y - C * Real.sin lam) ^ 2 ≤ (η * C) ^ 2) :
    0 < Real.cos (mu - lam) ∧ |Real.sin (mu - lam)| ≤ 16 / 15 * η := by
  obtain ⟨a, ha⟩ : ∃ a, a = x - C * Real.cos lam := ⟨_, rfl⟩
  obtain ⟨b, hb⟩ : ∃ b, b = y - C * Real.sin lam := ⟨_, rfl⟩
  rw [← ha, ← hb] at hd
  have hcs := Real.sin_sq_add_cos_sq lam
  have hcm := Real.sin_sq_add_cos_sq mu
  have hηC : 0 ≤ η * C := by positivity
  -- h is about C
  have hhC : (1 - η) * C ≤ h := by
    have e : h ^ 2 = x ^ 2 + y ^ 2 := by rw [hx, hy]; linear_combination (-h ^ 2) * hcm
    have e2 : x ^ 2 + y ^ 2 = (C * Real.cos lam + a) ^ 2 + (C * Real.sin lam + b) ^ 2 := by rw [ha, hb]; ring
    have e3 : x ^ 2 + y ^ 2 = C ^ 2 + 2 * C * (a * Real.cos lam + b * Real.sin lam) + (a ^ 2 + b ^ 2) := by
      rw [e2]; linear_combination C ^ 2 * hcs
    obtain ⟨w, hw⟩ : ∃ w, w = a * Real.cos lam + b * Real.sin lam := ⟨_, rfl⟩
    rw [← hw] at e3
    have hw2 : w ^ 2 ≤ a ^ 2 + b ^ 2 := by
      have : w ^ 2 + (a * Real.sin lam - b * Real.cos lam) ^ 2 = a ^ 2 + b ^ 2 := by
        rw [hw]; linear_combination (a ^ 2 + b ^ 2) * hcs
      linarith [sq_nonneg (a * Real.sin lam - b * Real.cos lam)]
    have hwη : |w| ≤ η * C := abs_le_of_sq_le_sq (by linarith) hηC
    have hw' := (abs_le.1 hwη).1
    have h1 : (C + w) ^ 2 ≤ h ^ 2 := by rw [e, e3]; nlinarith
    have h2 : C + w ≤ h := le_of_sq_le_sq h1 hh
    nlinarith
  have hhpos : 0 < h := by nlinarith
  -- sine and cosine of the difference
  have hsin : h * Real.sin (mu - lam) = b * Real.cos lam - a * Real.sin lam := by
    rw [Real.sin_sub, ha, hb, hx, hy]; ring
  have hcos : h * Real.cos (mu - lam) = C + (a * Real.cos lam + b * Real.sin lam) := by
    rw [Real.cos_sub]
    have : h * (Real.cos mu * Real.cos lam + Real.sin mu * Real.sin lam) = x * Real.cos lam + y * Real.sin lam := by
      rw [hx, hy]; ring
    rw [this, ha, hb]; linear_combination C * hcs
  have hsq : (b * Real.cos lam - a * Real.sin lam) ^ 2 + (a * Real.cos lam + b * Real.sin lam) ^ 2 = a ^ 2 + b ^ 2 := by
    linear_combination (a ^ 2 + b ^ 2) * hcs
  have hv : |b * Real.cos lam - a * Real.sin lam| ≤ η * C :=
    abs_le_of_sq_le_sq (by linarith [sq_nonneg (a * Real.cos lam + b * Real.sin lam)]) hηC
  have hw : |a * Real.cos lam + b * Real.sin lam| ≤ η * C :=
    abs_le_of_sq_le_sq (by linarith [sq_nonneg (b * Real.cos lam - a * Real.sin lam)]) hηC
  have hcpos : 0 < Real.cos (mu - lam) := by
    have : 0 < h * Real.cos (mu - lam) := by rw [hcos]; nlinarith [(abs_le.1 hw).1]
    exact (pos_iff_pos_of_mul_pos this).1 hhpos
  have hsle : |Real.sin (mu - lam)| ≤ 16 / 15 * η := by
    rw [← hsin, abs_mul, abs_of_pos hhpos] at hv
    by_contra hcon
    rw [not_le] at hcon
    have : 0 < |Real.sin (mu - lam)| := lt_of_le_of_lt (by positivity) hcon
    have h1 : 15 / 16 * C ≤ h := by nlinarith
    have h2 : 15 / 16 * C * |Real.sin (mu - lam)| ≤ η * C := le_trans (mul_le_mul_of_nonneg_right h1 this.le) hv
    nlinarith
  exact ⟨hcpos, hsle⟩

/-- The direction of a point near `C (cos lam, sin lam)`: `mu` is its polar angle. -/
theorem angle_near {C h lam mu x y η : ℝ} (hC : 0 < C) (hη0 : 0 ≤ η) (hη : η ≤ 1 / 16)
    (hlam : |lam| ≤ 3 * Real.pi / 2) (hmu : |mu| ≤ Real.pi) (hh : 0 ≤ h)
    (hx : x = h * Real.cos mu) (hy : y = h * Real.sin mu)
    (hd : (x - C * Real.cos lam) ^ 2 + (y - C * Real.sin lam) ^ 2 ≤ (η * C) ^ 2) :
    ∃ k : ℤ, |k| ≤ 1 ∧ |mu - lam - 2 * Real.pi * k| ≤ 1.7 * η := by
  have hpi := Real.pi_pos
  obtain ⟨hcpos, hsle⟩ := angle_near_sin hC hη0 hη hh hx hy hd
  -- reduce to (-π/2, π/2)
  have key : ∀ k : ℤ, |mu - lam - 2 * Real.pi * k| ≤ Real.pi / 2 → |mu - lam - 2 * Real.pi * k| ≤ 1.7 * η := by
    intro k hk
    have e : Real.sin (mu - lam - 2 * Real.pi * k) = Real.sin (mu - lam) := by
      rw [show mu - lam - 2 * Real.pi * k = mu - lam - k * (2 * Real.pi) by ring]
      exact Real.sin_sub_int_mul_two_pi _ _
    have hj := Real.mul_abs_le_abs_sin hk
    rw [e] at hj
    have : 2 / Real.pi * |mu - lam - 2 * Real.pi * k| ≤ 16 / 15 * η := hj.trans hsle
    rw [div_mul_eq_mul_div, div_le_iff₀ hpi] at this
    have := mul_nonneg hη0 (sub_nonneg.2 Real.pi_lt_d2.le)
    linarith
  have hmu' := abs_le.1 hmu
  have hlam' := abs_le.1 hlam
  have notin : ∀ x, Real.pi / 2 ≤ |x| → |x| ≤ 3 * Real.pi / 2 → Real.cos x ≤ 0 := by
    intro x h1 h2
    rw [← Real.cos_abs]
    exact Real.cos_nonpos_of_pi_div_two_le_of_le h1 (by linarith)
  have hrange : |mu - lam| < Real.pi / 2 ∨ 3 * Real.pi / 2 < |mu - lam| := by
    by_contra hcon
    rw [not_or, not_lt, not_lt] at hcon
    linarith [notin _ hcon.1 hcon.2]
  rcases hrange with h1 | h1
  · exact ⟨0, by norm_num, key 0 (by rw [Int.cast_zero, mul_zero, sub_zero]; exact h1.le)⟩
  · rcases le_total 0 (mu - lam) with h0 | h0
    · rw [abs_of_nonneg h0] at h1
      exact ⟨1, by norm_num, key 1 (abs_le.2 ⟨by push_cast; linarith, by push_cast; linarith⟩)⟩
    · rw [abs_of_nonpos h0] at h1
      exact ⟨-1, by norm_num, key (-1) (abs_le.2 ⟨by push_cast; linarith, by push_cast; linarith⟩)⟩

/-- a point whose coordinates have relative errors is near the one without -/
theorem plane_of_rel {x y P lam τ : ℝ} (hx : Rel τ x (P * Real.cos lam)) (hy : Rel τ y (P * Real.sin lam)) :
    (x - P * Real.cos lam) ^ 2 + (y - P * Real.sin lam) ^ 2 ≤ (τ * P) ^ 2 := by
  unfold Rel at hx hy
  have h1 := pow_le_pow_left₀ (abs_nonneg _) hx 2
  have h2 := pow_le_pow_left₀ (abs_nonneg _) hy 2
  rw [sq_abs, mul_pow, sq_abs] at h1 h2
  have h3 : τ ^ 2 * (P * Real.cos lam) ^ 2 + τ ^ 2 * (P * Real.sin lam) ^ 2 = (τ * P) ^ 2 := by
    linear_combination (τ ^ 2 * P ^ 2) * Real.sin_sq_add_cos_sq lam
  linarith

/-- the distance from the axis of such a point -/
theorem hyp_of_rel {x y P lam τ : ℝ} (hx : Rel τ x (P * Real.cos lam)) (hy : Rel τ y (P * Real.sin lam)) (hτ : 0 ≤ τ) :
    |√(x ^ 2 + y ^ 2) - (|P|)| ≤ τ * |P| := by
  have hpl := plane_of_rel hx hy
  have hP := abs_nonneg P
  have hs := Real.sqrt_nonneg (x ^ 2 + y ^ 2)
  have hs2 : √(x ^ 2 + y ^ 2) ^ 2 = x ^ 2 + y ^ 2 := Real.sq_sqrt (by positivity)
  obtain ⟨H, eH⟩ : ∃ H, H = √(x ^ 2 + y ^ 2) := ⟨_, rfl⟩
  obtain ⟨a, ea⟩ : ∃ a, a = x - P * Real.cos lam := ⟨_, rfl⟩
  obtain ⟨b, eb⟩ : ∃ b, b = y - P * Real.sin lam := ⟨_, rfl⟩
  rw [← ea, ← eb] at hpl
  rw [← eH] at hs hs2 ⊢
  have hcs := Real.sin_sq_add_cos_sq lam
  obtain ⟨w, ew⟩ : ∃ w, w = a * Real.cos lam + b * Real.sin lam := ⟨_, rfl⟩
  have hw2 : w ^ 2 ≤ a ^ 2 + b ^ 2 := by
    have : w ^ 2 + (a * Real.sin lam - b * Real.cos lam) ^ 2 = a ^ 2 + b ^ 2 := by
      rw [ew]; linear_combination (a ^ 2 + b ^ 2) * hcs
    linarith [sq_nonneg (a * Real.sin lam - b * Real.cos lam)]
  have e : H ^ 2 = P ^ 2 + 2 * P * w + (a ^ 2 + b ^ 2) := by
    rw [hs2, ew, ea, eb]; linear_combination P ^ 2 * hcs
  have hτP : 0 ≤ τ * |P| := by positivity
  have hP2 : |P| ^ 2 = P ^ 2 := sq_abs P
  have hd : a ^ 2 + b ^ 2 ≤ (τ * |P|) ^ 2 := by rw [mul_pow, hP2, ← mul_pow]; exact hpl
  obtain ⟨m, em⟩ : ∃ m, m = √(a ^ 2 + b ^ 2) := ⟨_, rfl⟩
  have hm0 : 0 ≤ m := em ▸ Real.sqrt_nonneg _
  have hm2 : m ^ 2 = a ^ 2 + b ^ 2 := by rw [em]; exact Real.sq_sqrt (by positivity)
  have hm : m ≤ τ * |P| := le_of_sq_le_sq (by rw [hm2]; exact hd) hτP
  have hwm : |w| ≤ m := abs_le_of_sq_le_sq (by rw [hm2]; exact hw2) hm0
  have hPw : |P * w| ≤ |P| * m := by rw [abs_mul]; exact mul_le_mul_of_nonneg_left hwm hP
  have hPw' := abs_le.1 hPw
  have h1 : H ≤ |P| + m := by
    refine le_of_sq_le_sq ?_ (by linarith)
    rw [e, ← hm2, add_sq, hP2]; linarith [hPw'.2]
  have h2 : |P| - m ≤ H := by
    rcases le_total (|P| - m) 0 with h | h
    · linarith
    · refine le_of_sq_le_sq ?_ hs
      rw [e, ← hm2, sub_sq, hP2]; linarith [hPw'.1]
  exact abs_le.2 ⟨by linarith, by linarith⟩

/-- the position of such a point relative to the sphere -/
theorem lat_of_rel {x y z P R lam phi phi' τ σ b : ℝ} (hR : 0 < R) (hτ : 0 ≤ τ)
    (hx : Rel τ x (P * Real.cos lam)) (hy : Rel τ y (P * Real.sin lam)) (hz : Rel τ z (R * Real.sin phi'))
    (hP : Rel σ P (R * Real.cos phi')) (hσ : 0 ≤ σ) (hphi : |phi| ≤ Real.pi / 2) (hb : |phi' - phi| ≤ b) :
    |z / R - Real.sin phi| ≤ τ + σ + τ * σ + b ∧ |√(x ^ 2 + y ^ 2) / R - Real.cos phi| ≤ τ + σ + τ * σ + b := by
  have hl1 : |Real.sin phi' - Real.sin phi| ≤ b := (Real.abs_sin_sub_sin_le _ _).trans hb
  have hl2 : |Real.cos phi' - Real.cos phi| ≤ b := (Real.abs_cos_sub_cos_le _ _).trans hb
  have hcn := Real.cos_nonneg_of_mem_Icc (abs_le.1 hphi)
  constructor
  · have h1 : |z / R - Real.sin phi'| ≤ τ := by
      have e : z / R - Real.sin phi' = (z - R * Real.sin phi') / R := by field_simp
      rw [e, abs_div, abs_of_pos hR, div_le_iff₀ hR]
      refine le_trans hz ?_
      rw [abs_mul, abs_of_pos hR]
      have := Real.abs_sin_le_one phi'
      have := mul_le_mul_of_nonneg_left this (mul_nonneg hτ hR.le)
      linarith
    have h2 : 0 ≤ τ * σ := by positivity
    calc |z / R - Real.sin phi| = |(z / R - Real.sin phi') + (Real.sin phi' - Real.sin phi)| := by ring_nf
      _ ≤ _ := abs_add_le _ _
      _ ≤ _ := by linarith
  · have hh := hyp_of_rel hx hy hτ
    obtain ⟨H, eH⟩ : ∃ H, H = √(x ^ 2 + y ^ 2) := ⟨_, rfl⟩
    rw [← eH] at hh ⊢
    have hc1 := Real.abs_cos_le_one phi'
    have hP1 : |P| ≤ (1 + σ) * R := by
      refine hP.abs_le.trans ?_
      rw [abs_mul, abs_of_pos hR]
      have := mul_le_mul_of_nonneg_left hc1 hR.le
      rw [mul_one] at this
      exact mul_le_mul_of_nonneg_left this (by linarith)
    have h1 : |H / R - |P| / R| ≤ τ * (1 + σ) := by
      rw [← sub_div, abs_div, abs_of_pos hR, div_le_iff₀ hR]
      refine hh.trans ?_
      rw [mul_assoc]
      exact mul_le_mul_of_nonneg_left hP1 hτ
    have h2 : |P / R - Real.cos phi'| ≤ σ := by
      have e : P / R - Real.cos phi' = (P - R * Real.cos phi') / R := by field_simp
      rw [e, abs_div, abs_of_pos hR, div_le_iff₀ hR]
      refine le_trans hP ?_
      rw [abs_mul, abs_of_pos hR]
      have := mul_le_mul_of_nonneg_left hc1 (mul_nonneg hσ hR.le)
      linarith
    have h3 : |P / R - Real.cos phi| ≤ σ + b := by
      calc |P / R - Real.cos phi| = |(P / R - Real.cos phi') + (Real.cos phi' - Real.cos phi)| := by ring_nf
        _ ≤ _ := abs_add_le _ _
        _ ≤ _ := by linarith
    have h4 : |(|P|) / R - Real.cos phi| ≤ σ + b := by
      have e1 : |P| / R = |P / R| := by rw [abs_div, abs_of_pos hR]
      have e2 : Real.cos phi = |Real.cos phi| := (abs_of_nonneg hcn).symm
      rw [e1, e2]
      exact (abs_abs_sub_abs_le_abs_sub _ _).trans h3
    calc |H / R - Real.cos phi| = |(H / R - |P| / R) + (|P| / R - Real.cos phi)| := by ring_nf
      _ ≤ _ := abs_add_le _ _
      _ ≤ _ := by linarith

/-- a floating point number is not an odd multiple of pi, so `y` is 0 for longitude 0 only -/
theorem sign_of_rel {x y P lam τ : ℝ} (hx : Rel τ x (P * Real.cos lam)) (hy : Rel τ y (P * Real.sin lam)) (hτ : τ < 1)
    (hP : 0 < P) {p : Nat} (hl : Rep p lam) : y ≠ 0 ∨ 0 < x := by
  by_cases hy0 : y = 0
  · right
    have h1 := hy.le_abs
    rw [hy0, abs_zero] at h1
    have h2 : |P * Real.sin lam| = 0 := by
      by_contra hcon
      have : 0 < |P * Real.sin lam| := lt_of_le_of_ne (abs_nonneg _) (Ne.symm hcon)
      have := mul_pos (by linarith : 0 < 1 - τ) this
      linarith
    have h3 : Real.sin lam = 0 := by
      rcases mul_eq_zero.1 (abs_eq_zero.1 h2) with h | h
      · exact absurd h hP.ne'
      · exact h
    obtain ⟨n, hn⟩ := Real.sin_eq_zero_iff.1 h3
    obtain ⟨m, e, -, he⟩ := hl
    have hn0 : n = 0 := by
      by_contra hcon
      have hirr : Irrational ((n : ℝ) * Real.pi) := irrational_pi.intCast_mul hcon
      apply hirr
      refine ⟨(m : ℚ) * 2 ^ e, ?_⟩
      rw [hn, he]; push_cast; rfl
    have hl0 : lam = 0 := by rw [← hn, hn0]; simp
    rw [hl0, Real.cos_zero, mul_one] at hx
    unfold Rel at hx
    rw [abs_of_pos hP] at hx
    have := (abs_le.1 hx).1
    nlinarith
  · exact Or.inl hy0

end Verif.Err
