import Verif.Spec.Arc
import Mathlib.Analysis.SpecialFunctions.Trigonometric.ArctanDeriv
import Mathlib.Analysis.SpecialFunctions.Trigonometric.Bounds
import Mathlib.Analysis.Calculus.Deriv.MeanValue
import Mathlib.Analysis.Real.Pi.Bounds

/-!
# Points on a chord and on the arc over it
-/

namespace Verif.Spec
open Real

/-- `arcPoint` is what it says: it starts at `p`, ends at `q`, stays on the sphere and is at angle `t θ` from `p` -/
theorem arcPoint_spec {R θ : ℝ} {p q : ℝ × ℝ × ℝ} (h0 : 0 < θ) (h1 : θ < π) (hp : dot p p = R ^ 2) (hq : dot q q = R ^ 2)
    (hpq : dot p q = R ^ 2 * cos θ) :
    arcPoint θ p q 0 = p ∧ arcPoint θ p q 1 = q ∧
      ∀ t, dot (arcPoint θ p q t) (arcPoint θ p q t) = R ^ 2 ∧ dot p (arcPoint θ p q t) = R ^ 2 * cos (t * θ) := by
  have hs : sin θ ≠ 0 := (sin_pos_of_pos_of_lt_pi h0 h1).ne'
  have hsub : ∀ t, sin ((1 - t) * θ) = sin θ * cos (t * θ) - cos θ * sin (t * θ) := by
    intro t
    rw [show (1 - t) * θ = θ - t * θ by ring, sin_sub]
  have hsq := sin_sq_add_cos_sq θ
  refine ⟨?_, ?_, ?_⟩
  · simp only [arcPoint, sub_zero, one_mul, zero_mul, sin_zero, add_zero]
    refine Prod.ext ?_ (Prod.ext ?_ ?_) <;> simp only <;> field_simp
  · simp only [arcPoint, sub_self, one_mul, zero_mul, sin_zero, zero_add]
    refine Prod.ext ?_ (Prod.ext ?_ ?_) <;> simp only <;> field_simp
  · intro t
    have hst := sin_sq_add_cos_sq (t * θ)
    simp only [dot] at hp hq hpq ⊢
    simp only [arcPoint, hsub t]
    set a := sin (t * θ)
    set b := cos (t * θ)
    set s := sin θ
    set c := cos θ
    constructor
    · have e : ((s * b - c * a) * p.1 + a * q.1) / s * (((s * b - c * a) * p.1 + a * q.1) / s) +
          ((s * b - c * a) * p.2.1 + a * q.2.1) / s * (((s * b - c * a) * p.2.1 + a * q.2.1) / s) +
          ((s * b - c * a) * p.2.2 + a * q.2.2) / s * (((s * b - c * a) * p.2.2 + a * q.2.2) / s)
          = ((s * b - c * a) ^ 2 * (p.1 * p.1 + p.2.1 * p.2.1 + p.2.2 * p.2.2)
            + 2 * (s * b - c * a) * a * (p.1 * q.1 + p.2.1 * q.2.1 + p.2.2 * q.2.2)
            + a ^ 2 * (q.1 * q.1 + q.2.1 * q.2.1 + q.2.2 * q.2.2)) / s ^ 2 := by
        field_simp
        ring
      rw [e, hp, hq, hpq, div_eq_iff (pow_ne_zero 2 hs)]
      have h1 : c ^ 2 = 1 - s ^ 2 := by linarith
      have h2 : b ^ 2 = 1 - a ^ 2 := by linarith
      calc (s * b - c * a) ^ 2 * R ^ 2 + 2 * (s * b - c * a) * a * (R ^ 2 * c) + a ^ 2 * R ^ 2
          = R ^ 2 * (s ^ 2 * b ^ 2 + a ^ 2 * (1 - c ^ 2)) := by ring
        _ = R ^ 2 * s ^ 2 := by rw [h1, h2]; ring
    · have e : p.1 * (((s * b - c * a) * p.1 + a * q.1) / s) + p.2.1 * (((s * b - c * a) * p.2.1 + a * q.2.1) / s) +
          p.2.2 * (((s * b - c * a) * p.2.2 + a * q.2.2) / s)
          = ((s * b - c * a) * (p.1 * p.1 + p.2.1 * p.2.1 + p.2.2 * p.2.2)
            + a * (p.1 * q.1 + p.2.1 * q.2.1 + p.2.2 * q.2.2)) / s := by
        field_simp
        ring
      rw [e, hp, hpq, div_eq_iff hs]
      ring

/-- `h ↦ h - s h` type bounds: `arctan (s tan h)` is a little more than `s h` -/
theorem arctan_mul_tan {s h : ℝ} (s0 : 0 ≤ s) (s1 : s ≤ 1) (h0 : 0 ≤ h) (h1 : h < π / 2) :
    s * h ≤ arctan (s * tan h) ∧ arctan (s * tan h) ≤ s * h + s * (1 - s ^ 2) * (tan h - h) := by
  have hcos : ∀ x, 0 ≤ x → x ≤ h → 0 < cos x := fun x hx hxh => cos_pos_of_mem_Ioo ⟨by linarith [pi_pos], by linarith⟩
  have dtan : ∀ x, 0 ≤ x → x ≤ h → HasDerivAt tan (1 + tan x ^ 2) x := by
    intro x hx hxh
    have hc := (hcos x hx hxh).ne'
    have := hasDerivAt_tan hc
    convert this using 1
    rw [tan_eq_sin_div_cos]
    field_simp
    linarith [sin_sq_add_cos_sq x]
  have dat : ∀ x, 0 ≤ x → x ≤ h → HasDerivAt (fun x => arctan (s * tan x)) (1 / (1 + (s * tan x) ^ 2) * (s * (1 + tan x ^ 2))) x :=
    fun x hx hxh => ((dtan x hx hxh).const_mul s).arctan
  constructor
  · have mono : MonotoneOn (fun x => arctan (s * tan x) - s * x) (Set.Icc 0 h) := by
      apply monotoneOn_of_deriv_nonneg (convex_Icc 0 h)
      · intro x hx
        exact ((dat x hx.1 hx.2).sub ((hasDerivAt_id x).const_mul s)).continuousAt.continuousWithinAt
      · intro x hx
        rw [interior_Icc] at hx
        exact ((dat x hx.1.le hx.2.le).sub ((hasDerivAt_id x).const_mul s)).differentiableAt.differentiableWithinAt
      · intro x hx
        rw [interior_Icc] at hx
        have e := ((dat x hx.1.le hx.2.le).sub ((hasDerivAt_id x).const_mul s)).deriv
        have e' : deriv (fun x => arctan (s * tan x) - s * x) x
            = 1 / (1 + (s * tan x) ^ 2) * (s * (1 + tan x ^ 2)) - s * 1 := e
        rw [e']
        have hpos : 0 < 1 + (s * tan x) ^ 2 := by positivity
        have : 1 / (1 + (s * tan x) ^ 2) * (s * (1 + tan x ^ 2)) - s * 1
            = s * (1 - s ^ 2) * tan x ^ 2 / (1 + (s * tan x) ^ 2) := by
          field_simp
          ring
        rw [this]
        have h2 : 0 ≤ 1 - s ^ 2 := by nlinarith
        positivity
    have := mono ⟨le_refl 0, h0⟩ ⟨h0, le_refl h⟩ h0
    simp at this
    linarith
  · have mono : MonotoneOn (fun x => (s * x + s * (1 - s ^ 2) * (tan x - x)) - arctan (s * tan x)) (Set.Icc 0 h) := by
      have d : ∀ x, 0 ≤ x → x ≤ h → HasDerivAt (fun x => (s * x + s * (1 - s ^ 2) * (tan x - x)) - arctan (s * tan x))
          ((s * 1 + s * (1 - s ^ 2) * ((1 + tan x ^ 2) - 1)) - 1 / (1 + (s * tan x) ^ 2) * (s * (1 + tan x ^ 2))) x :=
        fun x hx hxh => (((hasDerivAt_id x).const_mul s).add (((dtan x hx hxh).sub (hasDerivAt_id x)).const_mul _)).sub (dat x hx hxh)
      apply monotoneOn_of_deriv_nonneg (convex_Icc 0 h)
      · intro x hx
        exact (d x hx.1 hx.2).continuousAt.continuousWithinAt
      · intro x hx
        rw [interior_Icc] at hx
        exact (d x hx.1.le hx.2.le).differentiableAt.differentiableWithinAt
      · intro x hx
        rw [interior_Icc] at hx
        rw [(d x hx.1.le hx.2.le).deriv]
        have hpos : 0 < 1 + (s * tan x) ^ 2 := by positivity
        have : (s * 1 + s * (1 - s ^ 2) * ((1 + tan x ^ 2) - 1)) - 1 / (1 + (s * tan x) ^ 2) * (s * (1 + tan x ^ 2))
            = s * (1 - s ^ 2) * s ^ 2 * (tan x ^ 2) ^ 2 / (1 + (s * tan x) ^ 2) := by
          field_simp
          ring
        rw [this]
        have h2 : 0 ≤ 1 - s ^ 2 := by nlinarith
        positivity
    have := mono ⟨le_refl 0, h0⟩ ⟨h0, le_refl h⟩ h0
    simp at this
    linarith

/-- `tan h - h` for small angles -/
theorem tan_sub_le {h : ℝ} (h0 : 0 ≤ h) (h1 : h ≤ 1 / 4) : tan h - h ≤ 0.356 * h ^ 3 := by
  have hpi := pi_gt_three
  have hcos : ∀ x, 0 ≤ x → x ≤ h → 0 < cos x := fun x hx hxh => cos_pos_of_mem_Ioo ⟨by linarith, by linarith⟩
  have ht : ∀ x, 0 ≤ x → x ≤ h → 0 ≤ tan x ∧ tan x ≤ 32 / 31 * x := by
    intro x hx hxh
    have hc := hcos x hx hxh
    have c1 : 31 / 32 ≤ cos x := by
      have := one_sub_sq_div_two_le_cos (x := x)
      nlinarith
    have s0 : 0 ≤ sin x := sin_nonneg_of_nonneg_of_le_pi hx (by linarith)
    refine ⟨by rw [tan_eq_sin_div_cos]; positivity, ?_⟩
    rw [tan_eq_sin_div_cos, div_le_iff₀ hc]
    have s1 : sin x ≤ x := sin_le hx
    nlinarith
  have mono : MonotoneOn (fun x => 0.356 * x ^ 3 - (tan x - x)) (Set.Icc 0 h) := by
    have d : ∀ x, 0 ≤ x → x ≤ h → HasDerivAt (fun x => 0.356 * x ^ 3 - (tan x - x))
        (0.356 * (3 * x ^ 2) - (1 / cos x ^ 2 - 1)) x := by
      intro x hx hxh
      have e := ((hasDerivAt_pow 3 x).const_mul 0.356).sub ((hasDerivAt_tan (hcos x hx hxh).ne').sub (hasDerivAt_id x))
      have e' : HasDerivAt (fun x : ℝ => 0.356 * x ^ 3 - (tan x - x)) (0.356 * (((3 : ℕ) : ℝ) * x ^ (3 - 1)) - (1 / cos x ^ 2 - 1)) x := e
      rw [show (0.356 * (3 * x ^ 2) - (1 / cos x ^ 2 - 1) : ℝ) = 0.356 * (((3 : ℕ) : ℝ) * x ^ (3 - 1)) - (1 / cos x ^ 2 - 1) by norm_num]
      exact e'
    apply monotoneOn_of_deriv_nonneg (convex_Icc 0 h)
    · intro x hx
      exact (d x hx.1 hx.2).continuousAt.continuousWithinAt
    · intro x hx
      rw [interior_Icc] at hx
      exact (d x hx.1.le hx.2.le).differentiableAt.differentiableWithinAt
    · intro x hx
      rw [interior_Icc] at hx
      rw [(d x hx.1.le hx.2.le).deriv]
      obtain ⟨t0, t1⟩ := ht x hx.1.le hx.2.le
      have e : 1 / cos x ^ 2 - 1 = tan x ^ 2 := by
        have hc := (hcos x hx.1.le hx.2.le).ne'
        rw [tan_eq_sin_div_cos]
        field_simp
        linarith [sin_sq_add_cos_sq x]
      rw [e]
      have : tan x ^ 2 ≤ (32 / 31 * x) ^ 2 := pow_le_pow_left₀ t0 t1 2
      nlinarith [sq_nonneg x]
  have := mono ⟨le_refl 0, h0⟩ ⟨h0, le_refl h⟩ h0
  simp at this
  norm_num at this ⊢
  linarith

private theorem s_one_sub_sq {s : ℝ} (s0 : 0 ≤ s) : s * (1 - s ^ 2) ≤ 0.385 := by
  nlinarith [mul_nonneg (show (0:ℝ) ≤ s + 1.1548 by linarith) (sq_nonneg (s - 0.5774))]

/-- where the direction of a point of the chord is on the arc -/
noncomputable def arcFraction (θ t : ℝ) : ℝ := 1 / 2 + arctan ((2 * t - 1) * tan (θ / 2)) / θ

/-- the point a fraction `t` of the way along the chord is in the direction of the point a fraction `arcFraction θ t` of the way
along the arc -/
theorem chord_arc {θ t : ℝ} (h0 : 0 < θ) (h1 : θ < π) (p q : ℝ × ℝ × ℝ) :
    0 < cos (θ / 2) / cos (arctan ((2 * t - 1) * tan (θ / 2))) ∧
    chordPoint p q t = scale (cos (θ / 2) / cos (arctan ((2 * t - 1) * tan (θ / 2)))) (arcPoint θ p q (arcFraction θ t)) := by
  obtain ⟨ψ, hψ⟩ : ∃ ψ, ψ = arctan ((2 * t - 1) * tan (θ / 2)) := ⟨_, rfl⟩
  have hcψ : 0 < cos ψ := by rw [hψ]; exact cos_arctan_pos _
  have hch : 0 < cos (θ / 2) := cos_pos_of_mem_Ioo ⟨by linarith, by linarith⟩
  have hsh : 0 < sin (θ / 2) := sin_pos_of_pos_of_lt_pi (by linarith) (by linarith)
  have htan : sin ψ = (2 * t - 1) * sin (θ / 2) / cos (θ / 2) * cos ψ := by
    have e : tan ψ = (2 * t - 1) * tan (θ / 2) := by rw [hψ, tan_arctan]
    rw [tan_eq_sin_div_cos, tan_eq_sin_div_cos, div_eq_iff hcψ.ne'] at e
    rw [e]; ring
  have a1 : (1 - arcFraction θ t) * θ = θ / 2 - ψ := by
    unfold arcFraction
    rw [← hψ]; field_simp; ring
  have a2 : arcFraction θ t * θ = θ / 2 + ψ := by
    unfold arcFraction
    rw [← hψ]; field_simp
  have hθ : sin θ = 2 * sin (θ / 2) * cos (θ / 2) := by rw [← sin_two_mul]; congr 1; ring
  rw [← hψ]
  refine ⟨div_pos hch hcψ, ?_⟩
  simp only [chordPoint, scale, arcPoint, a1, a2, sin_sub, sin_add, hθ, htan]
  refine Prod.ext ?_ (Prod.ext ?_ ?_) <;> simp only <;> field_simp <;> ring

/-- for arcs of up to half a radian the fractions along the chord and along the arc differ by at most `θ² / 55` -/
theorem arcFraction_near {θ t : ℝ} (h0 : 0 < θ) (h1 : θ ≤ 1 / 2) (t0 : 0 ≤ t) (t1 : t ≤ 1) :
    |arcFraction θ t - t| ≤ θ ^ 2 / 55 ∧ 0 ≤ arcFraction θ t ∧ arcFraction θ t ≤ 1 := by
  have hpi := pi_gt_three
  obtain ⟨h, hh⟩ : ∃ h, h = θ / 2 := ⟨_, rfl⟩
  have key : ∀ s, 0 ≤ s → s ≤ 1 → 0 ≤ arctan (s * tan h) - s * h ∧ arctan (s * tan h) - s * h ≤ 0.13706 * h ^ 3 ∧
      arctan (s * tan h) ≤ h := by
    intro s s0 s1
    obtain ⟨k1, k2⟩ := arctan_mul_tan s0 s1 (h := h) (by linarith) (by linarith)
    have k3 := tan_sub_le (h := h) (by linarith) (by linarith)
    have k4 := s_one_sub_sq s0
    have k5 : 0 ≤ tan h - h := by linarith [le_tan (x := h) (by linarith) (by linarith)]
    have k6 : 0 ≤ 1 - s ^ 2 := by nlinarith
    have k7 : s * (1 - s ^ 2) * (tan h - h) ≤ 0.385 * (0.356 * h ^ 3) :=
      mul_le_mul k4 k3 k5 (by norm_num)
    refine ⟨by linarith, by norm_num at k7 ⊢; linarith, ?_⟩
    rw [← arctan_tan (x := h) (by linarith) (by linarith)] 
    conv_lhs => rw [arctan_tan (x := h) (by linarith) (by linarith)]
    refine arctan_mono ?_
    have : 0 ≤ tan h := by linarith
    nlinarith
  have both : |arctan ((2 * t - 1) * tan h) - (2 * t - 1) * h| ≤ 0.13706 * h ^ 3 ∧ |arctan ((2 * t - 1) * tan h)| ≤ h := by
    rcases le_total 0 (2 * t - 1) with hs | hs
    · obtain ⟨k1, k2, k3⟩ := key (2 * t - 1) hs (by linarith)
      have k0 : 0 ≤ (2 * t - 1) * h := mul_nonneg hs (by linarith)
      exact ⟨by rw [abs_of_nonneg k1]; exact k2, by rw [abs_of_nonneg (by linarith)]; exact k3⟩
    · obtain ⟨k1, k2, k3⟩ := key (-(2 * t - 1)) (by linarith) (by linarith)
      rw [neg_mul, neg_mul, arctan_neg] at k1 k2
      rw [neg_mul, arctan_neg] at k3
      have k0 : (2 * t - 1) * h ≤ 0 := mul_nonpos_of_nonpos_of_nonneg hs (by linarith)
      exact ⟨by rw [abs_of_nonpos (by linarith)]; linarith, by rw [abs_of_nonpos (by linarith)]; exact k3⟩
  have e : arcFraction θ t - t = (arctan ((2 * t - 1) * tan h) - (2 * t - 1) * h) / θ := by
    unfold arcFraction
    rw [hh]; field_simp; ring
  refine ⟨?_, ?_, ?_⟩
  · rw [e, abs_div, abs_of_pos h0, div_le_iff₀ h0]
    refine both.1.trans ?_
    rw [hh]
    have : 0 ≤ θ ^ 3 := by positivity
    norm_num
    nlinarith
  · unfold arcFraction
    rw [← hh]
    have := (abs_le.1 both.2).1
    have : -(1 / 2) ≤ arctan ((2 * t - 1) * tan h) / θ := by rw [le_div_iff₀ h0]; linarith
    linarith
  · unfold arcFraction
    rw [← hh]
    have := (abs_le.1 both.2).2
    have : arctan ((2 * t - 1) * tan h) / θ ≤ 1 / 2 := by rw [div_le_iff₀ h0]; linarith
    linarith

theorem arcPoint_rev (θ : ℝ) (p q : ℝ × ℝ × ℝ) (t : ℝ) : arcPoint θ p q t = arcPoint θ q p (1 - t) := by
  simp only [arcPoint, sub_sub_cancel]
  refine Prod.ext ?_ (Prod.ext ?_ ?_) <;> simp only <;> rw [add_comm]

theorem dot_comm (p q : ℝ × ℝ × ℝ) : dot p q = dot q p := by simp only [dot]; ring

theorem arcPoint_onArc {R θ : ℝ} {p q : ℝ × ℝ × ℝ} (hR : 0 < R) (h0 : 0 < θ) (h1 : θ < π) (hp : dot p p = R ^ 2) (hq : dot q q = R ^ 2)
    (hpq : dot p q = R ^ 2 * cos θ) {t : ℝ} (t0 : 0 ≤ t) (t1 : t ≤ 1) : OnArc R p q t (arcPoint θ p q t) := by
  have a := ((arcPoint_spec h0 h1 hp hq hpq).2.2 t)
  have b := ((arcPoint_spec h0 h1 hq hp (by rw [dot_comm]; exact hpq)).2.2 (1 - t)).2
  rw [← arcPoint_rev, dot_comm] at b
  have hR2 : R ^ 2 ≠ 0 := by positivity
  have k : ∀ u, 0 ≤ u → u ≤ 1 → arccos (R ^ 2 * cos (u * θ) / R ^ 2) = u * θ := by
    intro u u0 u1
    rw [mul_div_cancel_left₀ _ hR2]
    exact arccos_cos (mul_nonneg u0 h0.le) (by nlinarith)
  have e : centralAngle R p q = θ := by
    unfold centralAngle
    rw [hpq]
    have := k 1 (by norm_num) le_rfl
    rwa [one_mul] at this
  refine ⟨a.1, ?_, ?_⟩
  · rw [e]; unfold centralAngle; rw [a.2]; exact k t t0 t1
  · rw [e]; unfold centralAngle; rw [b]; exact k _ (by linarith) (by linarith)

/-- points of the sphere at a squared distance of at most `d R²` from each other, `d ≤ 1/100` -/
theorem angle_small {θ d : ℝ} (hd : d ≤ 1 / 100) (h0 : 0 ≤ θ) (h1 : θ ≤ π) (hc : 1 - d / 2 ≤ cos θ) :
    θ ≤ 1 / 2 ∧ θ ^ 2 ≤ 1.1 * d := by
  have hpi := pi_gt_three
  have half : ∀ x : ℝ, cos x = 1 - 2 * sin (x / 2) ^ 2 := by
    intro x
    have := cos_two_mul (x / 2)
    rw [show 2 * (x / 2) = x by ring] at this
    linarith [sin_sq_add_cos_sq (x / 2)]
  have hθ : θ ≤ 1 / 2 := by
    by_contra hcon
    push Not at hcon
    have c1 : cos θ ≤ cos (1 / 2) := cos_le_cos_of_nonneg_of_le_pi (by norm_num) h1 hcon.le
    have s1 := sin_ge_sub_cube (x := (1 / 2 : ℝ) / 2) (by norm_num)
    rw [half (1 / 2)] at c1
    have s2 : (0.24 : ℝ) ≤ sin (1 / 2 / 2) := by norm_num at s1 ⊢; linarith
    have s3 := pow_le_pow_left₀ (by norm_num) s2 2
    norm_num at s3 c1 hc
    linarith
  refine ⟨hθ, ?_⟩
  have s1 := sin_ge_sub_cube (x := θ / 2) (by linarith)
  rw [half θ] at hc
  have s2 : 0.98 * (θ / 2) ≤ sin (θ / 2) := by
    have : θ ^ 2 ≤ 1 / 4 := by nlinarith
    nlinarith
  have s3 := pow_le_pow_left₀ (by linarith) s2 2
  norm_num at s3 ⊢
  nlinarith [sq_nonneg θ]

/-- a point of a chord is in the direction of a point of the arc at nearly the same fraction of the way -/
theorem chord_onArc {R d t : ℝ} {p q : ℝ × ℝ × ℝ} (hR : 0 < R) (hd : d ≤ 1 / 100) (hp : dot p p = R ^ 2) (hq : dot q q = R ^ 2)
    (hpq : (1 - d / 2) * R ^ 2 ≤ dot p q) (t0 : 0 ≤ t) (t1 : t ≤ 1) :
    ∃ f r ρ, 0 ≤ f ∧ f ≤ 1 ∧ |f - t| ≤ d / 50 ∧ OnArc R p q f r ∧ 0 < ρ ∧ chordPoint p q t = scale ρ r := by
  have hR2 : 0 < R ^ 2 := by positivity
  have cs : dot p q ≤ R ^ 2 := by
    simp only [dot] at *
    nlinarith [sq_nonneg (p.1 - q.1), sq_nonneg (p.2.1 - q.2.1), sq_nonneg (p.2.2 - q.2.2)]
  have d0 : 0 ≤ d := by nlinarith
  rcases eq_or_lt_of_le cs with heq | hlt
  · have e : p = q := by
      have : (p.1 - q.1) ^ 2 + (p.2.1 - q.2.1) ^ 2 + (p.2.2 - q.2.2) ^ 2 = 0 := by
        simp only [dot] at *; nlinarith
      have h1 := sq_nonneg (p.1 - q.1)
      have h2 := sq_nonneg (p.2.1 - q.2.1)
      have h3 := sq_nonneg (p.2.2 - q.2.2)
      refine Prod.ext ?_ (Prod.ext ?_ ?_)
      · exact sub_eq_zero.1 (pow_eq_zero_iff (two_ne_zero) |>.1 (by linarith))
      · exact sub_eq_zero.1 (pow_eq_zero_iff (two_ne_zero) |>.1 (by linarith))
      · exact sub_eq_zero.1 (pow_eq_zero_iff (two_ne_zero) |>.1 (by linarith))
    subst e
    have z : centralAngle R p p = 0 := by
      unfold centralAngle
      rw [hp, div_self hR2.ne', arccos_one]
    refine ⟨t, p, 1, t0, t1, by rw [sub_self, abs_zero]; positivity, ⟨hp, by rw [z, mul_zero], by rw [z, mul_zero]⟩, one_pos, ?_⟩
    simp only [chordPoint, scale]
    refine Prod.ext ?_ (Prod.ext ?_ ?_) <;> simp only <;> ring
  · obtain ⟨θ, hθ⟩ : ∃ θ, θ = centralAngle R p q := ⟨_, rfl⟩
    have c1 : dot p q / R ^ 2 < 1 := by rw [div_lt_one hR2]; exact hlt
    have c2 : 1 - d / 2 ≤ dot p q / R ^ 2 := by rw [le_div_iff₀ hR2]; exact hpq
    have hcos : cos θ = dot p q / R ^ 2 := by
      rw [hθ]; exact cos_arccos (by linarith) c1.le
    have h0 : 0 < θ := by rw [hθ]; exact arccos_pos.2 c1
    obtain ⟨hs, hs2⟩ := angle_small hd h0.le (by rw [hθ]; exact arccos_le_pi _) (by rw [hcos]; exact c2)
    have hlt : θ < π := by linarith [pi_gt_three]
    obtain ⟨n1, n2, n3⟩ := arcFraction_near h0 hs t0 t1
    obtain ⟨k1, k2⟩ := chord_arc (t := t) h0 hlt p q
    refine ⟨_, _, _, n2, n3, n1.trans ?_, arcPoint_onArc hR h0 hlt hp hq ?_ n2 n3, k1, k2⟩
    · norm_num at hs2; linarith
    · rw [hcos]; field_simp

end Verif.Spec
