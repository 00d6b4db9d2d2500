import Verif.Proofs.FlErr
import Verif.Spec.Geo

/-!
# From a position to a point and back, with rounding
-/

namespace Verif.Err
open Verif Fl Verif.Geo Verif.FlGeo
variable {r : Rounding} {ε : ℝ}

theorem deg_rad (d : ℝ) : Spec.rad d * (180 / Real.pi) = d := by
  unfold Spec.rad
  have := Real.pi_pos
  field_simp

theorem abs_rad (d : ℝ) : |Spec.rad d| = |d| * (Real.pi / 180) := by
  unfold Spec.rad
  rw [abs_mul, abs_of_pos (a := Real.pi / 180) (by have := Real.pi_pos; positivity)]

/-- The longitude of a point made from `lam` (near `lon`) and a latitude `phi` off the poles. -/
theorem lon_core (hp : 8 ≤ r.p) (h : LibRel r ε) (hε : ε ≤ 1 / 4096) {lon lam x y P τ δ : ℝ} {p' : Nat}
    (hlon : |lon| ≤ 180) (hl : Rep p' lam) (hδ : Rel δ lam (Spec.rad lon)) (hδ0 : 0 ≤ δ) (hδ1 : δ ≤ 1 / 2)
    (hP : 0 < P) (hx : Rel τ x (P * Real.cos lam)) (hy : Rel τ y (P * Real.sin lam)) (hτ0 : 0 ≤ τ) (hτ : τ ≤ 1 / 16)
    (hxr : Rep r.p x) :
    ∃ L, Rep r.p L ∧
      rad2deg (Trig.acos ((val x : Fl r) / val (hyp r x y))) * val (if 0 < y then 1 else if y < 0 then -1 else 0) = val L ∧
      |L| ≤ 185 ∧ Spec.LonWithin (270 * √ε + 98 * τ + 180 * δ) L lon := by
  have hpi := Real.pi_pos
  have hlr : |Spec.rad lon| ≤ Real.pi := by
    rw [abs_rad, mul_div_assoc', div_le_iff₀ (by norm_num)]; nlinarith
  have hd0 : |lam - Spec.rad lon| ≤ δ * |Spec.rad lon| := hδ
  have hlam : |lam| ≤ 3 * Real.pi / 2 := by
    have := hδ.abs_le
    have h0 := abs_nonneg (Spec.rad lon)
    nlinarith
  obtain ⟨L, h1, h2, h3, k, hk, hk'⟩ := lon_near hp h hε hxr (sign_of_rel hx hy (by linarith) hP hl) hP hτ0 hτ hlam
    (plane_of_rel hx hy)
  refine ⟨L, h1, h2, h3, k, hk, ?_⟩
  have e : L - lon - 360 * k = (L - lam * (180 / Real.pi) - 360 * k) + (lam - Spec.rad lon) * (180 / Real.pi) := by
    rw [sub_mul, deg_rad]; ring
  rw [e]
  refine (abs_add_le _ _).trans ?_
  have h5 : |(lam - Spec.rad lon) * (180 / Real.pi)| ≤ δ * |lon| := by
    rw [abs_mul, abs_of_pos c0]
    calc _ ≤ δ * |Spec.rad lon| * (180 / Real.pi) := mul_le_mul_of_nonneg_right hd0 c0.le
      _ = δ * |lon| := by rw [abs_rad]; field_simp
  have h6 : δ * |lon| ≤ δ * 180 := mul_le_mul_of_nonneg_left hlon hδ0
  linarith

/-- the position of such a point relative to the sphere, for `lat_near` -/
theorem lat_core {lat lam phi x y z P R τ σ δ : ℝ} (hR : 0 < R) (hlat : |lat| ≤ 90) (hδ : Rel δ phi (Spec.rad lat)) (hδ0 : 0 ≤ δ)
    (hτ0 : 0 ≤ τ) (hσ0 : 0 ≤ σ) (hP : Rel σ P (R * Real.cos phi))
    (hx : Rel τ x (P * Real.cos lam)) (hy : Rel τ y (P * Real.sin lam)) (hz : Rel τ z (R * Real.sin phi)) :
    |Spec.rad lat| ≤ Real.pi / 2 ∧ |z / R - Real.sin (Spec.rad lat)| ≤ τ + σ + τ * σ + 1.58 * δ ∧
    |√(x ^ 2 + y ^ 2) / R - Real.cos (Spec.rad lat)| ≤ τ + σ + τ * σ + 1.58 * δ := by
  have hpi := Real.pi_pos
  have hlr : |Spec.rad lat| ≤ Real.pi / 2 := by
    rw [abs_rad, mul_div_assoc', div_le_iff₀ (by norm_num)]; nlinarith
  refine ⟨hlr, lat_of_rel hR hτ0 hx hy hz hP hσ0 hlr (le_trans hδ ?_)⟩
  have := Real.pi_lt_d2
  nlinarith [abs_nonneg (Spec.rad lat)]

/-- off the pole the rounded latitude is, too -/
theorem cos_pos_core {lat phi δ : ℝ} (hδ : Rel δ phi (Spec.rad lat)) (hlat : (1 + δ) * |lat| < 90) :
    0 < Real.cos phi := by
  have hpi := Real.pi_pos
  have h1 := hδ.abs_le
  rw [abs_rad] at h1
  have h2 : |phi| < Real.pi / 2 := by
    refine lt_of_le_of_lt h1 ?_
    rw [← mul_assoc]
    calc (1 + δ) * |lat| * (Real.pi / 180) < 90 * (Real.pi / 180) := mul_lt_mul_of_pos_right hlat (by positivity)
      _ = Real.pi / 2 := by ring
  exact Real.cos_pos_of_mem_Ioo (abs_lt.1 h2)

theorem pos_of_rel {e a b : ℝ} (h : Rel e a b) (he : e < 1) (hb : 0 < b) : 0 < a := by
  unfold Rel at h
  rw [abs_of_pos hb] at h
  have := (abs_le.1 h).1
  nlinarith

/-- `deg2rad` -/
theorem radFactor_rel (h : LibRel r ε) (hε : ε ≤ 1 / 4096) : Rel (2.01 * ε) (r.rnd (r.rnd Real.pi / 180)) (Real.pi / 180) := by
  have h0 := h.pos
  have h1 := (rel_rnd h.u Real.pi).div (Rel.refl (le_refl (0 : ℝ)) 180) h0.le (by norm_num)
  refine (h1.rnd h.u).mono ?_
  rw [sub_zero, add_zero, div_one]
  nlinarith

theorem rad_rel (h : LibRel r ε) (hε : ε ≤ 1 / 4096) (d : ℝ) :
    Rel (3.02 * ε) (r.rnd (d * r.rnd (r.rnd Real.pi / 180))) (Spec.rad d) := by
  have h0 := h.pos
  have h1 := (Rel.refl (le_refl (0 : ℝ)) d).mul (radFactor_rel h hε) le_rfl
  refine (h1.rnd h.u).mono ?_
  nlinarith

/-- product of a computed function value -/
theorem prod_rel (h : LibRel r ε) (hε : ε ≤ 1 / 4096) {a b : ℝ} (c : ℝ) (hab : Rel ε a b) :
    Rel (2.01 * ε) (r.rnd (c * a)) (c * b) := by
  have h0 := h.pos
  have h1 := (Rel.refl (le_refl (0 : ℝ)) c).mul hab le_rfl
  refine (h1.rnd h.u).mono ?_
  nlinarith

end Verif.Err
