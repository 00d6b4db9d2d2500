import Verif.Base.Fl
import Verif.Model.GeoConv
import Verif.Spec.Geo
import Mathlib.Analysis.Real.Pi.Bounds

/-!
# Lemmas on the back conversion in floating point arithmetic
-/

namespace Verif.FlGeo
open Verif Real Fl Verif.Geo

variable {r : Rounding}

/-- the computed distance from the polar axis -/
noncomputable def hyp (r : Rounding) (x y : ℝ) : ℝ := r.rnd √(r.rnd (r.rnd (x * x) + r.rnd (y * y)))

theorem sum_nonneg (x y : ℝ) : 0 ≤ r.rnd (r.rnd (x * x) + r.rnd (y * y)) :=
  r.rnd_nonneg (add_nonneg (r.rnd_nonneg (mul_self_nonneg x)) (r.rnd_nonneg (mul_self_nonneg y)))

theorem hyp_val (x y : ℝ) :
    (Trig.sqrt (val x * val x + val y * val y : Fl r)) = val (hyp r x y) := by
  rw [val_mul, val_mul, val_add, sqrt_val_of (sum_nonneg x y)]; rfl

theorem hyp_rep (x y : ℝ) : Rep r.p (hyp r x y) := r.rep _

theorem hyp_nonneg (x y : ℝ) : 0 ≤ hyp r x y := r.rnd_nonneg (Real.sqrt_nonneg _)

/-- the computed distance is not less than the coordinate -/
theorem abs_le_hyp {x : ℝ} (hx : Rep r.p x) (y : ℝ) : |x| ≤ hyp r x y := by
  rw [← r.sqrt_sq hx]
  apply r.mono
  apply Real.sqrt_le_sqrt
  apply r.le_rnd (r.rep _)
  linarith [r.rnd_nonneg (mul_self_nonneg y)]

theorem hyp_eq_zero (x y : ℝ) : hyp r x y = 0 ↔ x = 0 ∧ y = 0 := by
  unfold hyp
  have a := r.rnd_nonneg (mul_self_nonneg x)
  have b := r.rnd_nonneg (mul_self_nonneg y)
  rw [r.rnd_eq_zero, Real.sqrt_eq_zero (sum_nonneg x y), r.rnd_eq_zero]
  constructor
  · intro h
    have h1 : r.rnd (x * x) = 0 := by linarith
    have h2 : r.rnd (y * y) = 0 := by linarith
    rw [r.rnd_eq_zero, mul_self_eq_zero] at h1 h2
    exact ⟨h1, h2⟩
  · rintro ⟨rfl, rfl⟩; simp

theorem rnd_le_of_nonneg {x : ℝ} (h : 0 ≤ x) : r.rnd x ≤ (1 + r.u) * x := by
  have := abs_le.1 (r.abs_rnd_sub_le_u x)
  rw [abs_of_nonneg h] at this
  linarith [this.2]

theorem le_rnd_of_nonneg {x : ℝ} (h : 0 ≤ x) : (1 - r.u) * x ≤ r.rnd x := by
  have := abs_le.1 (r.abs_rnd_sub_le_u x)
  rw [abs_of_nonneg h] at this
  linarith [this.1]

theorem hyp_le {x y c : ℝ} (hc : Rep r.p c) (hc0 : 0 ≤ c) (h : (1 + r.u) ^ 2 * (x ^ 2 + y ^ 2) ≤ c ^ 2) :
    hyp r x y ≤ c := by
  apply r.rnd_le hc
  rw [Real.sqrt_le_left hc0]
  have hu := r.u_pos
  have a := rnd_le_of_nonneg (r := r) (mul_self_nonneg x)
  have b := rnd_le_of_nonneg (r := r) (mul_self_nonneg y)
  have s : 0 ≤ r.rnd (x * x) + r.rnd (y * y) :=
    add_nonneg (r.rnd_nonneg (mul_self_nonneg x)) (r.rnd_nonneg (mul_self_nonneg y))
  have d := rnd_le_of_nonneg (r := r) s
  have e : (1 + r.u) * (r.rnd (x * x) + r.rnd (y * y)) ≤ (1 + r.u) * ((1 + r.u) * (x * x) + (1 + r.u) * (y * y)) :=
    mul_le_mul_of_nonneg_left (add_le_add a b) (by linarith)
  nlinarith

theorem pi_ne : r.rnd Real.pi ≠ 0 := (r.rnd_pos Real.pi_pos).ne'

/-- numbers stay numbers -/
theorem rad2deg_num (a : ℝ) : ∃ b, Rep r.p b ∧ rad2deg (val a : Fl r) = val b := by
  unfold rad2deg
  have : (180 : Fl r) = val (r.rnd ((180 : Nat) : ℤ)) := rfl
  rw [this, pi_eq, val_div_of_ne _ pi_ne, val_mul]
  exact ⟨_, r.rep _, rfl⟩

theorem num90 : (90 : Fl r) = val (r.rnd ((90 : Nat) : ℤ)) := rfl

theorem asign_num (a : ℝ) : ∃ b, Rep r.p b ∧ asign (val a : Fl r) = val b ∧ csign (val a : Fl r) = val b := by
  refine ⟨_, ?_, asign_val a, ?_⟩
  · have := rep_one r.hp1
    split_ifs
    exacts [this, this.neg, rep_zero]
  · unfold csign
    rw [zero_eq, one_eq]
    rcases lt_trichotomy a 0 with h | h | h
    · simp [h, not_lt_of_gt h]
    · simp [h]
    · simp [h]

/-- the longitude expression -/
theorem lon_num {x y : ℝ} (hx : Rep r.p x) (s : ℝ) (h : ¬ (x = 0 ∧ y = 0)) :
    IsNum (rad2deg (Trig.acos ((val x : Fl r) / val (hyp r x y))) * val s) := by
  have h0 : hyp r x y ≠ 0 := fun e => h ((hyp_eq_zero x y).1 e)
  have hpos : 0 < hyp r x y := lt_of_le_of_ne (hyp_nonneg x y) (Ne.symm h0)
  rw [val_div_of_ne _ h0, acos_val_of]
  · obtain ⟨b, _, e⟩ := rad2deg_num (r := r) (r.acos (r.rnd (x / hyp r x y)))
    rw [e, val_mul]
    exact ⟨_, r.rep _, rfl⟩
  · apply r.rnd_abs_le (rep_one r.hp1)
    rw [abs_div, abs_of_pos hpos, div_le_one hpos]
    exact abs_le_hyp hx y

theorem lon_bad (s : Fl r) :
    rad2deg (Trig.acos ((val 0 : Fl r) / val (hyp r 0 0))) * s = bad := by
  rw [(hyp_eq_zero 0 0).2 ⟨rfl, rfl⟩, val_div, if_pos rfl]
  rfl

/-- the latitude from z -/
theorem latZ_num {R z : ℝ} (hR : R ≠ 0) (h : |r.rnd (z / R)| ≤ 1) :
    IsNum (90 - rad2deg (Trig.acos ((val z : Fl r) / val R))) := by
  rw [val_div_of_ne _ hR, acos_val_of h]
  obtain ⟨b, _, e⟩ := rad2deg_num (r := r) (r.acos (r.rnd (z / R)))
  rw [e, num90, val_sub]
  exact ⟨_, r.rep _, rfl⟩

/-- the latitude from x and y -/
theorem latXY_num {R d : ℝ} (s : ℝ) (hR : 0 < R) (hd0 : 0 ≤ d) (hd : d ≤ R) :
    IsNum (val s * (90 - rad2deg (Trig.asin ((val d : Fl r) / val R)))) := by
  rw [val_div_of_ne _ hR.ne', asin_val_of]
  · obtain ⟨b, _, e⟩ := rad2deg_num (r := r) (r.asin (r.rnd (d / R)))
    rw [e, num90, val_sub, val_mul]
    exact ⟨_, r.rep _, rfl⟩
  · apply r.rnd_abs_le (rep_one r.hp1)
    rw [abs_of_nonneg (div_nonneg hd0 hR.le), div_le_one hR]
    exact hd

theorem u_le_8 (hp : 8 ≤ r.p) : r.u ≤ 1 / 256 := by
  unfold Rounding.u
  have : (2 : ℝ) ^ (-(r.p : ℤ)) ≤ 2 ^ (-8 : ℤ) := zpow_le_zpow_right₀ (by norm_num) (by omega)
  calc _ ≤ _ := this
    _ = _ := by norm_num

/-- a point not far outside the sphere whose z is large is near the axis -/
theorem near_axis {R x y z : ℝ} (hp : 8 ≤ r.p) (hR : 0 < R)
    (hn : x ^ 2 + y ^ 2 + z ^ 2 ≤ 3 / 2 * R ^ 2) (hz : 3 / 4 * (1 - 2 * r.u) * R ≤ |z|) :
    (1 + r.u) ^ 2 * (x ^ 2 + y ^ 2) ≤ R ^ 2 := by
  have hu := r.u_pos
  have hu' := u_le_8 hp
  have h1 : 3 / 4 * (254 / 256) * R ≤ |z| := by nlinarith
  have h2 : (3 / 4 * (254 / 256) * R) ^ 2 ≤ z ^ 2 := by
    rw [← sq_abs z]
    exact pow_le_pow_left₀ (by positivity) h1 2
  have h3 : x ^ 2 + y ^ 2 ≤ (3 / 2 - (3 / 4 * (254 / 256)) ^ 2) * R ^ 2 := by nlinarith
  have h4 : (1 + r.u) ^ 2 ≤ (257 / 256) ^ 2 := pow_le_pow_left₀ (by linarith) (by linarith) 2
  have h5 : 0 ≤ x ^ 2 + y ^ 2 := by positivity
  have h6 : (1 + r.u) ^ 2 * (x ^ 2 + y ^ 2) ≤ (257 / 256) ^ 2 * ((3 / 2 - (3 / 4 * (254 / 256)) ^ 2) * R ^ 2) := by
    calc _ ≤ (257 / 256) ^ 2 * (x ^ 2 + y ^ 2) := mul_le_mul_of_nonneg_right h4 h5
      _ ≤ _ := mul_le_mul_of_nonneg_left h3 (by norm_num)
  have h7 : 0 < R ^ 2 := by positivity
  nlinarith

/-- a number less than half a last bit from a representable one (not a power of two) is rounded to it -/
theorem snap {c x : ℝ} {M E : ℤ} (hc : Rep r.p c) (hM : c = M * 2 ^ E) (hl : (2 : ℝ) ^ (E + r.p - 1) + 2 ^ E ≤ c)
    (hx : |x - c| < 2 ^ E / 2) : r.rnd x = c := by
  have hEp := two_zpow_pos E
  have hn := r.near x c hc
  have h1 : |r.rnd x - c| < 2 ^ E := by
    calc |r.rnd x - c| = |(r.rnd x - x) + (x - c)| := by ring_nf
      _ ≤ |r.rnd x - x| + |x - c| := abs_add_le _ _
      _ < _ := by rw [abs_sub_comm c x] at hn; linarith
  have h2 : (2 : ℝ) ^ (E + r.p - 1) ≤ |r.rnd x| := by
    have := (abs_lt.1 h1).1
    exact le_trans (by linarith) (le_abs_self _)
  obtain ⟨N, hN⟩ := Rep.grid (r.rep x) h2
  rw [hN, hM, ← sub_mul, abs_mul, abs_of_pos hEp] at h1
  have h3 : |(N : ℝ) - M| < 1 := by
    by_contra hcon
    rw [not_lt] at hcon
    nlinarith
  have h4 : |N - M| < 1 := by exact_mod_cast h3
  have h5 : N = M := by have := abs_lt.1 h4; omega
  rw [hN, hM, h5]

/-- the factor used by `rad2deg` -/
noncomputable def degFactor (r : Rounding) : ℝ := r.rnd (180 / r.rnd Real.pi)

theorem rep_small (hp : 8 ≤ r.p) {n : ℤ} (h : |n| ≤ 256) : Rep r.p n := by
  apply rep_int r.hp1
  have : (2 : ℤ) ^ 8 ≤ 2 ^ r.p := pow_le_pow_right₀ (by norm_num) hp
  exact h.trans (le_trans (by norm_num) this)

theorem rep_180 (hp : 8 ≤ r.p) : Rep r.p 180 := by
  have := rep_small (r := r) hp (n := 180) (by norm_num)
  simpa using this
theorem rep_90 (hp : 8 ≤ r.p) : Rep r.p 90 := by
  have := rep_small (r := r) hp (n := 90) (by norm_num)
  simpa using this

theorem rad2deg_val (hp : 8 ≤ r.p) (a : ℝ) : rad2deg (val a : Fl r) = val (r.rnd (a * degFactor r)) := by
  unfold rad2deg degFactor
  have : (180 : Fl r) = val (r.rnd ((180 : Nat) : ℤ)) := rfl
  rw [this, pi_eq, val_div_of_ne _ pi_ne, val_mul]
  have e : r.rnd (((180 : Nat) : ℤ) : ℝ) = 180 := by
    have := r.rnd_rep (rep_180 hp)
    push_cast; exact this
  rw [e]

theorem pi_bounds (hp : 8 ≤ r.p) : 3 < r.rnd Real.pi ∧ r.rnd Real.pi < 3.17 := by
  have h := abs_le.1 (r.abs_rnd_sub_le_u Real.pi)
  rw [abs_of_pos Real.pi_pos] at h
  have hu := r.u_pos
  have hu' := u_le_8 hp
  have h1 := Real.pi_gt_d2
  have h2 := Real.pi_lt_d2
  constructor <;> nlinarith [h.1, h.2]

theorem degFactor_nonneg : 0 ≤ degFactor r :=
  r.rnd_nonneg (div_nonneg (by norm_num) (r.rnd_nonneg Real.pi_pos.le))

/-- rounding errors of the factor are less than 0.56 last bits of 180 -/
theorem pi_degFactor (hp : 8 ≤ r.p) : |r.rnd Real.pi * degFactor r - 180| < 128 * r.u := by
  obtain ⟨h1, h2⟩ := pi_bounds hp
  have hpos : 0 < r.rnd Real.pi := by linarith
  have hu := r.u_pos
  have hq := r.abs_rnd_sub_le (180 / r.rnd Real.pi)
  have hv0 : 0 < 180 / r.rnd Real.pi := by positivity
  have hlog : Int.log 2 |180 / r.rnd Real.pi| ≤ 5 := by
    rw [abs_of_pos hv0]
    have := (Int.lt_zpow_iff_log_lt (b := 2) (by norm_num) (x := 6) hv0).1 (by
      rw [div_lt_iff₀ hpos]; norm_num; linarith)
    omega
  have hexp : (2 : ℝ) ^ expo r.p (180 / r.rnd Real.pi) ≤ 64 * r.u := by
    unfold Rounding.u
    rw [show (64 : ℝ) = 2 ^ (6 : ℤ) by norm_num, ← zpow_add₀ (by norm_num)]
    apply zpow_le_zpow_right₀ (by norm_num)
    unfold expo; omega
  have e : r.rnd Real.pi * degFactor r - 180 = r.rnd Real.pi * (degFactor r - 180 / r.rnd Real.pi) := by
    field_simp
  rw [e, abs_mul, abs_of_pos hpos]
  have h3 : |degFactor r - 180 / r.rnd Real.pi| ≤ 32 * r.u := by
    refine hq.trans ?_
    linarith
  have h4 := mul_le_mul h2.le h3 (abs_nonneg _) (by norm_num)
  nlinarith

/-- `rad2deg` of the number for pi is 180 -/
theorem rad2deg_pi (hp : 8 ≤ r.p) : r.rnd (r.rnd Real.pi * degFactor r) = 180 := by
  have h := pi_degFactor (r := r) hp
  have hpow : (2 : ℝ) ^ ((8 : ℤ) - r.p) = 256 * r.u := by
    unfold Rounding.u
    rw [sub_eq_add_neg, zpow_add₀ (by norm_num)]; norm_num
  have hM : (180 : ℝ) = ((180 * 2 ^ (r.p - 8) : ℤ) : ℝ) * 2 ^ ((8 : ℤ) - r.p) := by
    push_cast
    rw [mul_assoc, ← zpow_natCast, ← zpow_add₀ (by norm_num), Nat.cast_sub hp]
    norm_num
  refine snap (rep_180 hp) (M := 180 * 2 ^ (r.p - 8)) (E := (8 : ℤ) - r.p) hM ?_ ?_
  · rw [hpow, show ((8 : ℤ) - r.p + r.p - 1) = 7 by ring]
    have := u_le_8 hp
    norm_num; linarith
  · rw [hpow]; linarith

/-- and of its half 90 -/
theorem rad2deg_half_pi (hp : 8 ≤ r.p) : r.rnd (r.rnd Real.pi / 2 * degFactor r) = 90 := by
  have h := pi_degFactor (r := r) hp
  have hpow : (2 : ℝ) ^ ((7 : ℤ) - r.p) = 128 * r.u := by
    unfold Rounding.u
    rw [sub_eq_add_neg, zpow_add₀ (by norm_num)]; norm_num
  have hM : (90 : ℝ) = ((90 * 2 ^ (r.p - 7) : ℤ) : ℝ) * 2 ^ ((7 : ℤ) - r.p) := by
    push_cast
    rw [mul_assoc, ← zpow_natCast, ← zpow_add₀ (by norm_num), Nat.cast_sub (by omega)]
    norm_num
  refine snap (rep_90 hp) (M := 90 * 2 ^ (r.p - 7)) (E := (7 : ℤ) - r.p) hM ?_ ?_
  · rw [hpow, show ((7 : ℤ) - r.p + r.p - 1) = 6 by ring]
    have := u_le_8 hp
    norm_num; linarith
  · rw [hpow, show r.rnd Real.pi / 2 * degFactor r - 90 = (r.rnd Real.pi * degFactor r - 180) / 2 by ring, abs_div]
    norm_num; linarith


end Verif.FlGeo
