import Verif.Base.Arith
import Mathlib.Analysis.SpecialFunctions.Trigonometric.Inverse
import Mathlib.Data.Int.Log
import Mathlib.Algebra.Order.Round

/-!
# Floating point arithmetic

Binary floating point numbers with `p` bits (`p = 53` for doubles, `24` for float32) and any exponent: neither overflow nor
underflow.  `Rounding` is rounding to nearest with any choice between two nearest numbers, together with the library
functions, which are not assumed to be correctly rounded.  `Fl r` is the arithmetic: every operation gives the rounded
exact result, or `bad` where there is none (NaN; infinities are merged with it, they only arise from divisions by zero).
Signed zeros are not distinguished.
-/

namespace Verif
open Real

/-- `x` is a binary number with `p` bits -/
def Rep (p : Nat) (x : ℝ) : Prop := ∃ m e : ℤ, |m| < 2 ^ p ∧ x = m * (2 : ℝ) ^ e

/-- Rounding to nearest, and the library functions. -/
structure Rounding where
  /-- bits -/
  p : Nat
  hp : 2 ≤ p
  rnd : ℝ → ℝ
  /-- the result is representable -/
  rep : ∀ x, Rep p (rnd x)
  /-- no representable number is nearer -/
  near : ∀ x f, Rep p f → |rnd x - x| ≤ |f - x|
  sin : ℝ → ℝ
  cos : ℝ → ℝ
  asin : ℝ → ℝ
  acos : ℝ → ℝ
  sin_rep : ∀ x, Rep p (sin x)
  cos_rep : ∀ x, Rep p (cos x)
  asin_rep : ∀ x, Rep p (asin x)
  acos_rep : ∀ x, Rep p (acos x)

/-! ### representable numbers -/

variable {p : Nat}

theorem two_zpow_pos (e : ℤ) : (0 : ℝ) < 2 ^ e := by positivity

theorem rep_zero : Rep p 0 := ⟨0, 0, by simp, by simp⟩

theorem Rep.neg {x : ℝ} (h : Rep p x) : Rep p (-x) := by
  obtain ⟨m, e, hm, rfl⟩ := h
  exact ⟨-m, e, by rwa [abs_neg], by push_cast; ring⟩

theorem Rep.abs {x : ℝ} (h : Rep p x) : Rep p |x| := by
  rcases abs_choice x with e | e <;> rw [e]
  exacts [h, h.neg]

/-- scaling by a power of two -/
theorem Rep.scale {x : ℝ} (h : Rep p x) (k : ℤ) : Rep p (x * 2 ^ k) := by
  obtain ⟨m, e, hm, rfl⟩ := h
  exact ⟨m, e + k, hm, by rw [mul_assoc, ← zpow_add₀ (by norm_num)]⟩

/-- integers of at most `p` bits, and `2 ^ p` -/
theorem rep_int (hp : 1 ≤ p) {m : ℤ} (h : |m| ≤ 2 ^ p) : Rep p m := by
  rcases h.lt_or_eq with h | h
  · exact ⟨m, 0, h, by simp⟩
  · have h1 : (1 : ℤ) < 2 ^ p := one_lt_pow₀ (by norm_num) (by omega)
    rcases (abs_eq (by positivity)).1 h with e | e
    · exact ⟨1, p, by rwa [abs_one], by rw [e]; push_cast; simp⟩
    · exact ⟨-1, p, by rwa [abs_neg, abs_one], by rw [e]; push_cast; simp⟩

theorem rep_one (hp : 1 ≤ p) : Rep p 1 := by
  have := rep_int hp (m := 1) (by rw [abs_one]; exact one_le_pow₀ (by norm_num))
  simpa using this

/-- exponent of the last bit of a number near `x` -/
noncomputable def expo (p : Nat) (x : ℝ) : ℤ := Int.log 2 |x| + 1 - p

theorem expo_le {x : ℝ} (h : x ≠ 0) : (2 : ℝ) ^ (expo p x + p - 1) ≤ |x| := by
  have := Int.zpow_log_le_self (b := 2) (by norm_num) (abs_pos.2 h)
  unfold expo
  rw [show Int.log 2 |x| + 1 - p + p - 1 = Int.log 2 |x| by ring]
  exact_mod_cast this

theorem lt_expo (x : ℝ) : |x| < (2 : ℝ) ^ (expo p x + p) := by
  have := Int.lt_zpow_succ_log_self (b := 2) (by norm_num) |x|
  unfold expo
  rw [show Int.log 2 |x| + 1 - p + p = Int.log 2 |x| + 1 by ring]
  exact_mod_cast this

/-- a representable number of at least `2 ^ (E + p - 1)` is a multiple of `2 ^ E` -/
theorem Rep.grid {f : ℝ} (h : Rep p f) {E : ℤ} (hf : (2 : ℝ) ^ (E + p - 1) ≤ |f|) : ∃ m : ℤ, f = m * (2 : ℝ) ^ E := by
  obtain ⟨m, e, hm, rfl⟩ := h
  by_cases he : E ≤ e
  · refine ⟨m * 2 ^ (e - E).toNat, ?_⟩
    push_cast
    rw [mul_assoc, ← zpow_natCast, Int.toNat_of_nonneg (by omega), ← zpow_add₀ (by norm_num), sub_add_cancel]
  · exfalso
    have h1 : |(m : ℝ)| < 2 ^ p := by exact_mod_cast hm
    rw [abs_mul, abs_of_pos (two_zpow_pos e)] at hf
    have h2 : |(m : ℝ)| * 2 ^ e < 2 ^ p * 2 ^ e := mul_lt_mul_of_pos_right h1 (two_zpow_pos e)
    have h3 : (2 : ℝ) ^ p * 2 ^ e = 2 ^ (p + e) := by rw [zpow_add₀ (by norm_num), zpow_natCast]
    have h4 : (2 : ℝ) ^ ((p : ℤ) + e) ≤ 2 ^ (E + p - 1) := zpow_le_zpow_right₀ (by norm_num) (by omega)
    linarith

/-- every number has a multiple of its last bit within half of it, and this multiple is representable -/
theorem exists_near (hp : 1 ≤ p) {x : ℝ} : Rep p (round (x / 2 ^ expo p x) * 2 ^ expo p x) ∧
    |round (x / 2 ^ expo p x) * (2 : ℝ) ^ expo p x - x| ≤ 2 ^ expo p x / 2 := by
  set E := expo p x with hE
  have hpos := two_zpow_pos E
  have hlt : |x / 2 ^ E| < 2 ^ p := by
    rw [abs_div, abs_of_pos hpos, div_lt_iff₀ hpos, ← zpow_natCast, ← zpow_add₀ (by norm_num), add_comm]
    exact lt_expo x
  have hr := abs_sub_round (x / 2 ^ E)
  constructor
  · refine Rep.scale (rep_int hp ?_) E
    have h1 := abs_lt.1 hlt
    have h2 := abs_le.1 hr
    have a : (round (x / 2 ^ E) : ℝ) < ((2 ^ p + 1 : ℤ) : ℝ) := by push_cast; linarith [h1.2, h2.1]
    have b : ((-(2 ^ p) - 1 : ℤ) : ℝ) < (round (x / 2 ^ E) : ℝ) := by push_cast; linarith [h1.1, h2.2]
    have a' : round (x / 2 ^ E) < 2 ^ p + 1 := by exact_mod_cast a
    have b' : -(2 ^ p) - 1 < round (x / 2 ^ E) := by exact_mod_cast b
    rw [abs_le]
    constructor <;> omega
  · have : round (x / 2 ^ E) * (2 : ℝ) ^ E - x = -(x / 2 ^ E - round (x / 2 ^ E)) * 2 ^ E := by
      field_simp; ring
    rw [this, abs_mul, abs_neg, abs_of_pos hpos]
    calc _ ≤ 1 / 2 * (2 : ℝ) ^ E := mul_le_mul_of_nonneg_right hr hpos.le
      _ = _ := by ring

/-! ### rounding -/

namespace Rounding
variable (r : Rounding)

theorem hp1 : 1 ≤ r.p := le_trans (by norm_num) r.hp

/-- the unit roundoff -/
noncomputable def u : ℝ := (2 : ℝ) ^ (-(r.p : ℤ))

theorem u_pos : 0 < r.u := two_zpow_pos _

theorem u_le : r.u ≤ 1 / 4 := by
  unfold u
  have : (2 : ℝ) ^ (-(r.p : ℤ)) ≤ 2 ^ (-2 : ℤ) := zpow_le_zpow_right₀ (by norm_num) (by have := r.hp; omega)
  calc _ ≤ _ := this
    _ = _ := by norm_num

/-- representable numbers are kept -/
theorem rnd_rep {x : ℝ} (h : Rep r.p x) : r.rnd x = x := by
  have := r.near x x h
  rw [sub_self, abs_zero] at this
  exact sub_eq_zero.1 (abs_eq_zero.1 (le_antisymm this (abs_nonneg _)))

@[simp] theorem rnd_zero : r.rnd 0 = 0 := r.rnd_rep rep_zero
@[simp] theorem rnd_one : r.rnd 1 = 1 := r.rnd_rep (rep_one r.hp1)

/-- rounding is monotonic -/
theorem mono {x y : ℝ} (h : x ≤ y) : r.rnd x ≤ r.rnd y := by
  rcases h.eq_or_lt with rfl | h
  · exact le_rfl
  by_contra hc
  rw [not_le] at hc
  have h1 := r.near x (r.rnd y) (r.rep y)
  have h2 := r.near y (r.rnd x) (r.rep x)
  rcases abs_cases (r.rnd x - x) with ⟨e1, _⟩ | ⟨e1, _⟩ <;> rcases abs_cases (r.rnd y - x) with ⟨e2, _⟩ | ⟨e2, _⟩ <;>
  rcases abs_cases (r.rnd y - y) with ⟨e3, _⟩ | ⟨e3, _⟩ <;> rcases abs_cases (r.rnd x - y) with ⟨e4, _⟩ | ⟨e4, _⟩ <;>
  rw [e1, e2] at h1 <;> rw [e3, e4] at h2 <;> linarith

theorem rnd_nonneg {x : ℝ} (h : 0 ≤ x) : 0 ≤ r.rnd x := by
  have := r.mono h
  rwa [rnd_zero] at this

theorem rnd_nonpos {x : ℝ} (h : x ≤ 0) : r.rnd x ≤ 0 := by
  have := r.mono h
  rwa [rnd_zero] at this

/-- bounds by representable numbers survive rounding -/
theorem rnd_le {x c : ℝ} (hc : Rep r.p c) (h : x ≤ c) : r.rnd x ≤ c := by
  have := r.mono h
  rwa [r.rnd_rep hc] at this

theorem le_rnd {x c : ℝ} (hc : Rep r.p c) (h : c ≤ x) : c ≤ r.rnd x := by
  have := r.mono h
  rwa [r.rnd_rep hc] at this

/-- half a last bit -/
theorem abs_rnd_sub_le (x : ℝ) : |r.rnd x - x| ≤ 2 ^ expo r.p x / 2 :=
  (r.near x _ (exists_near r.hp1).1).trans (exists_near r.hp1).2

/-- the relative error is at most the unit roundoff -/
theorem abs_rnd_sub_le_u (x : ℝ) : |r.rnd x - x| ≤ r.u * |x| := by
  rcases eq_or_ne x 0 with rfl | hx
  · simp
  refine (r.abs_rnd_sub_le x).trans ?_
  have h := mul_le_mul_of_nonneg_left (expo_le (p := r.p) hx) r.u_pos.le
  refine le_trans (le_of_eq ?_) h
  unfold u
  rw [← zpow_add₀ (by norm_num), div_eq_mul_inv, ← zpow_neg_one, ← zpow_add₀ (by norm_num)]
  congr 1; ring

theorem rnd_pos {x : ℝ} (h : 0 < x) : 0 < r.rnd x := by
  have := abs_le.1 (r.abs_rnd_sub_le_u x)
  rw [abs_of_pos h] at this
  nlinarith [r.u_le]

theorem rnd_neg' {x : ℝ} (h : x < 0) : r.rnd x < 0 := by
  have := abs_le.1 (r.abs_rnd_sub_le_u x)
  rw [abs_of_neg h] at this
  nlinarith [r.u_le]

theorem rnd_eq_zero {x : ℝ} : r.rnd x = 0 ↔ x = 0 := by
  constructor
  · intro h
    rcases lt_trichotomy x 0 with hx | hx | hx
    · exact absurd h (r.rnd_neg' hx).ne
    · exact hx
    · exact absurd h (r.rnd_pos hx).ne'
  · rintro rfl; simp

theorem rnd_abs_le {x c : ℝ} (hc : Rep r.p c) (h : |x| ≤ c) : |r.rnd x| ≤ c := by
  rw [abs_le] at h ⊢
  exact ⟨r.le_rnd hc.neg h.1, r.rnd_le hc h.2⟩

/-- In binary floating point arithmetic the root of the square is the absolute value. -/
theorem sqrt_sq {x : ℝ} (hx : Rep r.p x) : r.rnd (√(r.rnd (x * x))) = |x| := by
  rcases eq_or_ne x 0 with rfl | h0
  · simp
  rw [← abs_mul_abs_self x]
  set a := |x| with ha
  have hap : 0 < a := abs_pos.2 h0
  have hra : Rep r.p a := hx.abs
  set E := expo r.p a with hE
  have hlo : (2 : ℝ) ^ (E + r.p - 1) ≤ a := by
    have := expo_le (p := r.p) hap.ne'
    rwa [abs_of_pos hap] at this
  have hhi : a < (2 : ℝ) ^ (E + r.p) := by
    have := lt_expo (p := r.p) a
    rwa [abs_of_pos hap] at this
  have hEp := two_zpow_pos E
  obtain ⟨M, hM⟩ := Rep.grid hra (E := E) (by rwa [abs_of_pos hap])
  rcases hlo.eq_or_lt with heq | hlt
  · -- a power of two: everything is exact
    have h2 : Rep r.p (a * a) := by
      rw [← heq]
      have := (heq ▸ hra : Rep r.p ((2 : ℝ) ^ (E + r.p - 1))).scale (E + r.p - 1)
      exact this
    rw [r.rnd_rep h2, Real.sqrt_mul_self hap.le, r.rnd_rep hra]
  · -- the square has a relative error of at most u, its root an error of less than half a last bit
    set s := r.rnd (a * a) with hs
    have hs0 : 0 ≤ s := r.rnd_nonneg (mul_nonneg hap.le hap.le)
    have herr : |s - a * a| ≤ r.u * (a * a) := by
      have := r.abs_rnd_sub_le_u (a * a)
      rwa [abs_of_pos (mul_pos hap hap)] at this
    have hu := r.u_pos
    have hu' := r.u_le
    -- a ≤ 2^(E+p) - 2^E
    have hM' : a ≤ (2 : ℝ) ^ (E + r.p) - 2 ^ E := by
      have h1 : (M : ℝ) < 2 ^ r.p := by
        rw [hM, zpow_add₀ (by norm_num), mul_comm, zpow_natCast] at hhi
        exact lt_of_mul_lt_mul_left hhi hEp.le
      have h2 : M < 2 ^ r.p := by exact_mod_cast h1
      have h3 : (M : ℝ) ≤ 2 ^ r.p - 1 := by
        have : M ≤ 2 ^ r.p - 1 := by omega
        exact_mod_cast this
      rw [hM, zpow_add₀ (by norm_num), zpow_natCast]
      nlinarith
    have hua : r.u * a ≤ 2 ^ E - r.u * 2 ^ E := by
      have h1 : r.u * (2 : ℝ) ^ (E + r.p) = 2 ^ E := by
        unfold u
        rw [← zpow_add₀ (by norm_num)]
        congr 1; ring
      nlinarith
    set t := √s with ht
    have ht0 : 0 ≤ t := Real.sqrt_nonneg _
    have htt : t * t = s := Real.mul_self_sqrt hs0
    have hb := abs_le.1 herr
    -- t ≥ (1 - u) a
    have htlow : (1 - r.u) * a ≤ t := by
      apply Real.le_sqrt_of_sq_le
      nlinarith [mul_pos hap hap]
    have hdist : |t - a| < 2 ^ E / 2 := by
      have h1 : |t - a| * (t + a) ≤ r.u * (a * a) := by
        rw [← abs_of_nonneg (add_nonneg ht0 hap.le), ← abs_mul, show (t - a) * (t + a) = t * t - a * a by ring, htt]
        exact herr
      have h2 : |t - a| * ((2 - r.u) * a) ≤ r.u * (a * a) := by
        refine le_trans (mul_le_mul_of_nonneg_left ?_ (abs_nonneg _)) h1
        linarith
      have h3 : |t - a| * (2 - r.u) ≤ r.u * a := by
        have : (|t - a| * (2 - r.u)) * a ≤ (r.u * a) * a := by nlinarith
        exact le_of_mul_le_mul_right this hap
      have h4 : |t - a| * (2 - r.u) ≤ (2 ^ E / 2) * (2 - r.u) - r.u * 2 ^ E / 2 := by nlinarith
      have h5 : |t - a| * (2 - r.u) < (2 ^ E / 2) * (2 - r.u) := by nlinarith
      exact lt_of_mul_lt_mul_right h5 (by linarith)
    have hn := r.near t a hra
    have hclose : |r.rnd t - a| < 2 ^ E := by
      have := abs_sub_comm a t
      calc |r.rnd t - a| = |(r.rnd t - t) + (t - a)| := by ring_nf
        _ ≤ |r.rnd t - t| + |t - a| := abs_add_le _ _
        _ < _ := by linarith
    -- a is at least one last bit above the power of two
    have hM2 : (2 : ℝ) ^ (E + r.p - 1) + 2 ^ E ≤ a := by
      have e1 : (2 : ℝ) ^ (E + r.p - 1) = 2 ^ (r.p - 1) * 2 ^ E := by
        rw [← zpow_natCast, ← zpow_add₀ (by norm_num)]
        congr 1
        have := r.hp1
        push_cast [Nat.cast_sub this]; ring
      rw [e1, hM] at hlt
      rw [e1, hM]
      have h1 : (2 : ℝ) ^ (r.p - 1) < M := lt_of_mul_lt_mul_right hlt hEp.le
      have h2 : (2 : ℤ) ^ (r.p - 1) < M := by exact_mod_cast h1
      have h3 : (2 : ℝ) ^ (r.p - 1) + 1 ≤ M := by exact_mod_cast h2
      nlinarith
    have hrl : (2 : ℝ) ^ (E + r.p - 1) ≤ |r.rnd t| := by
      have := (abs_lt.1 hclose).1
      exact le_trans (by linarith) (le_abs_self _)
    obtain ⟨N, hN⟩ := Rep.grid (r.rep t) hrl
    rw [hN, hM, ← sub_mul, abs_mul, abs_of_pos hEp] at hclose
    have h1 : |(N : ℝ) - M| < 1 := by
      by_contra hc
      rw [not_lt] at hc
      nlinarith
    have h2 : |N - M| < 1 := by exact_mod_cast h1
    have h3 : N = M := by
      have := abs_lt.1 h2
      omega
    rw [hN, hM, h3]

end Rounding

/-! ### a rounding exists -/

/-- the nearest multiple of the last bit (halves upwards) -/
noncomputable def nearest (p : Nat) (x : ℝ) : ℝ := round (x / 2 ^ expo p x) * 2 ^ expo p x

theorem nearest_near (p : Nat) (hp : 1 ≤ p) (x f : ℝ) (hf : Rep p f) : |nearest p x - x| ≤ |f - x| := by
  rcases eq_or_ne x 0 with rfl | h0
  · simp [nearest]
  set E := expo p x with hE
  have hpos := two_zpow_pos E
  -- distance to a multiple of the last bit
  have key : ∀ m : ℤ, |nearest p x - x| ≤ |m * (2 : ℝ) ^ E - x| := by
    intro m
    have := round_le (x / 2 ^ E) m
    have e1 : nearest p x - x = -(x / 2 ^ E - round (x / 2 ^ E)) * 2 ^ E := by
      unfold nearest; rw [← hE]; field_simp; ring
    have e2 : m * (2 : ℝ) ^ E - x = -(x / 2 ^ E - m) * 2 ^ E := by field_simp; ring
    rw [e1, e2, abs_mul, abs_mul, abs_neg, abs_neg]
    exact mul_le_mul_of_nonneg_right this (abs_nonneg _)
  by_cases hl : (2 : ℝ) ^ (E + p - 1) ≤ |f|
  · obtain ⟨m, rfl⟩ := hf.grid hl
    exact key m
  · rw [not_le] at hl
    have hx := expo_le (p := p) h0
    rw [← hE] at hx
    have e1 : (2 : ℝ) ^ (E + p - 1) = 2 ^ (p - 1) * 2 ^ E := by
      rw [← zpow_natCast, ← zpow_add₀ (by norm_num)]
      congr 1
      push_cast [Nat.cast_sub hp]; ring
    have hfx : |x| - |f| ≤ |f - x| := by
      rw [abs_sub_comm]; exact abs_sub_abs_le_abs_sub x f
    rcases lt_or_gt_of_ne h0 with hneg | hpos'
    · have := key (-(2 ^ (p - 1)))
      push_cast at this
      rw [neg_mul, ← e1] at this
      refine this.trans ?_
      rw [abs_of_neg hneg] at hx hfx
      rw [abs_of_nonneg (by linarith)]
      linarith
    · have := key (2 ^ (p - 1))
      push_cast at this
      rw [← e1] at this
      refine this.trans ?_
      rw [abs_of_pos hpos'] at hx hfx
      rw [abs_of_nonpos (by linarith)]
      linarith

/-- Rounding to nearest with correctly rounded library functions (an instance of the structure, to show that there is
one). -/
noncomputable def Rounding.correct (p : Nat) (hp : 2 ≤ p) : Rounding where
  p := p
  hp := hp
  rnd := nearest p
  rep _ := (exists_near (by omega)).1
  near := nearest_near p (by omega)
  sin x := nearest p (Real.sin x)
  cos x := nearest p (Real.cos x)
  asin x := nearest p (Real.arcsin x)
  acos x := nearest p (Real.arccos x)
  sin_rep _ := (exists_near (by omega)).1
  cos_rep _ := (exists_near (by omega)).1
  asin_rep _ := (exists_near (by omega)).1
  acos_rep _ := (exists_near (by omega)).1

/-! ### the arithmetic -/

/-- A floating point number, or `bad`. -/
inductive Fl (r : Rounding) where
  | val (x : ℝ)
  | bad

namespace Fl
variable {r : Rounding}

noncomputable def map2 (f : ℝ → ℝ → ℝ) : Fl r → Fl r → Fl r
  | val a, val b => val (r.rnd (f a b))
  | _, _ => bad

noncomputable def cmp (f : ℝ → ℝ → Bool) : Fl r → Fl r → Bool
  | val a, val b => f a b
  | _, _ => false

noncomputable def divFl : Fl r → Fl r → Fl r
  | val a, val b => if b = 0 then bad else val (r.rnd (a / b))
  | _, _ => bad

noncomputable def map1 (f : ℝ → ℝ) : Fl r → Fl r
  | val a => val (f a)
  | bad => bad

noncomputable def sqrtFl : Fl r → Fl r
  | val a => if 0 ≤ a then val (r.rnd √a) else bad
  | bad => bad

noncomputable def unit1 (f : ℝ → ℝ) : Fl r → Fl r
  | val a => if -1 ≤ a ∧ a ≤ 1 then val (f a) else bad
  | bad => bad

noncomputable instance instArith : Arith (Fl r) where
  ofInt n := val (r.rnd (n : ℝ))
  lit m e := val (r.rnd ((m : ℝ) / (10 : ℝ) ^ e))
  add := map2 (· + ·)
  sub := map2 (· - ·)
  mul := map2 (· * ·)
  div := divFl
  neg := map1 (- ·)
  lt := cmp (fun a b => decide (a < b))
  le := cmp (fun a b => decide (a ≤ b))
  eq := cmp (fun a b => decide (a = b))

noncomputable instance instTrig : Trig (Fl r) where
  toArith := instArith
  pi := val (r.rnd Real.pi)
  sqrt := sqrtFl
  sin := map1 r.sin
  cos := map1 r.cos
  asin := unit1 r.asin
  acos := unit1 r.acos
  toFloating x := x
  toDouble x := x

@[simp] theorem toFloating_eq (x : Fl r) : Trig.toFloating x = x := rfl
@[simp] theorem toDouble_eq (x : Fl r) : Trig.toDouble x = x := rfl
@[simp] theorem val_add (a b : ℝ) : (val a + val b : Fl r) = val (r.rnd (a + b)) := rfl
@[simp] theorem val_sub (a b : ℝ) : (val a - val b : Fl r) = val (r.rnd (a - b)) := rfl
@[simp] theorem val_mul (a b : ℝ) : (val a * val b : Fl r) = val (r.rnd (a * b)) := rfl
@[simp] theorem val_neg (a : ℝ) : (-(val a) : Fl r) = val (-a) := rfl
theorem val_div (a b : ℝ) : (val a / val b : Fl r) = if b = 0 then bad else val (r.rnd (a / b)) := rfl
theorem val_div_of_ne (a : ℝ) {b : ℝ} (h : b ≠ 0) : (val a / val b : Fl r) = val (r.rnd (a / b)) := by
  rw [val_div, if_neg h]
theorem ofInt_eq (n : Int) : (Arith.ofInt n : Fl r) = val (r.rnd (n : ℝ)) := rfl
theorem lit_eq (m e : Nat) : (Arith.lit m e : Fl r) = val (r.rnd ((m : ℝ) / (10 : ℝ) ^ e)) := rfl
@[simp] theorem lt_val (a b : ℝ) : Arith.lt (val a : Fl r) (val b) = decide (a < b) := rfl
@[simp] theorem le_val (a b : ℝ) : Arith.le (val a : Fl r) (val b) = decide (a ≤ b) := rfl
@[simp] theorem eq_val (a b : ℝ) : Arith.eq (val a : Fl r) (val b) = decide (a = b) := rfl
@[simp] theorem pi_eq : (Trig.pi : Fl r) = val (r.rnd Real.pi) := rfl
@[simp] theorem sin_val (a : ℝ) : (Trig.sin (val a) : Fl r) = val (r.sin a) := rfl
@[simp] theorem cos_val (a : ℝ) : (Trig.cos (val a) : Fl r) = val (r.cos a) := rfl
theorem sqrt_val_of {a : ℝ} (h : 0 ≤ a) : (Trig.sqrt (val a) : Fl r) = val (r.rnd √a) := by
  show sqrtFl _ = _
  rw [sqrtFl, if_pos h]
theorem asin_val_of {a : ℝ} (h : |a| ≤ 1) : (Trig.asin (val a) : Fl r) = val (r.asin a) := by
  show unit1 _ _ = _
  rw [unit1, if_pos (abs_le.1 h)]
theorem acos_val_of {a : ℝ} (h : |a| ≤ 1) : (Trig.acos (val a) : Fl r) = val (r.acos a) := by
  show unit1 _ _ = _
  rw [unit1, if_pos (abs_le.1 h)]

/-- `x` is a floating point number (not NaN or infinite) -/
def IsNum (x : Fl r) : Prop := ∃ a, Rep r.p a ∧ x = val a

/-- small integer literals are exact -/
theorem ofNat_of_rep (n : Nat) (h : Rep r.p n) : (OfNat.ofNat n : Fl r) = val (n : ℝ) := by
  show val (r.rnd (((n : Nat) : Int) : ℝ)) = _
  rw [r.rnd_rep (by simpa using h)]; simp

theorem zero_eq : (0 : Fl r) = val 0 := by
  have := ofNat_of_rep (r := r) 0 (by simpa using rep_zero)
  simpa using this
theorem one_eq : (1 : Fl r) = val 1 := by
  have := ofNat_of_rep (r := r) 1 (by simpa using rep_one r.hp1)
  simpa using this

theorem asign_val (a : ℝ) :
    asign (val a : Fl r) = val (if 0 < a then 1 else if a < 0 then -1 else 0) := by
  unfold asign
  rw [zero_eq, one_eq]
  rcases lt_trichotomy a 0 with h | h | h
  · simp [h, not_lt_of_gt h]
  · simp [h]
  · simp [h]

theorem aabs_val (a : ℝ) : aabs (val a : Fl r) = val |a| := by
  unfold aabs
  rw [zero_eq]
  by_cases h : a < 0
  · simp [h, abs_of_neg h]
  · simp [h, abs_of_nonneg (not_lt.mp h)]

end Fl

end Verif
