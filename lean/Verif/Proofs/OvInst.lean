import Verif.Base.Ov
import Verif.Proofs.FlErr
import Verif.Proofs.MxWeights

/-!
# The arithmetics of the model are approximate arithmetics in the sense of `Approx`
-/

namespace Verif
open Verif.Err

private theorem combine {a b a' b' c : ℝ} (f : ℝ → ℝ → ℝ) (S : ℝ)
    (h1 : |f a' b'| ≤ 1.05 * S) (h2 : |f a' b' - f a b| ≤ S / 20) (hc : |c - f a' b'| ≤ |f a' b'| / 100) :
    |c - f a b| ≤ S / 4 := by
  have h3 : c - f a b = (c - f a' b') + (f a' b' - f a b) := by ring
  have h0 : 0 ≤ S := by have := abs_nonneg (f a' b' - f a b); linarith
  rw [h3]
  refine (abs_add_le _ _).trans ?_
  linarith

private theorem combine_add {a b a' b' c : ℝ} (ha : |a' - a| ≤ |a| / 100) (hb : |b' - b| ≤ |b| / 100)
    (hc : |c - (a' + b')| ≤ |a' + b'| / 100) : |c - (a + b)| ≤ (|a| + |b|) / 4 := by
  have e : |a' + b' - (a + b)| ≤ (|a| + |b|) / 100 := by
    rw [show a' + b' - (a + b) = (a' - a) + (b' - b) by ring]
    refine (abs_add_le _ _).trans ?_
    linarith
  have e' : |a' + b'| ≤ 1.05 * (|a| + |b|) := by
    have h1 := abs_add_le (a + b) (a' + b' - (a + b))
    rw [add_sub_cancel] at h1
    have := abs_add_le a b
    have := abs_nonneg a
    have := abs_nonneg b
    linarith
  refine combine (· + ·) _ e' (e.trans ?_) hc
  have := abs_nonneg a
  have := abs_nonneg b
  linarith

private theorem combine_sub {a b a' b' c : ℝ} (ha : |a' - a| ≤ |a| / 100) (hb : |b' - b| ≤ |b| / 100)
    (hc : |c - (a' - b')| ≤ |a' - b'| / 100) : |c - (a - b)| ≤ (|a| + |b|) / 4 := by
  have := combine_add (a := a) (b := -b) (a' := a') (b' := -b') (c := c) ha
    (by rw [abs_neg, show -b' - -b = -(b' - b) by ring, abs_neg]; exact hb) (by simpa [sub_eq_add_neg] using hc)
  rwa [abs_neg, ← sub_eq_add_neg] at this

private theorem combine_mul {a b a' b' c : ℝ} (ha : |a' - a| ≤ |a| / 100) (hb : |b' - b| ≤ |b| / 100)
    (hc : |c - a' * b'| ≤ |a' * b'| / 100) : |c - a * b| ≤ |a * b| / 4 := by
  have na := abs_nonneg a
  have nb := abs_nonneg b
  have e : |a' * b' - a * b| ≤ |a * b| / 20 := by
    rw [show a' * b' - a * b = (a' - a) * (b' - b) + (a' - a) * b + a * (b' - b) by ring, abs_mul]
    refine (abs_add_three _ _ _).trans ?_
    rw [abs_mul, abs_mul, abs_mul]
    have h1 := mul_le_mul ha hb (abs_nonneg _) (by positivity)
    have h2 := mul_le_mul_of_nonneg_right ha nb
    have h3 := mul_le_mul_of_nonneg_left hb na
    nlinarith [mul_nonneg na nb]
  refine combine (· * ·) _ ?_ e hc
  have h1 := abs_add_le (a * b) (a' * b' - a * b)
  rw [add_sub_cancel] at h1
  show |a' * b'| ≤ _
  have := abs_nonneg (a * b)
  linarith

private theorem combine_div {a b a' b' c : ℝ} (h0 : b ≠ 0) (ha : |a' - a| ≤ |a| / 100) (hb : |b' - b| ≤ |b| / 100)
    (hc : |c - a' / b'| ≤ |a' / b'| / 100) : b' ≠ 0 ∧ |c - a / b| ≤ |a / b| / 4 := by
  have na := abs_nonneg a
  have nb := abs_pos.2 h0
  have hb1 : 0.99 * |b| ≤ |b'| := by
    have := abs_sub_abs_le_abs_sub b b'
    rw [abs_sub_comm] at this
    linarith
  have hb' : 0 < |b'| := lt_of_lt_of_le (by positivity) hb1
  have hb0 : b' ≠ 0 := abs_pos.1 hb'
  refine ⟨hb0, ?_⟩
  have e : |a' / b' - a / b| ≤ |a / b| / 20 := by
    rw [div_sub_div _ _ hb0 h0, abs_div, abs_mul, abs_div, div_le_iff₀ (by positivity)]
    have h1 : |a' * b - b' * a| ≤ |a| * |b| / 50 := by
      rw [show a' * b - b' * a = (a' - a) * b - (b' - b) * a by ring]
      refine (abs_sub _ _).trans ?_
      rw [abs_mul, abs_mul]
      have h2 := mul_le_mul_of_nonneg_right ha nb.le
      have h3 := mul_le_mul_of_nonneg_right hb na
      nlinarith
    refine h1.trans ?_
    rw [show |a| / |b| / 20 * (|b'| * |b|) = |a| * |b'| / 20 by field_simp]
    nlinarith
  refine combine (· / ·) _ ?_ e hc
  have h1 := abs_add_le (a / b) (a' / b' - a / b)
  rw [add_sub_cancel] at h1
  show |a' / b'| ≤ _
  have := abs_nonneg (a / b)
  linarith

private theorem rnd100 {r : Rounding} (h : r.u ≤ 1 / 100) (x : ℝ) : |r.rnd x - x| ≤ |x| / 100 := by
  have := r.abs_rnd_sub_le_u x
  have := mul_le_mul_of_nonneg_right h (abs_nonneg x)
  linarith

private theorem self100 (x : ℝ) : |x - x| ≤ |x| / 100 := by rw [sub_self, abs_zero]; positivity

private theorem quarter {x y : ℝ} (h : |x - y| ≤ |y| / 100) : |x - y| ≤ |y| / 4 := by
  have := abs_nonneg y; linarith

private theorem lib_le {ε x y B : ℝ} (hε : ε ≤ 1 / 100) (h : Err.Rel ε x y) (hy : |y| ≤ B) : |x| ≤ 1.01 * B := by
  unfold Err.Rel at h
  have h1 := abs_add_le y (x - y)
  rw [add_sub_cancel] at h1
  have := mul_le_mul_of_nonneg_right hε (abs_nonneg y)
  linarith

private theorem arcsin_le (x : ℝ) : |Real.arcsin x| ≤ 1.6 := by
  have h1 := Real.neg_pi_div_two_le_arcsin x
  have h2 := Real.arcsin_le_pi_div_two x
  have := Real.pi_lt_d2
  norm_num at this
  rw [abs_le]; constructor <;> linarith

private theorem arccos_le (x : ℝ) : |Real.arccos x| ≤ 3.15 := by
  rw [abs_of_nonneg (Real.arccos_nonneg x)]
  exact (Real.arccos_le_pi x).trans Real.pi_lt_d2.le

/-! ### rounded arithmetic of one format -/

namespace Fl
variable {r : Rounding}

/-- the value -/
def value : Fl r → Option ℝ
  | val x => some x
  | bad => none

/-- a format of at least two decimal digits with functions of the same accuracy -/
noncomputable def approx {ε : ℝ} (h : LibRel r ε) (hε : ε ≤ 1 / 100) : Approx (Fl r) where
  value := value
  over := bad
  over_v := rfl
  ofInt_v n := ⟨_, rfl, quarter (rnd100 (h.u.trans hε) _)⟩
  lit_v k e := ⟨_, rfl, by
    have h0 : 0 ≤ (k : ℝ) / (10 : ℝ) ^ e := by positivity
    have := quarter (rnd100 (h.u.trans hε) ((k : ℝ) / (10 : ℝ) ^ e))
    rwa [abs_of_nonneg h0] at this⟩
  pi_v := ⟨_, rfl, by
    have := quarter (rnd100 (h.u.trans hε) Real.pi)
    rwa [abs_of_pos Real.pi_pos] at this⟩
  add_n x y hn := by cases x <;> cases y <;> simp_all [value] <;> rfl
  add_v x y a b ha hb := by
    cases x <;> cases y <;> simp only [value, Option.some.injEq, reduceCtorEq] at ha hb
    subst ha hb
    exact ⟨_, rfl, combine_add (self100 _) (self100 _) (rnd100 (h.u.trans hε) _)⟩
  sub_n x y hn := by cases x <;> cases y <;> simp_all [value] <;> rfl
  sub_v x y a b ha hb := by
    cases x <;> cases y <;> simp only [value, Option.some.injEq, reduceCtorEq] at ha hb
    subst ha hb
    exact ⟨_, rfl, combine_sub (self100 _) (self100 _) (rnd100 (h.u.trans hε) _)⟩
  mul_n x y hn := by cases x <;> cases y <;> simp_all [value] <;> rfl
  mul_v x y a b ha hb := by
    cases x <;> cases y <;> simp only [value, Option.some.injEq, reduceCtorEq] at ha hb
    subst ha hb
    exact ⟨_, rfl, combine_mul (self100 _) (self100 _) (rnd100 (h.u.trans hε) _)⟩
  div_n x y hn := by
    cases x with
    | bad => rfl
    | val a => cases y with
      | bad => rfl
      | val b =>
        have hb : b = 0 := by simpa [value] using hn
        rw [val_div, if_pos hb]; rfl
  div_v x y a b ha hb h0 := by
    cases x <;> cases y <;> simp only [value, Option.some.injEq, reduceCtorEq] at ha hb
    subst ha hb
    rw [val_div_of_ne _ h0]
    exact ⟨_, rfl, (combine_div h0 (self100 _) (self100 _) (rnd100 (h.u.trans hε) _)).2⟩
  neg_v x := by cases x <;> rfl
  sqrt_n x hx := by cases x with
    | val a => simp [value] at hx
    | bad => rfl
  sqrt_neg x a hx h0 := by cases x with
    | bad => simp [value] at hx
    | val b =>
      have hb : b = a := by simpa [value] using hx
      subst hb
      show value (if 0 ≤ b then _ else bad) = none
      rw [if_neg (not_le.2 h0)]; rfl
  sqrt_v x a hx h0 := by cases x with
    | bad => simp [value] at hx
    | val b =>
      have hb : b = a := by simpa [value] using hx
      subst hb
      refine ⟨r.rnd √b, ?_, ?_⟩
      · show value (if 0 ≤ b then _ else bad) = _
        rw [if_pos h0]; rfl
      · have := rnd100 (h.u.trans hε) √b
        have h1 := Real.sqrt_nonneg b
        rw [abs_of_nonneg h1] at this
        linarith
  sin_v x c hc := by cases x with
    | bad => simp [value, Trig.sin, map1] at hc
    | val a =>
      have hb : r.sin a = c := by simpa [value, Trig.sin, map1] using hc
      rw [← hb]
      exact (lib_le hε (h.sin a) (Real.abs_sin_le_one a)).trans (by norm_num)
  cos_v x c hc := by cases x with
    | bad => simp [value, Trig.cos, map1] at hc
    | val a =>
      have hb : r.cos a = c := by simpa [value, Trig.cos, map1] using hc
      rw [← hb]
      exact (lib_le hε (h.cos a) (Real.abs_cos_le_one a)).trans (by norm_num)
  asin_v x c hc := by cases x with
    | bad => simp [value, Trig.asin, unit1] at hc
    | val a =>
      have hc' : value (if -1 ≤ a ∧ a ≤ 1 then val (r.asin a) else bad : Fl r) = some c := hc
      by_cases ha : -1 ≤ a ∧ a ≤ 1
      · rw [if_pos ha] at hc'
        have hb : r.asin a = c := by simpa [value] using hc'
        rw [← hb]
        exact (lib_le hε (h.asin a (abs_le.2 ha)) (arcsin_le a)).trans (by norm_num)
      · rw [if_neg ha] at hc'; simp [value] at hc'
  acos_v x c hc := by cases x with
    | bad => simp [value, Trig.acos, unit1] at hc
    | val a =>
      have hc' : value (if -1 ≤ a ∧ a ≤ 1 then val (r.acos a) else bad : Fl r) = some c := hc
      by_cases ha : -1 ≤ a ∧ a ≤ 1
      · rw [if_pos ha] at hc'
        have hb : r.acos a = c := by simpa [value] using hc'
        rw [← hb]
        exact (lib_le hε (h.acos a (abs_le.2 ha)) (arccos_le a)).trans (by norm_num)
      · rw [if_neg ha] at hc'; simp [value] at hc'
  toFloating_n x hx := hx
  toFloating_v x a hx := ⟨a, hx, quarter (self100 a)⟩
  toDouble_n x hx := hx
  toDouble_v x a hx := ⟨a, hx, quarter (self100 a)⟩

end Fl

/-! ### mixed precision -/

namespace Mx
variable {q : Mixed}

private theorem op_bad (fi : ℤ → ℤ → ℤ) (f : ℝ → ℝ → ℝ) {x y : Mx q} (h : value x = none ∨ value y = none) :
    value (op fi f x y) = none := by
  cases x <;> cases y <;> simp_all [value, op]

private theorem op_val {us : q.s.u ≤ 1 / 100} {ud : q.d.u ≤ 1 / 100} (fi : ℤ → ℤ → ℤ) (f : ℝ → ℝ → ℝ)
    (hf : ∀ m n : ℤ, ((fi m n : ℤ) : ℝ) = f m n) {x y : Mx q} {a b : ℝ} (ha : value x = some a) (hb : value y = some b) :
    ∃ a' b' c, value (op fi f x y) = some c ∧ |a' - a| ≤ |a| / 100 ∧ |b' - b| ≤ |b| / 100 ∧ |c - f a' b'| ≤ |f a' b'| / 100 := by
  cases x <;> cases y <;> simp only [value, Option.some.injEq, reduceCtorEq] at ha hb <;> subst ha hb
  · exact ⟨_, _, _, rfl, self100 _, self100 _, by rw [hf]; exact self100 _⟩
  · exact ⟨_, _, _, rfl, rnd100 us _, self100 _, rnd100 us _⟩
  · exact ⟨_, _, _, rfl, rnd100 ud _, self100 _, rnd100 ud _⟩
  · exact ⟨_, _, _, rfl, self100 _, rnd100 us _, rnd100 us _⟩
  · exact ⟨_, _, _, rfl, self100 _, self100 _, rnd100 us _⟩
  · exact ⟨_, _, _, rfl, self100 _, self100 _, rnd100 ud _⟩
  · exact ⟨_, _, _, rfl, self100 _, rnd100 ud _, rnd100 ud _⟩
  · exact ⟨_, _, _, rfl, self100 _, self100 _, rnd100 ud _⟩
  · exact ⟨_, _, _, rfl, self100 _, self100 _, rnd100 ud _⟩

private theorem divS_val (a : ℝ) {b : ℝ} (h : b ≠ 0) : value (divS a b : Mx q) = some (q.s.rnd (a / b)) := by
  unfold divS; rw [if_neg h]; rfl
private theorem divD_val (a : ℝ) {b : ℝ} (h : b ≠ 0) : value (divD a b : Mx q) = some (q.d.rnd (a / b)) := by
  unfold divD; rw [if_neg h]; rfl

private theorem div_val {us : q.s.u ≤ 1 / 100} {ud : q.d.u ≤ 1 / 100} {x y : Mx q} {a b : ℝ} (ha : value x = some a)
    (hb : value y = some b) (h0 : b ≠ 0) : ∃ a' b' c, value (divM x y) = some c ∧ |a' - a| ≤ |a| / 100 ∧ |b' - b| ≤ |b| / 100 ∧
      |c - a' / b'| ≤ |a' / b'| / 100 := by
  cases x <;> cases y <;> simp only [value, Option.some.injEq, reduceCtorEq] at ha hb <;> subst ha hb
  · exact ⟨_, _, _, divD_val _ (fun e => h0 (q.d.rnd_eq_zero.1 e)), rnd100 ud _, rnd100 ud _, rnd100 ud _⟩
  · exact ⟨_, _, _, divS_val _ h0, rnd100 us _, self100 _, rnd100 us _⟩
  · exact ⟨_, _, _, divD_val _ h0, rnd100 ud _, self100 _, rnd100 ud _⟩
  · exact ⟨_, _, _, divS_val _ (fun e => h0 (q.s.rnd_eq_zero.1 e)), self100 _, rnd100 us _, rnd100 us _⟩
  · exact ⟨_, _, _, divS_val _ h0, self100 _, self100 _, rnd100 us _⟩
  · exact ⟨_, _, _, divD_val _ h0, self100 _, self100 _, rnd100 ud _⟩
  · exact ⟨_, _, _, divD_val _ (fun e => h0 (q.d.rnd_eq_zero.1 e)), self100 _, rnd100 ud _, rnd100 ud _⟩
  · exact ⟨_, _, _, divD_val _ h0, self100 _, self100 _, rnd100 ud _⟩
  · exact ⟨_, _, _, divD_val _ h0, self100 _, self100 _, rnd100 ud _⟩

private theorem div_bad' {x y : Mx q} (h : value x = none ∨ value y = none ∨ value y = some 0) : value (divM x y) = none := by
  cases x <;> cases y <;> simp_all [value, divM, divS, divD, q.s.rnd_eq_zero.2, q.d.rnd_eq_zero.2]

/-- conversion to `double` -/
private theorem toD_val {ud : q.d.u ≤ 1 / 100} {x : Mx q} {a : ℝ} (h : value x = some a) : ∃ c, toD x = dbl c ∧ |c - a| ≤ |a| / 100 := by
  cases x <;> simp only [value, Option.some.injEq, reduceCtorEq] at h <;> subst h
  · exact ⟨_, rfl, rnd100 ud _⟩
  · exact ⟨_, rfl, self100 _⟩
  · exact ⟨_, rfl, self100 _⟩

private theorem lib_val {dom : ℝ → Prop} [DecidablePred dom] {f : ℝ → ℝ} {x : Mx q} {c : ℝ} (h : value (lib dom f x) = some c) :
    ∃ a, dom a ∧ c = f a := by
  unfold lib at h
  split at h
  · rename_i a _
    by_cases hd : dom a
    · rw [if_pos hd] at h
      exact ⟨a, hd, by simpa [value] using h.symm⟩
    · rw [if_neg hd] at h; simp [value] at h
  · simp [value] at h

private theorem lib_bad {dom : ℝ → Prop} [DecidablePred dom] {f : ℝ → ℝ} {x : Mx q} (h : value x = none) : value (lib dom f x) = none := by
  cases x <;> first | rfl | simp [value] at h

/-- the arithmetic of the Cython code -/
noncomputable def approx {ε : ℝ} (h : Prec q ε) : Approx (Mx q) :=
  have hε := h.le'
  have us : q.s.u ≤ 1 / 100 := h.s.trans (by norm_num at hε ⊢; linarith)
  have ul : ε / 1000 ≤ 1 / 100 := by norm_num at hε ⊢; linarith
  have ud : q.d.u ≤ 1 / 100 := h.d.u.trans ul
  { value := value
    over := bad
    over_v := rfl
    ofInt_v := fun n => ⟨n, rfl, quarter (self100 _)⟩
    lit_v := fun k e => ⟨_, rfl, by
      have h0 : 0 ≤ (k : ℝ) / (10 : ℝ) ^ e := by positivity
      have := quarter (rnd100 ud ((k : ℝ) / (10 : ℝ) ^ e))
      rwa [abs_of_nonneg h0] at this⟩
    pi_v := ⟨_, rfl, by
      have := quarter (rnd100 ud Real.pi)
      rwa [abs_of_pos Real.pi_pos] at this⟩
    add_n := fun x y hn => op_bad _ _ hn
    add_v := fun x y a b ha hb => by
      obtain ⟨a', b', c, h1, h2, h3, h4⟩ := op_val (us := us) (ud := ud) (· + ·) (· + ·) (fun m n => by push_cast; rfl) ha hb
      exact ⟨c, h1, combine_add h2 h3 h4⟩
    sub_n := fun x y hn => op_bad _ _ hn
    sub_v := fun x y a b ha hb => by
      obtain ⟨a', b', c, h1, h2, h3, h4⟩ := op_val (us := us) (ud := ud) (· - ·) (· - ·) (fun m n => by push_cast; rfl) ha hb
      exact ⟨c, h1, combine_sub h2 h3 h4⟩
    mul_n := fun x y hn => op_bad _ _ hn
    mul_v := fun x y a b ha hb => by
      obtain ⟨a', b', c, h1, h2, h3, h4⟩ := op_val (us := us) (ud := ud) (· * ·) (· * ·) (fun m n => by push_cast; rfl) ha hb
      exact ⟨c, h1, combine_mul h2 h3 h4⟩
    div_n := fun x y hn => div_bad' hn
    div_v := fun x y a b ha hb h0 => by
      obtain ⟨a', b', c, h1, h2, h3, h4⟩ := div_val (us := us) (ud := ud) ha hb h0
      exact ⟨c, h1, (combine_div h0 h2 h3 h4).2⟩
    neg_v := fun x => by
      cases x with
      | int n => show some (((-n : ℤ)) : ℝ) = some (-(n : ℝ)); push_cast; rfl
      | sgl a => rfl
      | dbl a => rfl
      | bad => rfl
    sqrt_n := fun x hx => lib_bad hx
    sqrt_neg := fun x a hx h0 => by
      obtain ⟨c, h1, h2⟩ := toD_val (ud := ud) hx
      have hc : ¬ 0 ≤ c := by
        rw [not_le]
        rw [abs_of_neg h0] at h2
        have := (abs_le.1 h2).2
        linarith
      show value (lib (fun a => 0 ≤ a) (fun a => q.d.rnd √a) x) = none
      unfold lib
      rw [h1]
      exact congrArg value (if_neg hc)
    sqrt_v := fun x a hx h0 => by
      obtain ⟨c, h1, h2⟩ := toD_val (ud := ud) hx
      rw [abs_of_nonneg h0] at h2
      have h3 := abs_le.1 h2
      have hc : 0 ≤ c := by linarith
      refine ⟨q.d.rnd √c, ?_, ?_⟩
      · show value (lib (fun a => 0 ≤ a) (fun a => q.d.rnd √a) x) = _
        unfold lib
        rw [h1]
        exact congrArg value (if_pos hc)
      · have h4 := rnd100 ud √c
        have n1 := Real.sqrt_nonneg c
        have n2 := Real.sqrt_nonneg a
        rw [abs_of_nonneg n1] at h4
        have u1 : √c ≤ 1.1 * √a := by
          rw [← Real.sqrt_sq (show (0 : ℝ) ≤ 1.1 by norm_num), ← Real.sqrt_mul (by norm_num)]
          exact Real.sqrt_le_sqrt (by norm_num; linarith)
        have u2 : 0.9 * √a ≤ √c := by
          rw [← Real.sqrt_sq (show (0 : ℝ) ≤ 0.9 by norm_num), ← Real.sqrt_mul (by norm_num)]
          exact Real.sqrt_le_sqrt (by norm_num; linarith)
        have h5 := abs_le.1 h4
        rw [abs_le]
        constructor <;> linarith
    sin_v := fun x c hc => by
      obtain ⟨a, -, rfl⟩ := lib_val hc
      exact (lib_le ul (h.d.sin a) (Real.abs_sin_le_one a)).trans (by norm_num)
    cos_v := fun x c hc => by
      obtain ⟨a, -, rfl⟩ := lib_val hc
      exact (lib_le ul (h.d.cos a) (Real.abs_cos_le_one a)).trans (by norm_num)
    asin_v := fun x c hc => by
      obtain ⟨a, ha, rfl⟩ := lib_val hc
      exact (lib_le ul (h.d.asin a ha) (arcsin_le a)).trans (by norm_num)
    acos_v := fun x c hc => by
      obtain ⟨a, ha, rfl⟩ := lib_val hc
      exact (lib_le ul (h.d.acos a ha) (arccos_le a)).trans (by norm_num)
    toFloating_n := fun x hx => by cases x <;> first | rfl | simp [value] at hx
    toFloating_v := fun x a hx => by
      cases x <;> simp only [value, Option.some.injEq, reduceCtorEq] at hx <;> subst hx
      · exact ⟨_, rfl, quarter (rnd100 us _)⟩
      · exact ⟨_, rfl, quarter (self100 _)⟩
      · exact ⟨_, rfl, quarter (rnd100 us _)⟩
    toDouble_n := fun x hx => by cases x <;> first | rfl | simp [value] at hx
    toDouble_v := fun x a hx => by
      obtain ⟨c, h1, h2⟩ := toD_val (ud := ud) hx
      exact ⟨c, congrArg value h1, quarter h2⟩ }

theorem approx_value {ε : ℝ} (h : Prec q ε) (x : Mx q) : (approx h).value x = value x := rfl

end Mx
end Verif
