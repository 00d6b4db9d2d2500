import Verif.Base.Fl

/-!
# Arithmetic of mixed precision

The Cython code of the MODIS interpolation runs on float32 arrays and variables (`floating`), while its constants and the
functions of `libc.math` are doubles.  `Mx q` is this arithmetic: a value is a C integer, a `float`, a `double`, or `bad`
(NaN or infinite).  As in C, an operation is done in the widest type among its operands: integers are converted to the type
of the other operand, two integers stay integers (the quotient of two integers is a double: in the code it only occurs as
`1.0 / n`); `float` and `double` give `double`.  Each operation is rounded to nearest in its type (see
`Verif.Base.Fl`: any choice between two nearest numbers, no overflow or underflow).  Library functions take and return
doubles and are arbitrary.  Comparisons compare the values.
-/

namespace Verif

/-- The formats `float` and `double`. -/
structure Mixed where
  /-- `float`; its library functions are not used -/
  s : Rounding
  /-- `double` -/
  d : Rounding
  le : s.p ≤ d.p

/-- a number of `p` bits has `q ≥ p` bits -/
theorem Rep.mono {p q : Nat} (h : p ≤ q) {x : ℝ} (hx : Rep p x) : Rep q x := by
  obtain ⟨m, e, hm, rfl⟩ := hx
  exact ⟨m, e, lt_of_lt_of_le hm (pow_le_pow_right₀ (by norm_num) h), rfl⟩

/-- A value of a C variable or expression. -/
inductive Mx (q : Mixed) where
  | int (n : ℤ)
  | sgl (x : ℝ)
  | dbl (x : ℝ)
  | bad

namespace Mx
variable {q : Mixed}

/-- conversion to `double` -/
noncomputable def toD : Mx q → Mx q
  | int n => dbl (q.d.rnd (n : ℝ))
  | sgl x => dbl x
  | dbl x => dbl x
  | bad => bad

/-- conversion to `float` -/
noncomputable def toS : Mx q → Mx q
  | int n => sgl (q.s.rnd (n : ℝ))
  | sgl x => sgl x
  | dbl x => sgl (q.s.rnd x)
  | bad => bad

/-- a binary operation in the widest type of its operands -/
noncomputable def op (fi : ℤ → ℤ → ℤ) (f : ℝ → ℝ → ℝ) : Mx q → Mx q → Mx q
  | int m, int n => int (fi m n)
  | int m, sgl b => sgl (q.s.rnd (f (q.s.rnd (m : ℝ)) b))
  | sgl a, int n => sgl (q.s.rnd (f a (q.s.rnd (n : ℝ))))
  | sgl a, sgl b => sgl (q.s.rnd (f a b))
  | int m, dbl b => dbl (q.d.rnd (f (q.d.rnd (m : ℝ)) b))
  | dbl a, int n => dbl (q.d.rnd (f a (q.d.rnd (n : ℝ))))
  | sgl a, dbl b => dbl (q.d.rnd (f a b))
  | dbl a, sgl b => dbl (q.d.rnd (f a b))
  | dbl a, dbl b => dbl (q.d.rnd (f a b))
  | bad, _ => bad
  | _, bad => bad

noncomputable def divS (a b : ℝ) : Mx q := if b = 0 then bad else sgl (q.s.rnd (a / b))
noncomputable def divD (a b : ℝ) : Mx q := if b = 0 then bad else dbl (q.d.rnd (a / b))

/-- division -/
noncomputable def divM : Mx q → Mx q → Mx q
  | int m, int n => divD (q.d.rnd (m : ℝ)) (q.d.rnd (n : ℝ))
  | int m, sgl b => divS (q.s.rnd (m : ℝ)) b
  | sgl a, int n => divS a (q.s.rnd (n : ℝ))
  | sgl a, sgl b => divS a b
  | int m, dbl b => divD (q.d.rnd (m : ℝ)) b
  | dbl a, int n => divD a (q.d.rnd (n : ℝ))
  | sgl a, dbl b => divD a b
  | dbl a, sgl b => divD a b
  | dbl a, dbl b => divD a b
  | bad, _ => bad
  | _, bad => bad

noncomputable def negM : Mx q → Mx q
  | int n => int (-n)
  | sgl x => sgl (-x)
  | dbl x => dbl (-x)
  | bad => bad

/-- the value -/
noncomputable def value : Mx q → Option ℝ
  | int n => some n
  | sgl x => some x
  | dbl x => some x
  | bad => none

noncomputable def cmp (f : ℝ → ℝ → Bool) (x y : Mx q) : Bool :=
  match value x, value y with
  | some a, some b => f a b
  | _, _ => false

/-- a function of the library: the argument is converted to `double` -/
noncomputable def lib (dom : ℝ → Prop) [DecidablePred dom] (f : ℝ → ℝ) (x : Mx q) : Mx q :=
  match toD x with
  | dbl a => if dom a then dbl (f a) else bad
  | _ => bad

open Classical in
noncomputable instance instArith : Arith (Mx q) where
  ofInt n := int n
  lit m e := dbl (q.d.rnd ((m : ℝ) / (10 : ℝ) ^ e))
  add := op (· + ·) (· + ·)
  sub := op (· - ·) (· - ·)
  mul := op (· * ·) (· * ·)
  div := divM
  neg := negM
  lt := cmp (fun a b => decide (a < b))
  le := cmp (fun a b => decide (a ≤ b))
  eq := cmp (fun a b => decide (a = b))

open Classical in
noncomputable instance instTrig : Trig (Mx q) where
  toArith := instArith
  pi := dbl (q.d.rnd Real.pi)
  sqrt := lib (fun a => 0 ≤ a) (fun a => q.d.rnd √a)
  sin := lib (fun _ => True) q.d.sin
  cos := lib (fun _ => True) q.d.cos
  asin := lib (fun a => |a| ≤ 1) q.d.asin
  acos := lib (fun a => |a| ≤ 1) q.d.acos
  toFloating := toS
  toDouble := toD

/-- `x` is a `float` that is a number (not NaN or infinite) -/
def IsF (x : Mx q) : Prop := ∃ a, Rep q.s.p a ∧ x = sgl a
/-- `x` is a `double` that is a number -/
def IsD (x : Mx q) : Prop := ∃ a, Rep q.d.p a ∧ x = dbl a

theorem not_isF_bad : ¬ IsF (bad : Mx q) := by rintro ⟨a, _, h⟩; cases h

/-! ### rules -/

theorem ofInt_eq (n : ℤ) : (Arith.ofInt n : Mx q) = int n := rfl
theorem ofNat_eq (n : Nat) : (OfNat.ofNat n : Mx q) = int n := rfl
theorem zero_eq : (0 : Mx q) = int 0 := rfl
theorem one_eq : (1 : Mx q) = int 1 := rfl
theorem two_eq : (2 : Mx q) = int 2 := rfl
theorem four_eq : (4 : Mx q) = int 4 := rfl
theorem lit_eq (m e : Nat) : (Arith.lit m e : Mx q) = dbl (q.d.rnd ((m : ℝ) / (10 : ℝ) ^ e)) := rfl
theorem pi_eq : (Trig.pi : Mx q) = dbl (q.d.rnd Real.pi) := rfl
@[simp] theorem toFloating_sgl (x : ℝ) : (Trig.toFloating (sgl x) : Mx q) = sgl x := rfl
@[simp] theorem toFloating_dbl (x : ℝ) : (Trig.toFloating (dbl x) : Mx q) = sgl (q.s.rnd x) := rfl
@[simp] theorem toFloating_int (n : ℤ) : (Trig.toFloating (int n) : Mx q) = sgl (q.s.rnd (n : ℝ)) := rfl
@[simp] theorem toFloating_bad : (Trig.toFloating (bad : Mx q)) = bad := rfl
@[simp] theorem toDouble_sgl (x : ℝ) : (Trig.toDouble (sgl x) : Mx q) = dbl x := rfl
@[simp] theorem toDouble_dbl (x : ℝ) : (Trig.toDouble (dbl x) : Mx q) = dbl x := rfl
@[simp] theorem toDouble_bad : (Trig.toDouble (bad : Mx q)) = bad := rfl
@[simp] theorem ss_add (a b : ℝ) : (sgl a + sgl b : Mx q) = sgl (q.s.rnd (a + b)) := rfl
@[simp] theorem ss_sub (a b : ℝ) : (sgl a - sgl b : Mx q) = sgl (q.s.rnd (a - b)) := rfl
@[simp] theorem ss_mul (a b : ℝ) : (sgl a * sgl b : Mx q) = sgl (q.s.rnd (a * b)) := rfl
@[simp] theorem is_sub (n : ℤ) (b : ℝ) : (int n - sgl b : Mx q) = sgl (q.s.rnd (q.s.rnd (n : ℝ) - b)) := rfl
@[simp] theorem is_mul (n : ℤ) (b : ℝ) : (int n * sgl b : Mx q) = sgl (q.s.rnd (q.s.rnd (n : ℝ) * b)) := rfl
@[simp] theorem si_mul (a : ℝ) (n : ℤ) : (sgl a * int n : Mx q) = sgl (q.s.rnd (a * q.s.rnd (n : ℝ))) := rfl
@[simp] theorem dd_add (a b : ℝ) : (dbl a + dbl b : Mx q) = dbl (q.d.rnd (a + b)) := rfl
@[simp] theorem dd_sub (a b : ℝ) : (dbl a - dbl b : Mx q) = dbl (q.d.rnd (a - b)) := rfl
@[simp] theorem dd_mul (a b : ℝ) : (dbl a * dbl b : Mx q) = dbl (q.d.rnd (a * b)) := rfl
@[simp] theorem ds_sub (a b : ℝ) : (dbl a - sgl b : Mx q) = dbl (q.d.rnd (a - b)) := rfl
@[simp] theorem ds_mul (a b : ℝ) : (dbl a * sgl b : Mx q) = dbl (q.d.rnd (a * b)) := rfl
@[simp] theorem sd_mul (a b : ℝ) : (sgl a * dbl b : Mx q) = dbl (q.d.rnd (a * b)) := rfl
@[simp] theorem id_sub (n : ℤ) (b : ℝ) : (int n - dbl b : Mx q) = dbl (q.d.rnd (q.d.rnd (n : ℝ) - b)) := rfl
@[simp] theorem id_mul (n : ℤ) (b : ℝ) : (int n * dbl b : Mx q) = dbl (q.d.rnd (q.d.rnd (n : ℝ) * b)) := rfl
@[simp] theorem di_mul (a : ℝ) (n : ℤ) : (dbl a * int n : Mx q) = dbl (q.d.rnd (a * q.d.rnd (n : ℝ))) := rfl
@[simp] theorem i_neg (n : ℤ) : (-(int n) : Mx q) = int (-n) := rfl
@[simp] theorem mul_bad (x : Mx q) : x * bad = bad := by cases x <;> rfl
@[simp] theorem bad_mul (x : Mx q) : bad * x = bad := rfl
@[simp] theorem sub_bad (x : Mx q) : x - bad = bad := by cases x <;> rfl
@[simp] theorem div_bad (x : Mx q) : x / bad = bad := by cases x <;> rfl
@[simp] theorem bad_div (x : Mx q) : bad / x = bad := rfl
theorem ss_div (a : ℝ) {b : ℝ} (h : b ≠ 0) : (sgl a / sgl b : Mx q) = sgl (q.s.rnd (a / b)) := if_neg h
theorem ss_div_zero (a : ℝ) : (sgl a / sgl 0 : Mx q) = bad := if_pos rfl
theorem ds_div (a : ℝ) {b : ℝ} (h : b ≠ 0) : (dbl a / sgl b : Mx q) = dbl (q.d.rnd (a / b)) := if_neg h
theorem ds_div_zero (a : ℝ) : (dbl a / sgl 0 : Mx q) = bad := if_pos rfl
theorem dd_div (a b : ℝ) : (dbl a / dbl b : Mx q) = if b = 0 then bad else dbl (q.d.rnd (a / b)) := rfl
theorem dd_div_of (a : ℝ) {b : ℝ} (h : b ≠ 0) : (dbl a / dbl b : Mx q) = dbl (q.d.rnd (a / b)) := if_neg h
theorem id_div (n : ℤ) {b : ℝ} (h : b ≠ 0) : (int n / dbl b : Mx q) = dbl (q.d.rnd (q.d.rnd (n : ℝ) / b)) := if_neg h
theorem di_div (a : ℝ) (n : ℤ) (h : n ≠ 0) : (dbl a / int n : Mx q) = dbl (q.d.rnd (a / q.d.rnd (n : ℝ))) :=
  if_neg fun e => h (by exact_mod_cast q.d.rnd_eq_zero.1 e)
theorem si_div (a : ℝ) (n : ℤ) (h : n ≠ 0) : (sgl a / int n : Mx q) = sgl (q.s.rnd (a / q.s.rnd (n : ℝ))) :=
  if_neg fun e => h (by exact_mod_cast q.s.rnd_eq_zero.1 e)
@[simp] theorem eq_ss (a b : ℝ) : Arith.eq (sgl a : Mx q) (sgl b) = decide (a = b) := by
  show decide _ = decide _
  congr
@[simp] theorem lt_dd (a b : ℝ) : Arith.lt (dbl a : Mx q) (dbl b) = decide (a < b) := by
  show decide _ = decide _
  congr
@[simp] theorem lt_id (n : ℤ) (b : ℝ) : Arith.lt (int n : Mx q) (dbl b) = decide ((n : ℝ) < b) := by
  show decide _ = decide _
  congr
@[simp] theorem lt_di (a : ℝ) (n : ℤ) : Arith.lt (dbl a : Mx q) (int n) = decide (a < (n : ℝ)) := by
  show decide _ = decide _
  congr
@[simp] theorem sin_dbl (a : ℝ) : (Trig.sin (dbl a) : Mx q) = dbl (q.d.sin a) := if_pos (e := (bad : Mx q)) trivial
@[simp] theorem sin_sgl (a : ℝ) : (Trig.sin (sgl a) : Mx q) = dbl (q.d.sin a) := if_pos (e := (bad : Mx q)) trivial
@[simp] theorem cos_dbl (a : ℝ) : (Trig.cos (dbl a) : Mx q) = dbl (q.d.cos a) := if_pos (e := (bad : Mx q)) trivial
@[simp] theorem cos_sgl (a : ℝ) : (Trig.cos (sgl a) : Mx q) = dbl (q.d.cos a) := if_pos (e := (bad : Mx q)) trivial
theorem asin_dbl {a : ℝ} (h : |a| ≤ 1) : (Trig.asin (dbl a) : Mx q) = dbl (q.d.asin a) := if_pos h
theorem asin_dbl_bad {a : ℝ} (h : ¬ |a| ≤ 1) : (Trig.asin (dbl a) : Mx q) = bad := if_neg h
theorem acos_dbl {a : ℝ} (h : |a| ≤ 1) : (Trig.acos (dbl a) : Mx q) = dbl (q.d.acos a) := if_pos h
theorem acos_dbl_bad {a : ℝ} (h : ¬ |a| ≤ 1) : (Trig.acos (dbl a) : Mx q) = bad := if_neg h
theorem sqrt_dbl {a : ℝ} (h : 0 ≤ a) : (Trig.sqrt (dbl a) : Mx q) = dbl (q.d.rnd √a) := if_pos h
theorem sqrt_dbl_bad {a : ℝ} (h : ¬ 0 ≤ a) : (Trig.sqrt (dbl a) : Mx q) = bad := if_neg h

/-- a rounded `float` is a `double` -/
theorem rep_d {x : ℝ} (h : Rep q.s.p x) : Rep q.d.p x := h.mono q.le

/-- converting a rounded double to `float` gives 0 only for 0 -/
theorem rnd_rnd_eq_zero {x : ℝ} : q.s.rnd (q.d.rnd x) = 0 ↔ x = 0 := by
  rw [q.s.rnd_eq_zero, q.d.rnd_eq_zero]

end Mx

/-- `float32` and `float64` with correctly rounded functions (to show that there are such formats) -/
noncomputable def Mixed.ieee : Mixed := ⟨Rounding.correct 24 (by norm_num), Rounding.correct 53 (by norm_num), by
  show 24 ≤ 53; norm_num⟩

end Verif
