import Mathlib.Algebra.Order.Field.Basic
import Mathlib.Tactic.NormNum
import Mathlib.Tactic.Ring
import Mathlib.Tactic.Linarith
import Mathlib.Tactic.FieldSimp
import Mathlib.Tactic.Positivity

/-!
# The arithmetic the code runs on

`Arith α` is a *law-free* interface: it only names the operations used by the modelled code.
The models are polymorphic in it.  Instances:

* `FP K`  – exact arithmetic over an ordered field, with one non-number `bad` (see below);
* `Float` – IEEE doubles, to execute the model.
-/

namespace Verif

/-- Operations on numbers used by the code (numpy / C arithmetic), without any law. -/
class Arith (α : Type) where
  /-- conversion of an integer (Python int, C integer) -/
  ofInt : Int → α
  /-- the decimal literal `m * 10^-e` -/
  lit : Nat → Nat → α
  add : α → α → α
  sub : α → α → α
  mul : α → α → α
  div : α → α → α
  neg : α → α
  /-- `<`, `<=`, `==` as evaluated by the program (false on NaN) -/
  lt : α → α → Bool
  le : α → α → Bool
  eq : α → α → Bool

/-- Transcendental functions of numpy / libc `math.h` used by the code. -/
class Trig (α : Type) extends Arith α where
  pi : α
  sqrt : α → α
  sin : α → α
  cos : α → α
  asin : α → α
  acos : α → α
  /-- assignment of a C `double` to a variable or array of the type `floating` of the Cython code (`float32` or `float64`) -/
  toFloating : α → α
  /-- conversion to `double` -/
  toDouble : α → α

section notation_instances
variable {α : Type} [Arith α]
instance (priority := 10) instAddOfArith : Add α := ⟨Arith.add⟩
instance (priority := 10) instSubOfArith : Sub α := ⟨Arith.sub⟩
instance (priority := 10) instMulOfArith : Mul α := ⟨Arith.mul⟩
instance (priority := 10) instDivOfArith : Div α := ⟨Arith.div⟩
instance (priority := 10) instNegOfArith : Neg α := ⟨Arith.neg⟩
instance (priority := 10) instOfNatOfArith (n : Nat) : OfNat α n := ⟨Arith.ofInt n⟩
end notation_instances

/-- `abs(x)` -/
def aabs {α : Type} [Arith α] (x : α) : α := if Arith.lt x 0 then -x else x

/-- `np.sign(x)`: 1, -1, 0, and NaN for NaN (returned as `x` itself). -/
def asign {α : Type} [Arith α] (x : α) : α :=
  if Arith.lt 0 x then 1 else if Arith.lt x 0 then -1 else if Arith.eq x 0 then 0 else x

/-! ## Exact arithmetic with a non-number -/

/-- A number of `K`, or `bad`: the result of an operation that has no value (NaN; infinities are
merged with it). -/
inductive FP (K : Type) where
  | val (x : K)
  | bad
deriving DecidableEq, Repr, Inhabited

namespace FP
variable {K : Type}

def map2 (f : K → K → K) : FP K → FP K → FP K
  | val a, val b => val (f a b)
  | _, _ => bad

def cmp (f : K → K → Bool) : FP K → FP K → Bool
  | val a, val b => f a b
  | _, _ => false

/-- `x` is a number (not NaN / infinite). -/
def IsNum (x : FP K) : Prop := ∃ a : K, x = val a

@[simp] theorem isNum_val (a : K) : IsNum (val a) := ⟨a, rfl⟩
@[simp] theorem not_isNum_bad : ¬ IsNum (bad : FP K) := by rintro ⟨a, h⟩; cases h

variable [Field K] [LinearOrder K]

def divFP : FP K → FP K → FP K
  | val a, val b => if b = 0 then bad else val (a / b)
  | _, _ => bad

def negFP : FP K → FP K
  | val a => val (-a)
  | bad => bad

instance instArith : Arith (FP K) where
  ofInt n := val (n : K)
  lit m e := val ((m : K) / (10 : K) ^ e)
  add := map2 (· + ·)
  sub := map2 (· - ·)
  mul := map2 (· * ·)
  div := divFP
  neg := negFP
  lt := cmp (fun a b => decide (a < b))
  le := cmp (fun a b => decide (a ≤ b))
  eq := cmp (fun a b => decide (a = b))

@[simp] theorem val_add (a b : K) : (val a + val b : FP K) = val (a + b) := rfl
@[simp] theorem val_sub (a b : K) : (val a - val b : FP K) = val (a - b) := rfl
@[simp] theorem val_mul (a b : K) : (val a * val b : FP K) = val (a * b) := rfl
@[simp] theorem val_neg (a : K) : (-(val a) : FP K) = val (-a) := rfl
theorem val_div (a b : K) : (val a / val b : FP K) = if b = 0 then bad else val (a / b) := rfl
@[simp] theorem val_div_of_ne (a : K) {b : K} (h : b ≠ 0) : (val a / val b : FP K) = val (a / b) := by
  rw [val_div, if_neg h]
@[simp] theorem val_div_zero (a : K) : (val a / val 0 : FP K) = bad := by
  rw [val_div, if_pos rfl]
@[simp] theorem bad_add (a : FP K) : (bad + a : FP K) = bad := rfl
@[simp] theorem add_bad (a : FP K) : (a + bad : FP K) = bad := by cases a <;> rfl
@[simp] theorem bad_sub (a : FP K) : (bad - a : FP K) = bad := rfl
@[simp] theorem sub_bad (a : FP K) : (a - bad : FP K) = bad := by cases a <;> rfl
@[simp] theorem bad_mul (a : FP K) : (bad * a : FP K) = bad := rfl
@[simp] theorem mul_bad (a : FP K) : (a * bad : FP K) = bad := by cases a <;> rfl
@[simp] theorem bad_div (a : FP K) : (bad / a : FP K) = bad := rfl
@[simp] theorem div_bad (a : FP K) : (a / bad : FP K) = bad := by cases a <;> rfl
@[simp] theorem neg_bad : (-bad : FP K) = bad := rfl
@[simp] theorem ofInt_eq (n : Int) : (Arith.ofInt n : FP K) = val (n : K) := rfl
@[simp] theorem lit_eq (m e : Nat) : (Arith.lit m e : FP K) = val ((m : K) / (10 : K) ^ e) := rfl
@[simp] theorem lt_val (a b : K) : Arith.lt (val a : FP K) (val b) = decide (a < b) := rfl
@[simp] theorem le_val (a b : K) : Arith.le (val a : FP K) (val b) = decide (a ≤ b) := rfl
@[simp] theorem eq_val (a b : K) : Arith.eq (val a : FP K) (val b) = decide (a = b) := rfl
@[simp] theorem lt_bad_left (a : FP K) : Arith.lt (bad : FP K) a = false := rfl
@[simp] theorem lt_bad_right (a : FP K) : Arith.lt a (bad : FP K) = false := by cases a <;> rfl
@[simp] theorem le_bad_left (a : FP K) : Arith.le (bad : FP K) a = false := rfl
@[simp] theorem le_bad_right (a : FP K) : Arith.le a (bad : FP K) = false := by cases a <;> rfl
@[simp] theorem eq_bad_left (a : FP K) : Arith.eq (bad : FP K) a = false := rfl
@[simp] theorem eq_bad_right (a : FP K) : Arith.eq a (bad : FP K) = false := by cases a <;> rfl

@[simp] theorem zero_eq : (0 : FP K) = val 0 := by
  show val (((0 : Nat) : Int) : K) = val 0
  simp
@[simp] theorem one_eq : (1 : FP K) = val 1 := by
  show val (((1 : Nat) : Int) : K) = val 1
  simp
@[simp] theorem ofNat_eq (n : Nat) [n.AtLeastTwo] :
    (OfNat.ofNat n : FP K) = val (OfNat.ofNat n : K) := by
  show val (((n : Nat) : Int) : K) = _
  simp [OfNat.ofNat]

@[simp] theorem aabs_val [IsStrictOrderedRing K] (a : K) : aabs (val a : FP K) = val |a| := by
  unfold aabs
  by_cases h : a < 0
  · simp [h, abs_of_neg h]
  · simp [h, abs_of_nonneg (not_lt.mp h)]

theorem asign_val (a : K) :
    asign (val a : FP K) = val (if 0 < a then 1 else if a < 0 then -1 else 0) := by
  unfold asign
  rcases lt_trichotomy a 0 with h | h | h
  · simp [h, not_lt_of_gt h]
  · simp [h]
  · simp [h]

end FP

instance : Arith Float where
  ofInt n := Float.ofInt n
  lit m e := Float.ofScientific m true e
  add := Float.add
  sub := Float.sub
  mul := Float.mul
  div := Float.div
  neg := Float.neg
  lt a b := decide (a < b)
  le a b := decide (a ≤ b)
  eq a b := a == b

instance : Trig Float where
  pi := 3.14159265358979323846
  sqrt := Float.sqrt
  sin := Float.sin
  cos := Float.cos
  asin := Float.asin
  acos := Float.acos
  toFloating x := x
  toDouble x := x

end Verif
