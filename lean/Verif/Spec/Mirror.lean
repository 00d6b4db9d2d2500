import Verif.Base.Arith
import Verif.Base.Arr

/-!
# Arithmetic in which `x` and `-x` are treated alike, and mirrored inputs
-/

namespace Verif.Spec
open Verif

/-- Rounding and library treat `x` and `-x` alike: every operation on negated numbers gives the negated number.  Exact arithmetic and IEEE
arithmetic with rounding to nearest are of this kind if the sine of the library is odd and its cosine even (zeros are not distinguished by
their sign). -/
class SymArith (α : Type) [Trig α] : Prop where
  dneg : ∀ a : α, -(-a) = a
  nzero : -(0 : α) = 0
  /-- NaN -/
  nnan : -(0 / 0 : α) = 0 / 0
  nadd : ∀ a b : α, -a + -b = -(a + b)
  nsub : ∀ a b : α, -a - -b = -(a - b)
  rsub : ∀ a b : α, -(a - b) = b - a
  rmul : ∀ a b : α, a * -b = -(a * b)
  lmul : ∀ a b : α, -a * b = -(a * b)
  ndiv : ∀ a b : α, -a / b = -(a / b)
  nsin : ∀ a : α, Trig.sin (-a) = -Trig.sin a
  ncos : ∀ a : α, Trig.cos (-a) = Trig.cos a
  nfloating : ∀ a : α, Trig.toFloating (-a) = -Trig.toFloating a
  ndouble : ∀ a : α, Trig.toDouble (-a) = -Trig.toDouble a
  nlt : ∀ a b : α, Arith.lt (-a) (-b) = Arith.lt b a
  asymm : ∀ a b : α, Arith.lt a b = true → Arith.lt b a = false
  neq : ∀ a b : α, Arith.eq (-a) (-b) = Arith.eq a b

variable {α : Type} [Trig α]

/-- the array with every element negated -/
def negArr (a : Arr2 α) : Arr2 α := ⟨a.rows, a.cols, fun i j => -a.cell i j⟩

/-- the matrix with every element negated -/
def negMat (m : List (List α)) : List (List α) := m.map (·.map (- ·))

end Verif.Spec
