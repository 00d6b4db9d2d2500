import Verif.Base.Arith
import Mathlib.Analysis.SpecialFunctions.Trigonometric.Inverse

/-!
# `FP ℝ` as a `Trig` arithmetic: exact real functions, `bad` outside their domain
-/

namespace Verif
namespace FP
open Real

noncomputable def sqrtFP : FP ℝ → FP ℝ
  | val a => if 0 ≤ a then val (Real.sqrt a) else bad
  | bad => bad

noncomputable def asinFP : FP ℝ → FP ℝ
  | val a => if -1 ≤ a ∧ a ≤ 1 then val (Real.arcsin a) else bad
  | bad => bad

noncomputable def acosFP : FP ℝ → FP ℝ
  | val a => if -1 ≤ a ∧ a ≤ 1 then val (Real.arccos a) else bad
  | bad => bad

noncomputable def map1 (f : ℝ → ℝ) : FP ℝ → FP ℝ
  | val a => val (f a)
  | bad => bad

noncomputable instance instTrig : Trig (FP ℝ) where
  toArith := FP.instArith
  pi := val Real.pi
  sqrt := sqrtFP
  sin := map1 Real.sin
  cos := map1 Real.cos
  asin := asinFP
  acos := acosFP
  toFloating x := x
  toDouble x := x

@[simp] theorem toFloating_eq (x : FP ℝ) : Trig.toFloating x = x := rfl
@[simp] theorem toDouble_eq (x : FP ℝ) : Trig.toDouble x = x := rfl
@[simp] theorem pi_eq : (Trig.pi : FP ℝ) = val Real.pi := rfl
@[simp] theorem sin_val (a : ℝ) : (Trig.sin (val a) : FP ℝ) = val (Real.sin a) := rfl
@[simp] theorem cos_val (a : ℝ) : (Trig.cos (val a) : FP ℝ) = val (Real.cos a) := rfl
@[simp] theorem sin_bad : (Trig.sin bad : FP ℝ) = bad := rfl
@[simp] theorem cos_bad : (Trig.cos bad : FP ℝ) = bad := rfl
@[simp] theorem sqrt_bad : (Trig.sqrt bad : FP ℝ) = bad := rfl
@[simp] theorem asin_bad : (Trig.asin bad : FP ℝ) = bad := rfl
@[simp] theorem acos_bad : (Trig.acos bad : FP ℝ) = bad := rfl
theorem sqrt_val (a : ℝ) : (Trig.sqrt (val a) : FP ℝ) = if 0 ≤ a then val (Real.sqrt a) else bad := rfl
theorem asin_val (a : ℝ) :
    (Trig.asin (val a) : FP ℝ) = if -1 ≤ a ∧ a ≤ 1 then val (Real.arcsin a) else bad := rfl
theorem acos_val (a : ℝ) :
    (Trig.acos (val a) : FP ℝ) = if -1 ≤ a ∧ a ≤ 1 then val (Real.arccos a) else bad := rfl
theorem sqrt_val_of {a : ℝ} (h : 0 ≤ a) : (Trig.sqrt (val a) : FP ℝ) = val (Real.sqrt a) := by
  rw [sqrt_val, if_pos h]
theorem asin_val_of {a : ℝ} (h : -1 ≤ a) (h' : a ≤ 1) :
    (Trig.asin (val a) : FP ℝ) = val (Real.arcsin a) := by rw [asin_val, if_pos ⟨h, h'⟩]
theorem acos_val_of {a : ℝ} (h : -1 ≤ a) (h' : a ≤ 1) :
    (Trig.acos (val a) : FP ℝ) = val (Real.arccos a) := by rw [acos_val, if_pos ⟨h, h'⟩]

end FP
end Verif
