import Verif.Base.Mx
import Verif.Model.GeoConv
import Verif.Proofs.FlGeo

/-!
# The Cython back conversion in mixed precision

The conversion computes with doubles and assigns the results to arrays of `float`: it is the conversion with doubles only
(`Fl q.d`), rounded.
-/

namespace Verif.Mx
open Verif Verif.Geo
variable {q : Mixed}

/-- a double -/
def emb : Fl q.d → Mx q
  | .val x => dbl x
  | .bad => bad

/-- a double assigned to a `float` -/
noncomputable def out : Fl q.d → Mx q
  | .val x => sgl (q.s.rnd x)
  | .bad => bad

theorem toFloating_emb (a : Fl q.d) : Trig.toFloating (emb a) = out a := by cases a <;> rfl
theorem emb_add (a b : Fl q.d) : emb a + emb b = emb (a + b) := by cases a <;> cases b <;> rfl
theorem emb_sub (a b : Fl q.d) : emb a - emb b = emb (a - b) := by cases a <;> cases b <;> rfl
theorem emb_mul (a b : Fl q.d) : emb a * emb b = emb (a * b) := by cases a <;> cases b <;> rfl
theorem emb_div (a b : Fl q.d) : emb a / emb b = emb (a / b) := by
  cases a with
  | bad => rfl
  | val a =>
    cases b with
    | bad => rfl
    | val b =>
      show (if b = 0 then bad else dbl _) = emb (if b = 0 then Fl.bad else Fl.val _)
      split <;> rfl
theorem emb_mul_int (a : Fl q.d) (n : Nat) : emb a * int n = emb (a * Arith.ofInt (n : ℤ)) := by cases a <;> rfl
theorem int_mul_emb (a : Fl q.d) (n : Nat) : int n * emb a = emb (Arith.ofInt (n : ℤ) * a) := by cases a <;> rfl
theorem int_sub_emb (a : Fl q.d) (n : Nat) : int n - emb a = emb (Arith.ofInt (n : ℤ) - a) := by cases a <;> rfl
theorem int_div_emb (a : Fl q.d) (n : Nat) : int n / emb a = emb (Arith.ofInt (n : ℤ) / a) := by
  cases a with
  | bad => rfl
  | val b =>
    show (if b = 0 then bad else dbl _) = emb (if b = 0 then Fl.bad else Fl.val _)
    split <;> rfl
theorem sqrt_emb (a : Fl q.d) : Trig.sqrt (emb a) = emb (Trig.sqrt a) := by
  cases a with
  | bad => rfl
  | val a =>
    by_cases h : 0 ≤ a
    · rw [Fl.sqrt_val_of h]; exact sqrt_dbl h
    · rw [show (Trig.sqrt (Fl.val a) : Fl q.d) = Fl.bad from if_neg h]; exact sqrt_dbl_bad h
theorem asin_emb (a : Fl q.d) : Trig.asin (emb a) = emb (Trig.asin a) := by
  cases a with
  | bad => rfl
  | val a =>
    by_cases h : |a| ≤ 1
    · rw [Fl.asin_val_of h]; exact asin_dbl h
    · rw [show (Trig.asin (Fl.val a) : Fl q.d) = Fl.bad from if_neg (fun e => h (abs_le.2 e))]; exact asin_dbl_bad h
theorem acos_emb (a : Fl q.d) : Trig.acos (emb a) = emb (Trig.acos a) := by
  cases a with
  | bad => rfl
  | val a =>
    by_cases h : |a| ≤ 1
    · rw [Fl.acos_val_of h]; exact acos_dbl h
    · rw [show (Trig.acos (Fl.val a) : Fl q.d) = Fl.bad from if_neg (fun e => h (abs_le.2 e))]; exact acos_dbl_bad h
theorem rad2deg_emb (a : Fl q.d) : rad2deg (emb a) = emb (rad2deg a) := by
  unfold rad2deg
  rw [show (Trig.pi : Mx q) = emb Trig.pi from rfl, ofNat_eq, int_div_emb, emb_mul]
  rfl
theorem lt_emb (a b : Fl q.d) : Arith.lt (emb a) (emb b) = Arith.lt a b := by
  cases a <;> cases b <;> first | exact lt_dd _ _ | rfl

/-- the sign is a C `int` -/
theorem csign_mul_emb (y : ℝ) (a : Fl q.d) : csign (dbl y : Mx q) * emb a = emb (csign (Fl.val y) * a) := by
  unfold csign
  rw [zero_eq, one_eq, lt_id, lt_di, Fl.zero_eq, Fl.one_eq, Fl.lt_val, Fl.lt_val]
  by_cases h1 : 0 < y
  · simp only [Int.cast_zero, h1, decide_true, if_true]
    rw [← Fl.one_eq]
    exact int_mul_emb a 1
  · by_cases h2 : y < 0
    · simp only [Int.cast_zero, h1, h2, decide_true, decide_false, if_true, Bool.false_eq_true, if_false]
      cases a with
      | bad => rfl
      | val a =>
        rw [i_neg]
        show int (-1) * dbl a = _
        rw [id_mul, Fl.val_neg, Fl.val_mul]
        show _ = dbl _
        congr 2
        rw [q.d.rnd_rep (by
          have := (rep_one q.d.hp1).neg
          push_cast; exact this)]
        push_cast; ring
    · simp only [Int.cast_zero, h1, h2, decide_false, Bool.false_eq_true, if_false]
      rw [← Fl.zero_eq]
      exact int_mul_emb a 0

theorem emb_mul_csign (y : ℝ) (a : Fl q.d) : emb a * csign (dbl y : Mx q) = emb (a * csign (Fl.val y)) := by
  unfold csign
  rw [zero_eq, one_eq, lt_id, lt_di, Fl.zero_eq, Fl.one_eq, Fl.lt_val, Fl.lt_val]
  by_cases h1 : 0 < y
  · simp only [Int.cast_zero, h1, decide_true, if_true]
    rw [← Fl.one_eq]
    exact emb_mul_int a 1
  · by_cases h2 : y < 0
    · simp only [Int.cast_zero, h1, h2, decide_true, decide_false, if_true, Bool.false_eq_true, if_false]
      cases a with
      | bad => rfl
      | val a =>
        rw [i_neg]
        show dbl a * int (-1) = _
        rw [di_mul, Fl.val_neg, Fl.val_mul]
        show _ = dbl _
        congr 2
        rw [q.d.rnd_rep (by
          have := (rep_one q.d.hp1).neg
          push_cast; exact this)]
        push_cast; ring
    · simp only [Int.cast_zero, h1, h2, decide_false, Bool.false_eq_true, if_false]
      rw [← Fl.zero_eq]
      exact emb_mul_int a 0

/-- the lower threshold `-1.0 * thr` -/
theorem neg_one_mul_thr {t : ℝ} (ht : Rep q.s.p t) :
    (-1 * sgl t : Mx q) = sgl (-t) ∧ (-1 * Fl.val t : Fl q.d) = Fl.val (-t) := by
  constructor
  · rw [one_eq, i_neg, is_mul, q.s.rnd_rep (x := ((-1 : ℤ) : ℝ)) (by
      have := (rep_one q.s.hp1).neg
      push_cast; exact this)]
    push_cast
    rw [neg_one_mul, q.s.rnd_rep ht.neg]
  · rw [Fl.one_eq, Fl.val_neg, Fl.val_mul, neg_one_mul, q.d.rnd_rep (rep_d ht).neg]

/-- **The conversion in mixed precision is the conversion with doubles, with the results rounded to `float`.** -/
theorem cyXyz2lonlat_mx (R : Fl q.d) (low : Bool) {t : ℝ} (ht : Rep q.s.p t) (x y z : ℝ) :
    cyXyz2lonlat (emb R) (sgl t) low (sgl x, sgl y, sgl z)
      = (out (cyXyz2lonlat R (Fl.val t) low (Fl.val x, Fl.val y, Fl.val z)).1,
         out (cyXyz2lonlat R (Fl.val t) low (Fl.val x, Fl.val y, Fl.val z)).2) := by
  obtain ⟨n1, n2⟩ := neg_one_mul_thr ht
  have ex : ∀ x : ℝ, (dbl x : Mx q) = emb (Fl.val x) := fun _ => rfl
  have es : ∀ (x : ℝ) (a : Fl q.d), (sgl x : Mx q) * emb a = emb (Fl.val x * a) := by
    intro x a; cases a <;> rfl
  unfold cyXyz2lonlat
  simp only [n1, n2]
  simp only [toDouble_sgl, Fl.toDouble_eq, Fl.toFloating_eq, es, ofNat_eq]
  simp only [ex, emb_mul, emb_add, sqrt_emb, emb_div, acos_emb, asin_emb, rad2deg_emb, lt_emb, int_sub_emb]
  simp only [← ex, emb_mul_csign, csign_mul_emb]
  rw [toFloating_emb]
  refine Prod.ext rfl ?_
  simp only []
  split_ifs <;> exact toFloating_emb _

end Verif.Mx
