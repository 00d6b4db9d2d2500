import Verif.Spec.Mirror
import Verif.Model.GeoConv
import Verif.Base.Mx
import Verif.Base.RealTrig
import Verif.Proofs.FlOdd

/-!
# Which arithmetics treat `x` and `-x` alike; the conversions
-/

namespace Verif.Mirror
open Verif Verif.Spec Verif.Geo

section exact
open FP

/-- exact arithmetic -/
instance : SymArith (FP ℝ) where
  dneg a := by
    cases a
    · show val _ = val _
      rw [neg_neg]
    · rfl
  nzero := by show val (-((0 : ℤ) : ℝ)) = val ((0 : ℤ) : ℝ); simp
  nnan := by
    have : (0 / 0 : FP ℝ) = bad := by
      show FP.divFP (val ((0 : ℤ) : ℝ)) (val ((0 : ℤ) : ℝ)) = bad
      simp [FP.divFP]
    rw [this]; rfl
  nadd a b := by
    cases a <;> cases b <;> try rfl
    show val _ = val _
    congr 1; ring
  nsub a b := by
    cases a <;> cases b <;> try rfl
    show val _ = val _
    congr 1; ring
  rsub a b := by
    cases a <;> cases b <;> try rfl
    show val _ = val _
    congr 1; ring
  rmul a b := by
    cases a <;> cases b <;> try rfl
    show val _ = val _
    congr 1; ring
  lmul a b := by
    cases a <;> cases b <;> try rfl
    show val _ = val _
    congr 1; ring
  ndiv a b := by
    cases a <;> cases b <;> try rfl
    rename_i a b
    rw [val_neg, val_div, val_div]
    split
    · rfl
    · rw [val_neg, neg_div]
  nsin a := by
    cases a
    · show val _ = val _
      rw [Real.sin_neg]
    · rfl
  ncos a := by
    cases a
    · show val _ = val _
      rw [Real.cos_neg]
    · rfl
  nfloating _ := rfl
  ndouble _ := rfl
  nlt a b := by
    cases a <;> cases b <;> try rfl
    exact decide_eq_decide.2 neg_lt_neg_iff
  asymm a b := by
    cases a <;> cases b <;> try (intro h; cases h)
    show decide _ = true → decide _ = false
    simp only [decide_eq_true_eq, decide_eq_false_iff_not, not_lt]
    exact le_of_lt
  neq a b := by
    cases a <;> cases b <;> try rfl
    exact decide_eq_decide.2 neg_inj

end exact

section rounded
open Fl Err

/-- floating point arithmetic with a symmetric rounding and library -/
theorem symArith_fl {r : Rounding} (h : Sym r) : SymArith (Fl r) where
  dneg a := by
    cases a
    · show val (-(-_)) = val _
      rw [neg_neg]
    · rfl
  nzero := by rw [Fl.zero_eq, Fl.val_neg, neg_zero]
  nnan := by
    have : (0 / 0 : Fl r) = bad := by rw [Fl.zero_eq, Fl.val_div, if_pos rfl]
    rw [this]; rfl
  nadd a b := by
    cases a <;> cases b <;> try rfl
    show val _ = val (-_)
    rw [← h.rnd]; congr 2; ring
  nsub a b := by
    cases a <;> cases b <;> try rfl
    show val _ = val (-_)
    rw [← h.rnd]; congr 2; ring
  rsub a b := by
    cases a <;> cases b <;> try rfl
    show val (-_) = val _
    rw [← h.rnd]; congr 2; ring
  rmul a b := by
    cases a <;> cases b <;> try rfl
    show val _ = val (-_)
    rw [← h.rnd]; congr 2; ring
  lmul a b := by
    cases a <;> cases b <;> try rfl
    show val _ = val (-_)
    rw [← h.rnd]; congr 2; ring
  ndiv a b := by
    cases a <;> cases b <;> try rfl
    rename_i a b
    rw [val_neg, val_div, val_div]
    split
    · rfl
    · rw [val_neg, neg_div, h.rnd]
  nsin a := by
    cases a
    · show val _ = val (-_)
      rw [h.sin]
    · rfl
  ncos a := by
    cases a
    · show val _ = val _
      rw [h.cos]
    · rfl
  nfloating _ := rfl
  ndouble _ := rfl
  nlt a b := by
    cases a <;> cases b <;> try rfl
    exact decide_eq_decide.2 neg_lt_neg_iff
  asymm a b := by
    cases a <;> cases b <;> try (intro h; cases h)
    show decide _ = true → decide _ = false
    simp only [decide_eq_true_eq, decide_eq_false_iff_not, not_lt]
    exact le_of_lt
  neq a b := by
    cases a <;> cases b <;> try rfl
    exact decide_eq_decide.2 neg_inj

end rounded

section mixed
open Mx Err

variable {q : Mixed}

theorem op_neg (hs : ∀ x, q.s.rnd (-x) = -q.s.rnd x) (hd : ∀ x, q.d.rnd (-x) = -q.d.rnd x) (fi : ℤ → ℤ → ℤ) (f : ℝ → ℝ → ℝ)
    (hi : ∀ m n, fi (-m) (-n) = -fi m n) (hf : ∀ a b, f (-a) (-b) = -f a b) (a b : Mx q) :
    Mx.op fi f (-a) (-b) = -Mx.op fi f a b := by
  cases a <;> cases b <;> try rfl
  · show int _ = int (-_); rw [hi]
  · show sgl _ = sgl (-_); rw [← hs, ← hf, Int.cast_neg, hs]
  · show dbl _ = dbl (-_); rw [← hd, ← hf, Int.cast_neg, hd]
  · show sgl _ = sgl (-_); rw [← hs, ← hf, Int.cast_neg, hs]
  · show sgl _ = sgl (-_); rw [← hs, ← hf]
  · show dbl _ = dbl (-_); rw [← hd, ← hf]
  · show dbl _ = dbl (-_); rw [← hd, ← hf, Int.cast_neg, hd]
  · show dbl _ = dbl (-_); rw [← hd, ← hf]
  · show dbl _ = dbl (-_); rw [← hd, ← hf]

theorem op_neg_right (hs : ∀ x, q.s.rnd (-x) = -q.s.rnd x) (hd : ∀ x, q.d.rnd (-x) = -q.d.rnd x) (fi : ℤ → ℤ → ℤ) (f : ℝ → ℝ → ℝ)
    (hi : ∀ m n, fi m (-n) = -fi m n) (hf : ∀ a b, f a (-b) = -f a b) (a b : Mx q) :
    Mx.op fi f a (-b) = -Mx.op fi f a b := by
  cases a <;> cases b <;> try rfl
  · show int _ = int (-_); rw [hi]
  · show sgl _ = sgl (-_); rw [← hs, ← hf]
  · show dbl _ = dbl (-_); rw [← hd, ← hf]
  · show sgl _ = sgl (-_); rw [← hs, ← hf, Int.cast_neg, hs]
  · show sgl _ = sgl (-_); rw [← hs, ← hf]
  · show dbl _ = dbl (-_); rw [← hd, ← hf]
  · show dbl _ = dbl (-_); rw [← hd, ← hf, Int.cast_neg, hd]
  · show dbl _ = dbl (-_); rw [← hd, ← hf]
  · show dbl _ = dbl (-_); rw [← hd, ← hf]

theorem op_swap (fi gi : ℤ → ℤ → ℤ) (f g : ℝ → ℝ → ℝ) (hi : ∀ m n, fi m n = gi n m) (hf : ∀ a b, f a b = g b a) (a b : Mx q) :
    Mx.op fi f a b = Mx.op gi g b a := by
  cases a <;> cases b <;> try rfl
  all_goals simp only [Mx.op, hi, hf]

theorem divS_neg (hs : ∀ x, q.s.rnd (-x) = -q.s.rnd x) (a b : ℝ) : (Mx.divS (-a) b : Mx q) = -Mx.divS a b := by
  unfold Mx.divS
  split
  · rfl
  · rw [neg_div, hs]; rfl

theorem divD_neg (hd : ∀ x, q.d.rnd (-x) = -q.d.rnd x) (a b : ℝ) : (Mx.divD (-a) b : Mx q) = -Mx.divD a b := by
  unfold Mx.divD
  split
  · rfl
  · rw [neg_div, hd]; rfl

theorem value_neg (a : Mx q) : Mx.value (-a) = (Mx.value a).map (- ·) := by
  cases a <;> try rfl
  show some _ = some _
  rw [Int.cast_neg]

theorem cmp_neg (f g : ℝ → ℝ → Bool) (h : ∀ a b, f (-a) (-b) = g a b) (a b : Mx q) : Mx.cmp f (-a) (-b) = Mx.cmp g a b := by
  unfold Mx.cmp
  rw [value_neg, value_neg]
  cases Mx.value a <;> cases Mx.value b <;> simp [h]

/-- mixed precision with symmetric roundings -/
theorem symArith_mx (hs : ∀ x, q.s.rnd (-x) = -q.s.rnd x) (hq : Sym q.d) : SymArith (Mx q) where
  dneg a := by
    cases a
    · show int _ = int _; rw [neg_neg]
    · show sgl _ = sgl _; rw [neg_neg]
    · show dbl _ = dbl _; rw [neg_neg]
    · rfl
  nzero := rfl
  nnan := by
    have : (0 / 0 : Mx q) = bad := by
      show Mx.divD _ _ = bad
      unfold Mx.divD
      rw [if_pos (by simp)]
    rw [this]; rfl
  nadd := op_neg hs hq.rnd _ _ (by intros; ring) (by intros; ring)
  nsub := op_neg hs hq.rnd _ _ (by intros; ring) (by intros; ring)
  rsub a b := by
    show -Mx.op _ _ a b = Mx.op _ _ b a
    cases a <;> cases b <;> try rfl
    · show int (-_) = int _; congr 1; ring
    all_goals first
      | (show sgl (-_) = sgl _; rw [← hs]; congr 2; ring)
      | (show dbl (-_) = dbl _; rw [← hq.rnd]; congr 2; ring)
  rmul := op_neg_right hs hq.rnd _ _ (by intros; ring) (by intros; ring)
  lmul a b := by
    have e : ∀ a b : Mx q, a * b = b * a := op_swap _ _ _ _ (by intros; ring) (by intros; ring)
    rw [e, e a]
    exact op_neg_right hs hq.rnd _ _ (by intros; ring) (by intros; ring) b a
  ndiv a b := by
    cases a <;> cases b <;> try rfl
    all_goals first
      | exact divS_neg hs _ _
      | exact divD_neg hq.rnd _ _
      | (show Mx.divD (q.d.rnd ((-_ : ℤ) : ℝ)) _ = _; rw [Int.cast_neg, hq.rnd]; exact divD_neg hq.rnd _ _)
      | (show Mx.divS (q.s.rnd ((-_ : ℤ) : ℝ)) _ = _; rw [Int.cast_neg, hs]; exact divS_neg hs _ _)
  nsin a := by
    cases a
    · show Mx.lib _ _ _ = -Mx.lib _ _ _
      simp only [Mx.lib, Mx.toD, Mx.i_neg, Int.cast_neg, hq.rnd, hq.sin, if_true]; rfl
    · show Mx.lib _ _ (sgl _) = -Mx.lib _ _ (sgl _)
      simp only [Mx.lib, Mx.toD, hq.sin, if_true]; rfl
    · show Mx.lib _ _ (dbl _) = -Mx.lib _ _ (dbl _)
      simp only [Mx.lib, Mx.toD, hq.sin, if_true]; rfl
    · rfl
  ncos a := by
    cases a
    · show Mx.lib _ _ _ = Mx.lib _ _ _
      simp only [Mx.lib, Mx.toD, Mx.i_neg, Int.cast_neg, hq.rnd, hq.cos]
    · show Mx.lib _ _ (sgl _) = Mx.lib _ _ (sgl _)
      simp only [Mx.lib, Mx.toD, hq.cos]
    · show Mx.lib _ _ (dbl _) = Mx.lib _ _ (dbl _)
      simp only [Mx.lib, Mx.toD, hq.cos]
    · rfl
  nfloating a := by
    cases a
    · show sgl _ = sgl (-_); rw [Int.cast_neg, hs]
    · rfl
    · show sgl _ = sgl (-_); rw [hs]
    · rfl
  ndouble a := by
    cases a
    · show dbl _ = dbl (-_); rw [Int.cast_neg, hq.rnd]
    · rfl
    · rfl
    · rfl
  nlt a b := by
    show Mx.cmp _ _ _ = Mx.cmp _ _ _
    rw [cmp_neg _ (fun a b => decide (b < a)) (fun a b => decide_eq_decide.2 neg_lt_neg_iff)]
    unfold Mx.cmp
    cases Mx.value a <;> cases Mx.value b <;> rfl
  asymm a b := by
    show Mx.cmp _ _ _ = true → Mx.cmp _ _ _ = false
    unfold Mx.cmp
    cases Mx.value a <;> cases Mx.value b <;> simp
    exact le_of_lt
  neq a b := by
    exact cmp_neg _ _ (fun a b => decide_eq_decide.2 neg_inj) a b

end mixed

/-! ### the conversions -/

variable {α : Type} [Trig α] [SymArith α]
open SymArith

theorem lt_zero_neg (a : α) : Arith.lt 0 (-a) = Arith.lt a 0 := by
  have := nlt (0 : α) a
  rwa [nzero] at this

theorem lt_neg_zero (a : α) : Arith.lt (-a) 0 = Arith.lt 0 a := by
  have := nlt a (0 : α)
  rwa [nzero] at this

theorem csign_neg (a : α) : csign (-a) = -csign a := by
  unfold csign
  rw [lt_zero_neg, lt_neg_zero]
  have := asymm (0 : α) a
  cases h1 : Arith.lt 0 a <;> cases h2 : Arith.lt a 0 <;> simp_all [dneg, nzero]

theorem asign_neg (a : α) : asign (-a) = -asign a := by
  unfold asign
  have he : Arith.eq (-a) 0 = Arith.eq a 0 := by
    have := neq a (0 : α)
    rwa [nzero] at this
  rw [lt_zero_neg, lt_neg_zero, he]
  have := asymm (0 : α) a
  cases h1 : Arith.lt 0 a <;> cases h2 : Arith.lt a 0 <;> cases h3 : Arith.eq a 0 <;> simp_all [dneg, nzero]

theorem neg_mul_neg (a b : α) : -a * -b = a * b := by rw [rmul, lmul, dneg]

/-- the point with east and west exchanged -/
def mirrorPt (p : α × α × α) : α × α × α := (p.1, -p.2.1, p.2.2)

theorem deg2rad_neg (a : α) : deg2rad (-a) = -deg2rad a := lmul _ _
theorem cyDeg2rad_neg (a : α) : cyDeg2rad (-a) = -cyDeg2rad a := by
  unfold cyDeg2rad
  rw [lmul, nfloating]

theorem lonlat2xyz_flip (R lon lat : α) : lonlat2xyz R (-lon) lat = mirrorPt (lonlat2xyz R lon lat) := by
  unfold lonlat2xyz mirrorPt
  simp only [deg2rad_neg, ncos, nsin, rmul]

theorem cyLonlat2xyz_flip (R lon lat : α) : cyLonlat2xyz R (-lon) lat = mirrorPt (cyLonlat2xyz R lon lat) := by
  unfold cyLonlat2xyz mirrorPt
  simp only [cyDeg2rad_neg, ncos, nsin, rmul, nfloating]

theorem xyz2lonlat_flip (R t : α) (low : Bool) (p : α × α × α) :
    xyz2lonlat R t low (mirrorPt p) = (-(xyz2lonlat R t low p).1, (xyz2lonlat R t low p).2) := by
  unfold xyz2lonlat mirrorPt
  simp only [neg_mul_neg, asign_neg]
  simp only [rmul]

theorem cyXyz2lonlat_flip (R t : α) (low : Bool) (p : α × α × α) :
    cyXyz2lonlat R t low (mirrorPt p) = (-(cyXyz2lonlat R t low p).1, (cyXyz2lonlat R t low p).2) := by
  unfold cyXyz2lonlat mirrorPt
  simp only [ndouble, neg_mul_neg, csign_neg]
  simp only [rmul, nfloating]

theorem viiXyz2lonlat_flip (R t : α) (p : α × α × α) :
    viiXyz2lonlat R t (mirrorPt p) = (-(viiXyz2lonlat R t p).1, (viiXyz2lonlat R t p).2) := by
  unfold viiXyz2lonlat mirrorPt
  simp only [neg_mul_neg, asign_neg]
  simp only [rmul]

end Verif.Mirror
