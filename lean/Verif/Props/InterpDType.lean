import Verif.Props.GridDType
import Verif.Props.InterpolatorNum

/-!
# C72, C73: element types of the data of `Interpolator`
-/

set_option linter.unusedSectionVars false

namespace Verif.Props
open Verif Verif.Interpolator Verif.Spec Verif.Grid

/-! ### C72: conversion of the results -/

section struct
variable {α : Type} [Arith α]

theorem interp1dT_eq (c : Casts α) (t : ElemType) (S : SplLib α) (st : Interp α) (data : Mat α) :
    interp1dT c t S st data = (interp1d S st data).map (mapMat (Grid.astype c t)) := by
  unfold interp1dT interp1d mapMat
  rw [← mapM_map_ok]
  congr 1
  funext cnt
  cases idx data cnt with
  | error e => rfl
  | ok row =>
    simp only [bind, Except.bind]
    cases splineRow S st row <;> rfl

/-- **C72 (one dimension)**: if the fine rows are the tie rows, the result for data of types `types` is the double precision
result with every array converted to the type of its data. -/
theorem C72_1d (c : Casts α) (S : SplLib α) (st : Interp α) (types : List ElemType) (hlen : types.length = st.tieData.length)
    (h : arrayEqual st.hrowIdx st.rowIdx = true) :
    interpolateT c S st types
      = (interpolate S st).map (fun out => List.zipWith (fun t m => m.map (List.map (Grid.astype c t))) types out) := by
  unfold interpolateT interpolate
  rw [if_pos h, if_pos h]
  generalize st.tieData = data at hlen
  induction data generalizing types with
  | nil =>
    obtain rfl : types = [] := List.length_eq_zero_iff.1 hlen
    rfl
  | cons d ds ih =>
    obtain ⟨t, ts, rfl⟩ : ∃ t ts, types = t :: ts := by
      cases types with
      | nil => simp at hlen
      | cons t ts => exact ⟨t, ts, rfl⟩
    have ih' := ih ts (by simpa using hlen)
    rw [List.zip_cons_cons, List.mapM_cons, List.mapM_cons, ih', interp1dT_eq]
    cases interp1d S st d with
    | error e => rfl
    | ok m => cases ds.mapM (interp1d S st) <;> rfl

/-- **C72 (two dimensions)**: otherwise the doubles are returned, whatever the types of the data. -/
theorem C72_2d (c : Casts α) (S : SplLib α) (st : Interp α) (types : List ElemType)
    (h : arrayEqual st.hrowIdx st.rowIdx = false) : interpolateT c S st types = interpolate S st := by
  unfold interpolateT interpolate
  rw [h]
  rfl

example (c : Casts (FP ℚ)) (S : SplLib (FP ℚ)) (a b : FP ℚ) :=
  C72_1d c S ⟨[.val 0, .val 1], [.val 0, .val 4], [.val 0, .val 1], [.val 0, .val 2, .val 4], 0, [[[a, b], [b, a]]], 1, 1⟩ [.integer] rfl
    (show arrayEqual [(.val 0 : FP ℚ), .val 1] [.val 0, .val 1] = true by decide +kernel)

example (c : Casts (FP ℚ)) (S : SplLib (FP ℚ)) (a b : FP ℚ) :=
  C72_2d c S ⟨[.val 0, .val 1], [.val 0, .val 4], [.val 0, .val (1 / 2), .val 1], [.val 0, .val 2, .val 4], 0, [[[a, b], [b, a]]], 1, 1⟩ [.integer]
    (show arrayEqual [(.val 0 : FP ℚ), .val (1 / 2), .val 1] [.val 0, .val 1] = false by decide +kernel)

end struct

section exact
open FP

/-- two equal rows 0, 1 at columns 0 and 2, fine columns 0, 1, 2 -/
def evenRows (rows hrows : List (FP ℚ)) : Interp (FP ℚ) :=
  ⟨rows, [val 0, val 2], hrows, [val 0, val 1, val 2], 0, [[[val 0, val 1], [val 0, val 1]]], 1, 1⟩

def linLib : SplLib (FP ℚ) := fun _ => linSeg

/-- **C72 is false of the code** in the form "the same data give the same values": integer data with two equal rows give
1/2 between two columns if the rows are interpolated as well, and 0 if they are not. -/
theorem C72_negation (c : Casts (FP ℚ)) (hc : IntCast c) :
    interpolateT c linLib (evenRows [val 0, val 2] [val 0, val 1, val 2]) [.integer]
      = .ok [[[val 0, val (1 / 2), val 1], [val 0, val (1 / 2), val 1], [val 0, val (1 / 2), val 1]]] ∧
    interpolateT c linLib (evenRows [val 0, val 2] [val 0, val 2]) [.integer]
      = .ok [[[val 0, val 0, val 1], [val 0, val 0, val 1]]] := by
  constructor
  · rw [C72_2d _ _ _ _ (by simp [evenRows, arrayEqual])]
    simp [interpolate, evenRows, arrayEqual, rectBivariate, strictInc, weakInc, clamp, linLib, linSeg, bind, Except.bind,
      pure, Except.pure]
    norm_num
  · rw [C72_1d _ _ _ _ (by rfl) (by simp [evenRows, arrayEqual])]
    have e : interpolate linLib (evenRows [val 0, val 2] [val 0, val 2])
        = .ok [[[val 0, val (1 / 2), val 1], [val 0, val (1 / 2), val 1]]] := by
      simp [interpolate, evenRows, arrayEqual, interp1d, splineRow, strictInc, linLib, linSeg, List.range_succ, idx, bind,
        Except.bind, pure, Except.pure]
    rw [e]
    have tr : ∀ (x : ℚ) (n : ℤ), TruncOf n x → c.integer (val x) = val (n : ℚ) := by
      intro x n hn
      obtain ⟨k, e, hk⟩ := hc.num x
      rw [e, TruncOf.unique hk hn]
    have t0 := tr 0 0 ⟨by simp, by simp, by simp⟩
    have t1 := tr 1 1 ⟨by simp, by simp, by simp⟩
    have th := tr (1 / 2) 0 ⟨by simp, by norm_num [abs_lt], by simp⟩
    simp only [Int.cast_zero, Int.cast_one] at t0 t1 th
    show Except.ok [[[c.integer _, c.integer _, c.integer _], [c.integer _, c.integer _, c.integer _]]] = _
    rw [t0, t1, th]

example := C72_negation ratCasts ratCasts_ok

end exact

/-! ### C73: extrapolation of unsigned integers -/

section unsigned
open FP
variable {K : Type} [Field K] [LinearOrder K] [IsStrictOrderedRing K]

theorem emod_sub (w : Nat) {a b : Nat} (ha : a < 2 ^ w) (hb : b < 2 ^ w) :
    ((a : Int) - (b : Int)) % (2 : Int) ^ w = (a : Int) - b + if a < b then 2 ^ w else 0 := by
  have h1 : ((2 : Int) ^ w) = ((2 ^ w : Nat) : Int) := by push_cast; rfl
  split
  · next h =>
    rw [← Int.add_mul_emod_self_left _ _ 1, Int.emod_eq_of_lt] <;> rw [h1] <;> omega
  · next h =>
    rw [Int.emod_eq_of_lt] <;> [ring; omega; (rw [h1]; omega)]

/-- **C73 (unsigned data)**: data of an unsigned integer type with `w` bits, positions `p0 ≠ p1`: the extrapolated element is
the value at `x` of the straight line through the two data points, plus `2 ^ w` times the relative distance of `x` if the
data increases from the first to the second position. -/
theorem C73_unsigned (w : Nat) (p0 p1 x : K) (hp : p0 ≠ p1) (a b : Nat) (ha : a < 2 ^ w) (hb : b < 2 ^ w) :
    extrap1U w (val p0) (val p1) a b (val x)
      = val ((b : K) + (x - p1) / (p0 - p1) * ((a : K) - b) + if a < b then (x - p1) / (p0 - p1) * 2 ^ w else 0) := by
  have h : p0 - p1 ≠ 0 := sub_ne_zero.2 hp
  unfold extrap1U
  rw [emod_sub w ha hb]
  have hl : (Arith.lit 10 1 : FP K) = val 1 := by
    show val (_ / _) = _
    norm_num
  rw [hl, val_sub, val_sub, val_mul, one_mul, val_div_of_ne _ h]
  show val (((b : Int) : K) + _ * (((a : Int) - b + if a < b then 2 ^ w else 0 : Int) : K)) = _
  congr 1
  push_cast
  split <;> ring

/-- **C73 (where it is right)**: if the data does not increase from the first to the second position, the extrapolation is
that of the same data as doubles. -/
theorem C73_decreasing_partial (w : Nat) (p0 p1 x : FP K) (d0 d1 : List Nat) (h : List.Forall₂ (fun a b => b ≤ a ∧ a < 2 ^ w) d0 d1) :
    linearExtrapolateU w [p0, p1] [d0, d1] x = linearExtrapolate [p0, p1] [ofNats d0, ofNats d1] x := by
  simp only [linearExtrapolateU, linearExtrapolate]
  congr 1
  induction h with
  | nil => rfl
  | cons h _ ih =>
    rename_i a b _ _ _
    simp only [ofNats, List.zipWith_cons_cons] at ih ⊢
    rw [ih]
    congr 1
    unfold extrap1U extrap1
    rw [emod_sub w h.2 (lt_of_le_of_lt h.1 h.2), if_neg (not_lt.2 h.1), add_zero]
    congr 2
    show val (((a : Int) - (b : Int) : Int) : K) = val (((a : Int) : K) - ((b : Int) : K))
    push_cast
    rfl

/-- **C73 is false of the code**: bytes 10, 12, 14 at rows 1, 3, 5, extrapolated to rows 0 and 6: the first row becomes 393
instead of 9 and the last one -113 instead of 15. -/
theorem C73_negation :
    extrapolateRowsU 8 [[10], [12], [14]] [val (1 : ℚ), val 3, val 5] (val 0) (val 6)
      = .ok [[val 393], [val 10], [val 12], [val 14], [val (-113)]] ∧
    extrapolateRows [[val 10], [val 12], [val 14]] [val (1 : ℚ), val 3, val 5] (val 0) (val 6)
      = .ok [[val 9], [val 10], [val 12], [val 14], [val 15]] := by
  constructor
  · simp [extrapolateRowsU, linearExtrapolateU, extrap1U, idx, idxEnd, lastTwo, ofNats, bind, Except.bind]
    norm_num
  · simp [extrapolateRows, linearExtrapolate, extrap1, idx, idxEnd, lastTwo, bind, Except.bind]
    norm_num

example : extrap1U 8 (val (1 : ℚ)) (val 3) 10 12 (val 0) = val 393 := by
  rw [C73_unsigned 8 1 3 0 (by norm_num) 10 12 (by norm_num) (by norm_num)]
  norm_num

example := C73_decreasing_partial 8 (val (1 : ℚ)) (val 3) (val 0) [10, 255] [2, 255]
  (.cons (by norm_num) (.cons (by norm_num) .nil))

end unsigned

end Verif.Props
