import Verif.Proofs.OvVii
import Verif.Props.Overflow

/-!
# C107: no overflow in the VII interpolation
-/

namespace Verif.Props
open Verif Verif.Vii Verif.Ov Verif.Err

variable {r : Rounding} {ε : ℝ}

/-- a format that stores numbers up to `maxF` -/
noncomputable def flLimit (h : LibRel r ε) (hε : ε ≤ 1 / 100) (maxF : ℝ) : Limit (Fl.approx h hε) where
  fits
    | .val x => |x| ≤ maxF
    | .bad => True
  bound := maxF
  fits_of_le x hx := by
    cases x with
    | val a => exact le_trans (le_of_eq ((Fl.approx h hε).mag_some rfl).symm) hx
    | bad => trivial
  dbl _ := True
  wide := maxF
  fits_of_le_wide x _ hx := by
    cases x with
    | val a => exact le_trans (le_of_eq ((Fl.approx h hε).mag_some rfl).symm) hx
    | bad => trivial
  dbl_toDouble _ := trivial
  dbl_add _ _ _ _ := trivial
  dbl_mul _ _ _ _ := trivial

/-- the numbers of an array are at most `M`; it may contain NaN -/
def ModerateData (M : ℝ) (d : DataArray (Fl r)) : Prop := ∀ row ∈ d.rows, ∀ x, Fl.val x ∈ row → |x| ≤ M

private theorem upto {h : LibRel r ε} {hε : ε ≤ 1 / 100} {M : ℝ} (hM : 0 ≤ M) {d : DataArray (Fl r)} (hd : ModerateData M d) : Upto h hε M d := by
  intro row hrow x hx
  cases x with
  | val a => rw [(Fl.approx h hε).mag_some rfl]; exact hd row hrow a hx
  | bad => rw [(Fl.approx h hε).mag_none rfl]; exact hM

/-- **C107 (any data)**: `tie_points_interpolation` of any arrays (NaN included) whose numbers are at most a fiftieth of the largest number of
the format, of a size for which the pixel numbers are exact: the outcome, results or error, is the one of arithmetic without overflow. -/
theorem C107_interpolation (h : LibRel r ε) (hε : ε ≤ 1 / 100) (hp : r.p ≤ 100) (maxF : ℝ) (hmax : (10 : ℝ) ^ 37 ≤ maxF)
    (data : List (DataArray (Fl r))) (T F : Nat) (hd : ∀ d ∈ data, ModerateData (maxF / 50) d ∧ (d.rows.length - 1) * F ≤ 2 ^ r.p ∧ (d.cols - 1) * F ≤ 2 ^ r.p) :
    tiePointsInterpolation (data.map (ovData (flLimit h hε maxF))) T F =
      (tiePointsInterpolation data T F).map (List.map (ovData (flLimit h hε maxF))) := by
  have h0 : 0 ≤ maxF := le_trans (by positivity) hmax
  exact (tiePoints_same (L := flLimit h hε maxF) hmax hp (M := maxF / 50) (by positivity) (by show 49 * (maxF / 50) ≤ maxF; linarith)
    (fun d hx => upto (by positivity) (hd d hx).1) (fun d hx => (hd d hx).2.1) (fun d hx => (hd d hx).2.2)).1

/-- **C107 (longitudes and latitudes)**: `tie_points_geo_interpolation` of longitudes and latitudes of at most `10^10` (or NaN), with any
latitude threshold and a threshold for `z` of at most 2: the choice of cartesian coordinates and the outcome, results or error, are those of
arithmetic without overflow. -/
theorem C107_geo (h : LibRel r ε) (hε : ε ≤ 1 / 100) (hp : r.p ≤ 100) (maxF : ℝ) (hmax : (10 : ℝ) ^ 37 ≤ maxF)
    (lon lat : DataArray (Fl r)) (T F : Nat) (h1 : ModerateData (10 ^ 10) lon) (h2 : ModerateData (10 ^ 10) lat)
    (hrow : (lon.rows.length - 1) * F ≤ 2 ^ r.p) (hcol : (lon.cols - 1) * F ≤ 2 ^ r.p) (latThr zThr : Fl r) (hz : ∀ t, zThr = .val t → |t| ≤ 2) :
    toCart (ovData (flLimit h hε maxF) lon) (ovData _ lat) (mk latThr) = toCart lon lat latThr ∧
    tiePointsGeoInterpolation (ovData (flLimit h hε maxF) lon) (ovData _ lat) T F (mk latThr) (mk zThr) =
      (tiePointsGeoInterpolation lon lat T F latThr zThr).map (fun p => (ovData _ p.1, ovData _ p.2)) := by
  have hz' : (Fl.approx h hε).mag zThr ≤ 2 := by
    cases zThr with
    | val a => rw [(Fl.approx h hε).mag_some rfl]; exact hz a rfl
    | bad => rw [(Fl.approx h hε).mag_none rfl]; norm_num
  have hb : (10 : ℝ) ^ 37 ≤ (flLimit h hε maxF).bound := hmax
  exact ⟨toCart_same hb (upto (by norm_num) h1) (upto (by norm_num) h2) latThr,
    tiePointsGeo_same hb hp (upto (by norm_num) h1) (upto (by norm_num) h2) hrow hcol latThr zThr hz'⟩

theorem double_u : (Rounding.correct 53 (by norm_num)).u ≤ 1 / 100 := by
  norm_num [Rounding.u, Rounding.correct]

theorem maxFloat64_ge : (10 : ℝ) ^ 37 ≤ maxFloat64 := le_trans (by norm_num) maxFloats.2

/-- two scans of two rows of tie points, a NaN among them, crossing the 180-degree meridian -/
example :
    tiePointsGeoInterpolation (ovData (flLimit (libRel_correct 53 (by norm_num)) double_u maxFloat64)
        ⟨("t", "s"), 3, List.replicate 4 [.val 179, .bad, .val (-178)]⟩)
      (ovData _ ⟨("t", "s"), 3, List.replicate 4 [.val 10, .val 11, .val 12]⟩) 2 8 (mk (.val 60)) (mk (.val (1 / 2))) =
    (tiePointsGeoInterpolation ⟨("t", "s"), 3, List.replicate 4 [.val 179, .bad, .val (-178)]⟩
      ⟨("t", "s"), 3, List.replicate 4 [.val 10, .val 11, .val 12]⟩ 2 8 (.val 60) (.val (1 / 2))).map (fun p => (ovData _ p.1, ovData _ p.2)) := by
  refine (C107_geo _ _ (by show 53 ≤ 100; norm_num) maxFloat64 maxFloat64_ge _ _ 2 8 ?_ ?_ ?_ ?_ _ _ ?_).2
  · intro row hrow x hx
    rw [List.eq_of_mem_replicate hrow] at hx
    simp at hx
    rcases hx with rfl | rfl <;> norm_num [abs_le]
  · intro row hrow x hx
    rw [List.eq_of_mem_replicate hrow] at hx
    simp at hx
    rcases hx with rfl | rfl | rfl <;> norm_num [abs_le]
  · show 3 * 8 ≤ 2 ^ 53; norm_num
  · show 2 * 8 ≤ 2 ^ 53; norm_num
  · intro t ht
    cases ht
    norm_num [abs_le]

/-- data of any kind, up to a fiftieth of the largest number -/
example : tiePointsInterpolation ([⟨("t", "s"), 2, [[.val 1, .bad], [.val (10 ^ 35), .val (-10 ^ 35)]]⟩].map
      (ovData (flLimit (libRel_correct 53 (by norm_num)) double_u (10 ^ 37)))) 2 4 =
    (tiePointsInterpolation [⟨("t", "s"), 2, [[.val 1, .bad], [.val (10 ^ 35), .val (-10 ^ 35)]]⟩] 2 4).map
      (List.map (ovData (flLimit (libRel_correct 53 (by norm_num)) double_u (10 ^ 37)))) := by
  refine C107_interpolation _ _ (by show 53 ≤ 100; norm_num) _ le_rfl _ 2 4 ?_
  intro d hd
  simp only [List.mem_singleton] at hd
  subst hd
  refine ⟨?_, by show 1 * 4 ≤ 2 ^ 53; norm_num, by show 1 * 4 ≤ 2 ^ 53; norm_num⟩
  intro row hrow x hx
  simp only [List.mem_cons, List.not_mem_nil, or_false] at hrow
  rcases hrow with rfl | rfl
  · simp at hx; subst hx; norm_num [abs_le]
  · simp at hx
    rcases hx with rfl | rfl
    · rw [abs_of_nonneg (by positivity)]; norm_num
    · rw [abs_neg, abs_of_nonneg (by positivity)]; norm_num

/-- **C107 (the limit is a limit)**: with tie points that are numbers of the format but of opposite signs and equal to the largest one, the
difference overflows: the interpolation along two tie points gives no number even at the first of them, where arithmetic without overflow gives
one. -/
theorem C107_limit (h : LibRel r ε) (hε : ε ≤ 1 / 100) (hp : r.p ≤ 100) (x : ℝ) (hx : (10 : ℝ) ^ 37 ≤ x) :
    interp1 (α := Ov (flLimit h hε x)) (nums (tieGrid 2 1)) [mk (.val x), mk (.val (-x))] (Arith.ofInt ((0 * 1 + 0 : Nat) : Int)) = mk .bad ∧
    interp1 (α := Fl r) (nums (tieGrid 2 1)) [.val x, .val (-x)] (Arith.ofInt ((0 * 1 + 0 : Nat) : Int)) ≠ .bad := by
  have hx0 : 0 < x := lt_of_lt_of_le (by positivity) hx
  have h1 : (2 - 1) * 1 ≤ 2 ^ r.p := Nat.one_le_two_pow
  constructor
  · have hget := grid_fl (r := r) 2 1 h1
    have hss := searchsorted_fl (r := r) 2 1 0 0 h1 (by norm_num) (by norm_num)
    rw [pos_fl (by norm_num)] at hss
    have hsub : (mk (.val (-x)) - mk (.val x) : Ov (flLimit h hε x)) = mk .bad := by
      refine if_neg ?_
      show ¬ |r.rnd (-x - x)| ≤ x
      have h1 := (rel_rnd h.u (-x - x)).le_abs
      rw [not_le]
      refine lt_of_lt_of_le ?_ h1
      rw [show -x - x = -(2 * x) by ring, abs_neg, abs_of_pos (by linarith)]
      nlinarith
    have cb : (clip .bad : Ov (flLimit h hε x)) = mk .bad := if_pos trivial
    have hdiv (y : Ov (flLimit h hε x)) : (mk .bad / y : Ov (flLimit h hε x)) = mk .bad :=
      (congrArg clip (show Arith.div (Fl.bad : Fl r) y.get = .bad by cases y.get <;> rfl)).trans cb
    have hmul (y : Ov (flLimit h hε x)) : (mk .bad * y : Ov (flLimit h hε x)) = mk .bad :=
      (congrArg clip (show Arith.mul (Fl.bad : Fl r) y.get = .bad by cases y.get <;> rfl)).trans cb
    have hadd (y : Ov (flLimit h hε x)) : (mk .bad + y : Ov (flLimit h hε x)) = mk .bad :=
      (congrArg clip (show Arith.add (Fl.bad : Fl r) y.get = .bad by cases y.get <;> rfl)).trans cb
    have hhead : (nums (tieGrid 2 1) : List (Fl r)).head? = some (Fl.val ((0 * 1 : Nat) : ℝ)) := by
      rw [List.head?_eq_getElem?]; exact hget 0 (by norm_num)
    have hlast : (nums (tieGrid 2 1) : List (Fl r)).getLast? = some (Fl.val ((1 * 1 : Nat) : ℝ)) := by
      rw [List.getLast?_eq_getElem?]; exact hget 1 (by norm_num)
    have hmin : min (max 0 1) ((nums (tieGrid 2 1) : List (Fl r)).length - 1) = 0 + 1 := rfl
    have k := @interp1_form (Ov (flLimit h hε x)) instArith (nums (tieGrid 2 1) : List (Fl r)) [mk (.val x), mk (.val (-x))]
      (Fl.val ((0 * 1 + 0 : Nat) : ℝ)) (Fl.val ((0 * 1 : Nat) : ℝ)) (Fl.val ((1 * 1 : Nat) : ℝ)) (Fl.val ((1 * 1 : Nat) : ℝ)) (Fl.val ((0 * 1 : Nat) : ℝ))
      (mk (.val x)) (mk (.val (-x))) 0 0 hhead hlast
      (by
        show (Arith.lt (Fl.val ((0 * 1 + 0 : Nat) : ℝ) : Fl r) (Fl.val ((0 * 1 : Nat) : ℝ)) ||
          Arith.lt (Fl.val ((1 * 1 : Nat) : ℝ) : Fl r) (Fl.val ((0 * 1 + 0 : Nat) : ℝ))) = false
        simp) hss hmin (hget 1 (by norm_num)) (hget 0 (by norm_num)) rfl rfl
    have e1 := nums_same (L := flLimit h hε x) hx hp (tieGrid_le h1)
    have e2 := pos_same (L := flLimit h hε x) (n := 0 * 1 + 0) hx hp (by norm_num)
    rw [pos_fl (by norm_num)] at e2
    rw [e1, e2]
    refine k.trans ?_
    rw [hsub, hdiv, hmul, hadd]
  · have := interp1_fl (r := r) 2 1 0 0 h1 (fun i => if i = 0 then x else -x) (by norm_num) (by norm_num)
    rw [show (List.range 2).map (fun i => (Fl.val (if i = 0 then x else -x) : Fl r)) = [.val x, .val (-x)] by simp [List.range_succ]] at this
    rw [this]
    exact fun e => by cases e

/-- a double precision format whose largest number is `10^300` -/
example : interp1 (α := Ov (flLimit (libRel_correct 53 (by norm_num)) double_u (10 ^ 300))) (nums (tieGrid 2 1)) [mk (.val (10 ^ 300)), mk (.val (-10 ^ 300))]
    (Arith.ofInt ((0 * 1 + 0 : Nat) : Int)) = mk .bad :=
  (C107_limit (libRel_correct 53 (by norm_num)) double_u (by show 53 ≤ 100; norm_num) (10 ^ 300) (pow_le_pow_right₀ (by norm_num) (by norm_num))).1

end Verif.Props
