import Verif.Base.Fl
import Verif.Proofs.Multilinear
import Verif.Model.ModisInterp
import Verif.Proofs.GridNum

/-!
# Linear interpolation with rounding

`(1 - l) * a + l * b` for weights that are exactly 0 or 1, and its error for any other weight; the same for the nested
interpolation of the multilinear kernels, the bilinear interpolation of the MODIS code and the linear grid kernel.
-/

set_option linter.unusedSectionVars false

namespace Verif.Fl
open Verif
variable {r : Rounding}

/-! ### weights 0 and 1 -/

theorem lerp_zero {a : ℝ} (b : ℝ) (ha : Rep r.p a) :
    (1 - val 0) * val a + val 0 * val b = (val a : Fl r) := by
  simp [one_eq, r.rnd_rep ha]

theorem lerp_one (a : ℝ) {b : ℝ} (hb : Rep r.p b) :
    (1 - val 1) * val a + val 1 * val b = (val b : Fl r) := by
  simp [one_eq, r.rnd_rep hb]

/-! ### errors -/

/-- the error of a computed number `x` against the exact `y`, in terms of a bound `m ≥ |y|` that would be obtained without
signs: `k` roundings one after the other -/
def ErrBy (r : Rounding) (k : Nat) (x y m : ℝ) : Prop := |x - y| ≤ ((1 + r.u) ^ k - 1) * m ∧ |y| ≤ m

theorem one_le_pow_u (k : Nat) : 1 ≤ (1 + r.u) ^ k := one_le_pow₀ (by have := r.u_pos; linarith)

theorem ErrBy.exact (x : ℝ) : ErrBy r 0 x x |x| := ⟨by simp, le_rfl⟩

theorem ErrBy.exact' {x m : ℝ} (h : |x| ≤ m) : ErrBy r 0 x x m := ⟨by simp, h⟩

theorem ErrBy.m_nonneg {k : Nat} {x y m : ℝ} (h : ErrBy r k x y m) : 0 ≤ m := (abs_nonneg y).trans h.2

theorem ErrBy.mono {k k' : Nat} {x y m m' : ℝ} (h : ErrBy r k x y m) (hk : k ≤ k') (hm : m ≤ m') : ErrBy r k' x y m' := by
  refine ⟨h.1.trans ?_, h.2.trans hm⟩
  have h1 : (1 + r.u) ^ k ≤ (1 + r.u) ^ k' := pow_le_pow_right₀ (by have := r.u_pos; linarith) hk
  have h2 := one_le_pow_u (r := r) k'
  exact mul_le_mul (by linarith) hm h.m_nonneg (by linarith)

/-- the computed number itself -/
theorem ErrBy.abs_le {k : Nat} {x y m : ℝ} (h : ErrBy r k x y m) : |x| ≤ (1 + r.u) ^ k * m := by
  have h1 := h.1
  have h2 := h.2
  have : |x| ≤ |x - y| + |y| := by
    calc |x| = |(x - y) + y| := by ring_nf
      _ ≤ _ := abs_add_le _ _
  linarith

/-- one more rounding -/
theorem ErrBy.rnd {k : Nat} {x y m : ℝ} (h : ErrBy r k x y m) : ErrBy r (k + 1) (r.rnd x) y m := by
  refine ⟨?_, h.2⟩
  have h1 := r.abs_rnd_sub_le_u x
  have h2 := h.abs_le
  have h3 := h.1
  have hu := r.u_pos
  calc |r.rnd x - y| = |(r.rnd x - x) + (x - y)| := by ring_nf
    _ ≤ |r.rnd x - x| + |x - y| := abs_add_le _ _
    _ ≤ r.u * ((1 + r.u) ^ k * m) + ((1 + r.u) ^ k - 1) * m :=
      add_le_add (h1.trans (mul_le_mul_of_nonneg_left h2 hu.le)) h3
    _ = _ := by rw [pow_succ]; ring

/-- a sum -/
theorem ErrBy.add {k : Nat} {x y m x' y' m' : ℝ} (h : ErrBy r k x y m) (h' : ErrBy r k x' y' m') :
    ErrBy r k (x + x') (y + y') (m + m') := by
  refine ⟨?_, (abs_add_le _ _).trans (add_le_add h.2 h'.2)⟩
  calc |x + x' - (y + y')| = |(x - y) + (x' - y')| := by ring_nf
    _ ≤ |x - y| + |x' - y'| := abs_add_le _ _
    _ ≤ _ := add_le_add h.1 h'.1
    _ = _ := by ring

theorem ErrBy.neg {k : Nat} {x y m : ℝ} (h : ErrBy r k x y m) : ErrBy r k (-x) (-y) m := by
  refine ⟨?_, by rw [abs_neg]; exact h.2⟩
  rw [show -x - -y = -(x - y) by ring, abs_neg]; exact h.1

theorem ErrBy.sub {k : Nat} {x y m x' y' m' : ℝ} (h : ErrBy r k x y m) (h' : ErrBy r k x' y' m') :
    ErrBy r k (x - x') (y - y') (m + m') := by
  rw [sub_eq_add_neg, sub_eq_add_neg]; exact h.add h'.neg

/-- a product -/
theorem ErrBy.mul {k k' : Nat} {x y m x' y' m' : ℝ} (h : ErrBy r k x y m) (h' : ErrBy r k' x' y' m') :
    ErrBy r (k + k') (x * x') (y * y') (m * m') := by
  have hm := h.m_nonneg
  have hm' := h'.m_nonneg
  refine ⟨?_, by rw [abs_mul]; exact mul_le_mul h.2 h'.2 (abs_nonneg _) hm⟩
  have ha := h.abs_le
  have e : x * x' - y * y' = x * (x' - y') + (x - y) * y' := by ring
  have h1 := one_le_pow_u (r := r) k
  have h2 := one_le_pow_u (r := r) k'
  calc |x * x' - y * y'| ≤ |x * (x' - y')| + |(x - y) * y'| := by rw [e]; exact abs_add_le _ _
    _ = |x| * |x' - y'| + |x - y| * |y'| := by rw [abs_mul, abs_mul]
    _ ≤ ((1 + r.u) ^ k * m) * (((1 + r.u) ^ k' - 1) * m') + (((1 + r.u) ^ k - 1) * m) * m' :=
      add_le_add (mul_le_mul ha h'.1 (abs_nonneg _) (by positivity))
        (mul_le_mul h.1 h'.2 (abs_nonneg _) (mul_nonneg (by linarith) hm))
    _ = _ := by rw [pow_add]; ring

/-- `(1 - l) * a + l * b`: three roundings on top of those of `a` and `b`; `l` is what the code computed -/
theorem ErrBy.lerp {k : Nat} (l : ℝ) {a a' ma b b' mb : ℝ} (ha : ErrBy r k a a' ma) (hb : ErrBy r k b b' mb) :
    ErrBy r (k + 3) (r.rnd (r.rnd (r.rnd (1 - l) * a) + r.rnd (l * b))) ((1 - l) * a' + l * b')
      (|1 - l| * ma + |l| * mb) := by
  have h1 : ErrBy r 1 (r.rnd (1 - l)) (1 - l) |1 - l| := (ErrBy.exact (1 - l)).rnd
  have h2 := ((h1.mul ha).rnd).mono (k' := k + 2) (by omega) le_rfl
  have h3 := (((ErrBy.exact (r := r) l).mul hb).rnd).mono (k' := k + 2) (by omega) le_rfl
  exact (h2.add h3).rnd

/-- in closed form: the usual `k u / (1 - k u)` -/
theorem pow_u_mul_le (k : Nat) : (1 + r.u) ^ k * (1 - k * r.u) ≤ 1 := by
  have hu := r.u_pos
  induction k with
  | zero => simp
  | succ k ih =>
    push_cast
    have hk2 : 0 ≤ (k : ℝ) := by positivity
    have h1 : 0 < (1 + r.u) ^ k := by positivity
    calc (1 + r.u) ^ (k + 1) * (1 - (k + 1) * r.u) = (1 + r.u) ^ k * ((1 + r.u) * (1 - (k + 1) * r.u)) := by ring
      _ ≤ (1 + r.u) ^ k * (1 - k * r.u) := by
        apply mul_le_mul_of_nonneg_left _ h1.le
        nlinarith [mul_pos hu hu]
      _ ≤ 1 := ih

/-- `k` roundings cost at most `2 k u`, if this is not more than 1 -/
theorem pow_u_le (k : Nat) (h : 2 * k * r.u ≤ 1) : (1 + r.u) ^ k - 1 ≤ 2 * k * r.u := by
  have h1 := pow_u_mul_le (r := r) k
  have hu := r.u_pos
  have hk2 : 0 ≤ (k : ℝ) := by positivity
  have h2 : 0 ≤ (k : ℝ) * r.u := by positivity
  have h3 := one_le_pow_u (r := r) k
  -- (P)(1 - c) ≤ 1, c ≤ 1/2  ⟹  P - 1 ≤ 2 c
  by_contra hc
  rw [not_le] at hc
  nlinarith

/-! ### the multilinear kernels -/

open Verif.Multilinear

/-- at a node: weights 0 and 1 -/
theorem mlin_node (cs : List (Nat × Fl r)) (is : List Nat)
    (h : List.Forall₂ (fun c i => (c.1 = i ∧ c.2 = val 0) ∨ (c.1 + 1 = i ∧ c.2 = val 1)) cs is) (W : List Nat → ℝ)
    (hW : ∀ is, Rep r.p (W is)) : mlin cs (fun is => val (W is)) = (val (W is) : Fl r) := by
  induction h generalizing W with
  | nil => rfl
  | @cons c i cs is hc _ ih =>
    obtain ⟨q, l⟩ := c
    simp only [mlin]
    rw [ih (fun is => W (q :: is)) (fun _ => hW _), ih (fun is => W ((q + 1) :: is)) (fun _ => hW _)]
    rcases hc with ⟨h1, h2⟩ | ⟨h1, h2⟩ <;> simp only at h1 h2 <;> subst h1 h2
    · exact lerp_zero _ (hW _)
    · exact lerp_one _ (hW _)

/-- the nested interpolation in exact arithmetic -/
def mlinR : List (Nat × ℝ) → (List Nat → ℝ) → ℝ
  | [], W => W []
  | (q, l) :: cs, W => (1 - l) * mlinR cs (fun is => W (q :: is)) + l * mlinR cs (fun is => W ((q + 1) :: is))

/-- the same without signs -/
def mlinAbs : List (Nat × ℝ) → (List Nat → ℝ) → ℝ
  | [], W => |W []|
  | (q, l) :: cs, W => |1 - l| * mlinAbs cs (fun is => W (q :: is)) + |l| * mlinAbs cs (fun is => W ((q + 1) :: is))

/-- three roundings per dimension -/
theorem mlin_err (cs : List (Nat × ℝ)) (W : List Nat → ℝ) :
    ∃ x, mlin (cs.map (fun c => (c.1, val c.2))) (fun is => val (W is)) = (val x : Fl r) ∧
      ErrBy r (3 * cs.length) x (mlinR cs W) (mlinAbs cs W) := by
  induction cs generalizing W with
  | nil => exact ⟨W [], rfl, ErrBy.exact _⟩
  | cons c cs ih =>
    obtain ⟨q, l⟩ := c
    obtain ⟨x, e, h⟩ := ih (fun is => W (q :: is))
    obtain ⟨x', e', h'⟩ := ih (fun is => W ((q + 1) :: is))
    refine ⟨_, ?_, (ErrBy.lerp l h h').mono (by simp only [List.length_cons]; omega) le_rfl⟩
    simp only [List.map_cons, mlin]
    rw [e, e', one_eq]
    rfl

/-- inside the cell the bound is the largest value -/
theorem mlinAbs_le (cs : List (Nat × ℝ)) (h : ∀ c ∈ cs, 0 ≤ c.2 ∧ c.2 ≤ 1) (W : List Nat → ℝ) {m : ℝ}
    (hW : ∀ is, |W is| ≤ m) : mlinAbs cs W ≤ m := by
  induction cs generalizing W with
  | nil => exact hW []
  | cons c cs ih =>
    obtain ⟨q, l⟩ := c
    obtain ⟨h0, h1⟩ := h (q, l) (by simp)
    simp only at h0 h1
    have a := ih (fun c hc => h c (by simp [hc])) (fun is => W (q :: is)) (fun _ => hW _)
    have b := ih (fun c hc => h c (by simp [hc])) (fun is => W ((q + 1) :: is)) (fun _ => hW _)
    simp only [mlinAbs]
    rw [abs_of_nonneg h0, abs_of_nonneg (by linarith : (0 : ℝ) ≤ 1 - l)]
    nlinarith

/-! ### the MODIS interpolation -/

open Verif.Modis

/-- at a corner of the cell -/
theorem fineComponent_corner {t s a b c d : ℝ} (ht : t = 0 ∨ t = 1) (hs : s = 0 ∨ s = 1) (ha : Rep r.p a)
    (hb : Rep r.p b) (hc : Rep r.p c) (hd : Rep r.p d) :
    fineComponent (val t) (val s) (val a) (val b) (val c) (val d)
      = (val (if t = 0 then (if s = 0 then a else b) else (if s = 0 then d else c)) : Fl r) := by
  unfold fineComponent
  rcases ht with rfl | rfl <;> rcases hs with rfl | rfl <;>
    simp only [lerp_zero _ ha, lerp_one _ hb, lerp_zero _ hd, lerp_one _ hc, lerp_zero _ hb, lerp_one _ hd] <;>
    simp

/-- six roundings -/
theorem fineComponent_err (t s a b c d : ℝ) :
    ∃ x, fineComponent (val t) (val s) (val a) (val b) (val c) (val d) = (val x : Fl r) ∧
      ErrBy r 6 x ((1 - t) * ((1 - s) * a + s * b) + t * ((1 - s) * d + s * c))
        (|1 - t| * (|1 - s| * |a| + |s| * |b|) + |t| * (|1 - s| * |d| + |s| * |c|)) := by
  refine ⟨_, ?_, ErrBy.lerp t (ErrBy.lerp s (.exact a) (.exact b)) (ErrBy.lerp s (.exact d) (.exact c))⟩
  unfold fineComponent
  rw [one_eq]
  rfl

end Verif.Fl

/-! ### the linear grid kernel -/

namespace Verif.Grid
open Verif Verif.Interpolator Fl
variable {r : Rounding}

theorem strictInc_fl (ks : List ℝ) : strictInc (ks.map (val : ℝ → Fl r)) = true ↔ ks.Pairwise (· < ·) := by
  rw [← strictInc_val]
  induction ks with
  | nil => simp [strictInc]
  | cons a ks ih =>
    cases ks with
    | nil => simp [strictInc]
    | cons b ks =>
      simp only [List.map_cons, strictInc, val_sub, FP.val_sub, zero_eq, FP.zero_eq, lt_val, FP.lt_val,
        Bool.and_eq_true, decide_eq_true_eq] at ih ⊢
      have : 0 < r.rnd (b - a) ↔ 0 < b - a := by
        refine ⟨fun h => ?_, r.rnd_pos⟩
        by_contra hc
        exact absurd (r.rnd_nonpos (not_lt.1 hc)) (not_le.2 h)
      rw [this, ih]

/-- the interval of a point does not depend on the rounding -/
theorem interval_fl (Y : List ℝ) (x : ℝ) :
    interval (Y.map val) (val x : Fl r) = interval (Y.map FP.val) (FP.val x : FP ℝ) := by
  unfold interval
  have e : ∀ l : List ℝ, (List.takeWhile (fun p => Arith.le p (val x : Fl r)) (l.map val)).length
      = (List.takeWhile (fun p => Arith.le p (FP.val x : FP ℝ)) (l.map FP.val)).length := by
    intro l
    rw [List.takeWhile_map, List.takeWhile_map, List.length_map, List.length_map]
    rfl
  rw [← List.map_drop, ← List.map_dropLast, e, ← List.map_drop, ← List.map_dropLast]

/-- the matrix of numbers -/
def flvals (V : List (List ℝ)) : Mat (Fl r) := V.map (List.map val)

theorem elem_flvals {h w : Nat} {V : List (List ℝ)} (hV : Dims h w V) {i j : Nat} (hi : i < h) (hj : j < w) :
    elem (flvals V : Mat (Fl r)) i j = val ((V.getD i []).getD j 0) := by
  have h1 : i < V.length := by rw [hV.1]; exact hi
  have h2 : j < V[i].length := by rw [hV.2 _ (List.getElem_mem _)]; exact hj
  simp [elem, flvals, h1, h2]

/-- the weight of `y` between `a` and `b` as computed -/
noncomputable def weight (r : Rounding) (a b y : ℝ) : ℝ := r.rnd (r.rnd (y - a) / r.rnd (b - a))

theorem weight_val {a b : ℝ} (y : ℝ) (h : a ≠ b) : (val y - val a) / (val b - val a) = (val (weight r a b y) : Fl r) := by
  have : r.rnd (b - a) ≠ 0 := fun e => h (sub_eq_zero.1 (r.rnd_eq_zero.1 e)).symm
  rw [val_sub, val_sub, val_div_of_ne _ this]
  rfl

theorem weight_left {a b : ℝ} : weight r a b a = 0 := by simp [weight]

theorem weight_right {a b : ℝ} (h : a ≠ b) : weight r a b b = 1 := by
  have : r.rnd (b - a) ≠ 0 := fun e => h (sub_eq_zero.1 (r.rnd_eq_zero.1 e)).symm
  rw [weight, div_self this, r.rnd_one]

theorem weight_range {a b y : ℝ} (h : a < b) (h1 : a ≤ y) (h2 : y ≤ b) : 0 ≤ weight r a b y ∧ weight r a b y ≤ 1 := by
  have hd : 0 < r.rnd (b - a) := r.rnd_pos (sub_pos.2 h)
  refine ⟨r.rnd_nonneg (div_nonneg (r.rnd_nonneg (by linarith)) hd.le), r.rnd_le (rep_one r.hp1) ?_⟩
  rw [div_le_one hd]
  exact r.mono (by linarith)

/-- the computed weight has a small relative error -/
theorem weight_err (hp : 3 ≤ r.p) {a b : ℝ} (y : ℝ) (h : a ≠ b) :
    |weight r a b y - (y - a) / (b - a)| ≤ 4 * r.u * |(y - a) / (b - a)| := by
  have hu := r.u_pos
  have hu8 : r.u ≤ 1 / 8 := by
    unfold Rounding.u
    have : (2 : ℝ) ^ (-(r.p : ℤ)) ≤ 2 ^ (-3 : ℤ) := zpow_le_zpow_right₀ (by norm_num) (by omega)
    calc _ ≤ _ := this
      _ = _ := by norm_num
  have hd : b - a ≠ 0 := sub_ne_zero.2 h.symm
  set T := (y - a) / (b - a) with hT
  have hx : y - a = T * (b - a) := by rw [hT]; field_simp
  set d := b - a with hd'
  have e2 := r.abs_rnd_sub_le_u d
  set D := r.rnd d with hD
  have hD0 : D ≠ 0 := fun e => hd (r.rnd_eq_zero.1 e)
  have e1 := r.abs_rnd_sub_le_u (y - a)
  unfold weight
  rw [← hd', ← hD]
  set X := r.rnd (y - a) with hX
  rw [hx, abs_mul] at e1
  have e3 := r.abs_rnd_sub_le_u (X / D)
  have hDpos : 0 < |D| := abs_pos.2 hD0
  have hdpos : 0 < |d| := abs_pos.2 hd
  have hDl : (1 - r.u) * |d| ≤ |D| := by
    have := abs_sub_abs_le_abs_sub d D
    rw [abs_sub_comm d D] at this
    nlinarith
  -- |X/D - T| ≤ 2u/(1-u) |T|
  have hTn := abs_nonneg T
  have q1 : |X / D - T| * |D| ≤ 2 * r.u * |T| * |d| := by
    rw [← abs_mul, sub_mul, div_mul_cancel₀ _ hD0]
    have : X - T * D = (X - T * d) - T * (D - d) := by ring
    rw [this]
    calc _ ≤ |X - T * d| + |T * (D - d)| := abs_sub _ _
      _ ≤ r.u * (|T| * |d|) + |T| * (r.u * |d|) := by
        refine add_le_add e1 ?_
        rw [abs_mul]
        exact mul_le_mul_of_nonneg_left e2 hTn
      _ = _ := by ring
  have q2 : |X / D - T| * (1 - r.u) ≤ 2 * r.u * |T| := by
    have : |X / D - T| * ((1 - r.u) * |d|) ≤ 2 * r.u * |T| * |d| :=
      (mul_le_mul_of_nonneg_left hDl (abs_nonneg _)).trans q1
    have h3 : |X / D - T| * (1 - r.u) * |d| ≤ 2 * r.u * |T| * |d| := by linarith
    exact le_of_mul_le_mul_right h3 hdpos
  have q3 : |X / D| ≤ |X / D - T| + |T| := by
    calc |X / D| = |(X / D - T) + T| := by ring_nf
      _ ≤ _ := abs_add_le _ _
  have q4 : |r.rnd (X / D) - T| ≤ r.u * |X / D| + |X / D - T| := by
    calc _ = |(r.rnd (X / D) - X / D) + (X / D - T)| := by ring_nf
      _ ≤ _ := abs_add_le _ _
      _ ≤ _ := by linarith
  have q5 := abs_nonneg (X / D - T)
  set z := |X / D - T| with hz
  -- z (1-u) ≤ 2u|T|, result ≤ u(z+|T|) + z
  have q6 : r.u * |X / D| ≤ r.u * (z + |T|) := mul_le_mul_of_nonneg_left q3 hu.le
  have q7 : z * (1 + r.u) ≤ 3 * r.u * |T| := by
    have : z * 7 ≤ 16 * r.u * |T| := by nlinarith
    nlinarith [mul_nonneg hu.le hTn]
  linarith

end Verif.Grid
