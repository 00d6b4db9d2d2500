import Verif.Proofs.Vii
import Verif.Proofs.FlLin

/-!
# The VII interpolation with rounding
-/

namespace Verif.Vii
open Verif Verif.Interpolator Verif.Grid Fl

variable {r : Rounding}

/-- positions of at most `p` bits are exact -/
theorem pos_fl {n : Nat} (h : n ≤ 2 ^ r.p) : (Arith.ofInt (n : Int) : Fl r) = val (n : ℝ) := by
  rw [Fl.ofInt_eq, Fl.val.injEq]
  have := rep_int r.hp1 (m := (n : ℤ)) (by rw [abs_of_nonneg (by positivity)]; exact_mod_cast h)
  rw [r.rnd_rep this]; simp

theorem grid_fl (n F : Nat) (hb : (n - 1) * F ≤ 2 ^ r.p) (i : Nat) (h : i < n) :
    (nums (tieGrid n F) : List (Fl r))[i]? = some (val ((i * F : Nat) : ℝ)) := by
  have hi : i * F ≤ 2 ^ r.p := le_trans (Nat.mul_le_mul_right _ (by omega)) hb
  rw [← pos_fl hi]
  simp [nums, tieGrid, h]

theorem pixel_le {n F m u : Nat} (hm : m + 1 < n) (hu : u < F) : m * F + u ≤ (n - 1) * F := by
  calc m * F + u ≤ m * F + F := by omega
    _ = (m + 1) * F := by ring
    _ ≤ (n - 1) * F := Nat.mul_le_mul_right _ (by omega)

theorem searchsorted_fl (n F m u : Nat) (hb : (n - 1) * F ≤ 2 ^ r.p) (hm : m + 1 < n) (hu : u < F) :
    searchsorted (nums (tieGrid n F) : List (Fl r)) (Arith.ofInt ((m * F + u : Nat) : Int))
      = if u = 0 then m else m + 1 := by
  unfold searchsorted
  have hlen : (nums (tieGrid n F) : List (Fl r)).length = n := by simp [nums, tieGrid]
  have hget : ∀ i (h : i < (nums (tieGrid n F) : List (Fl r)).length),
      (nums (tieGrid n F) : List (Fl r))[i] = val ((i * F : Nat) : ℝ) := by
    intro i h
    have := grid_fl (r := r) n F hb i (by omega)
    rw [List.getElem?_eq_getElem h, Option.some.injEq] at this
    exact this
  rw [pos_fl ((pixel_le hm hu).trans hb)]
  refine length_takeWhile_eq _ _ _ ?_ ?_ ?_
  · rw [hlen]; split <;> omega
  · intro i hi
    rw [hget]
    simp only [lt_val, decide_eq_true_eq, Nat.cast_lt]
    split at hi
    · have : (i + 1) * F ≤ m * F := Nat.mul_le_mul_right _ hi
      rw [Nat.succ_mul] at this; omega
    · have : i * F ≤ m * F := Nat.mul_le_mul_right _ (by omega)
      omega
  · intro h
    rw [hget]
    simp only [lt_val, decide_eq_false_iff_not, Nat.cast_lt, not_lt]
    split
    · omega
    · rw [Nat.succ_mul]; omega

/-- distance of a pixel to the node below it -/
def above (F u m : Nat) : Nat := if u = 0 ∧ m ≠ 0 then F else u

/-- the interpolation as computed -/
theorem interp1_fl (n F m u : Nat) (hb : (n - 1) * F ≤ 2 ^ r.p) (y : Nat → ℝ) (hm : m + 1 < n) (hu : u < F) :
    interp1 (nums (tieGrid n F)) ((List.range n).map (fun i => (val (y i) : Fl r))) (Arith.ofInt ((m * F + u : Nat) : Int))
      = val (r.rnd (r.rnd (r.rnd (r.rnd (y (below m u + 1) - y (below m u)) / F) * above F u m) + y (below m u))) := by
  have hF0 : 0 < F := by omega
  have hF : (F : ℝ) ≠ 0 := by exact_mod_cast hF0.ne'
  have hlen : (nums (tieGrid n F) : List (Fl r)).length = n := by simp [nums, tieGrid]
  have hget := grid_fl (r := r) n F hb
  have hhead : (nums (tieGrid n F) : List (Fl r)).head? = some (val 0) := by
    rw [List.head?_eq_getElem?, hget 0 (by omega)]; simp
  have hlast : (nums (tieGrid n F) : List (Fl r)).getLast? = some (val (((n - 1) * F : Nat) : ℝ)) := by
    rw [List.getLast?_eq_getElem?, hlen, hget (n - 1) (by omega)]
  have hle := pixel_le hm hu
  unfold interp1
  rw [hhead, hlast]
  simp only [searchsorted_fl n F m u hb hm hu, hlen]
  rw [pos_fl (hle.trans hb)]
  have hbb : (Arith.lt (val ((m * F + u : Nat) : ℝ) : Fl r) (val 0) ||
      Arith.lt (val (((n - 1) * F : Nat) : ℝ)) (val ((m * F + u : Nat) : ℝ) : Fl r)) = false := by
    simp only [lt_val, Bool.or_eq_false_iff, decide_eq_false_iff_not, not_lt]
    exact ⟨Nat.cast_nonneg _, by exact_mod_cast hle⟩
  rw [hbb]
  simp only [Bool.false_eq_true, if_false]
  have hi : min (max (if u = 0 then m else m + 1) 1) (n - 1) = below m u + 1 := by
    unfold below; split <;> omega
  rw [hi, Nat.add_sub_cancel]
  have hbl : below m u + 1 < n := by unfold below; split <;> omega
  have hy : ∀ i, i < n → ((List.range n).map (fun i => (val (y i) : Fl r))).getD i 0 = val (y i) := by
    intro i h; simp [h]
  have hrepF : ∀ k : Nat, k ≤ F → r.rnd (k : ℝ) = k := by
    intro k hk
    have h1 : F ≤ (n - 1) * F := Nat.le_mul_of_pos_left _ (by omega)
    have := pos_fl (r := r) ((hk.trans h1).trans hb)
    rw [Fl.ofInt_eq, Fl.val.injEq] at this
    simpa using this
  have e1 : ((((below m u + 1) * F : Nat) : ℝ) - ((below m u * F : Nat) : ℝ)) = (F : ℝ) := by push_cast; ring
  have e2 : (((m * F + u : Nat) : ℝ) - ((below m u * F : Nat) : ℝ)) = (above F u m : ℝ) := by
    unfold below above
    by_cases h : u = 0
    · rcases Nat.eq_zero_or_pos m with rfl | hpos
      · simp [h]
      · obtain ⟨k, rfl⟩ : ∃ k, m = k + 1 := ⟨m - 1, by omega⟩
        simp [h]; ring
    · simp [h]
  have e3 : above F u m ≤ F := by unfold above; split <;> omega
  simp only [List.getD_eq_getElem?_getD (l := nums (tieGrid n F)), hget _ hbl, hget _ (show below m u < n by omega),
    Option.getD_some, hy _ hbl, hy _ (show below m u < n by omega), val_sub, e1, e2, hrepF F le_rfl, hrepF _ e3]
  rw [val_div_of_ne _ hF, val_mul, val_add]

/-- exact value and bound of the error -/
theorem interp1_err (n F m u : Nat) (hp : 4 ≤ r.p) (hb : (n - 1) * F ≤ 2 ^ r.p) (y : Nat → ℝ) (M : ℝ) (hM : ∀ i < n, |y i| ≤ M)
    (hm : m + 1 < n) (hu : u < F) :
    ∃ v, interp1 (nums (tieGrid n F)) ((List.range n).map (fun i => (val (y i) : Fl r)))
        (Arith.ofInt ((m * F + u : Nat) : Int)) = val v ∧
      |v - ((1 - (u : ℝ) / F) * y m + (u : ℝ) / F * y (m + 1))| ≤ 24 * r.u * M := by
  have hF0 : 0 < F := by omega
  have hFp : (0 : ℝ) < F := by exact_mod_cast hF0
  refine ⟨_, interp1_fl n F m u hb y hm hu, ?_⟩
  have hbl : below m u + 1 < n := by unfold below; split <;> omega
  set a := y (below m u) with ha
  set b := y (below m u + 1) with hbb
  set t : ℝ := (above F u m : ℝ) with ht
  have e3 : above F u m ≤ F := by unfold above; split <;> omega
  have ht0 : 0 ≤ t := by positivity
  have ht1 : t ≤ F := by rw [ht]; exact_mod_cast e3
  have hA : |a| ≤ M := hM _ (by omega)
  have hB : |b| ≤ M := hM _ hbl
  have hex : (1 - (u : ℝ) / F) * y m + (u : ℝ) / F * y (m + 1) = (b - a) / F * t + a := by
    rw [ha, hbb, ht]
    unfold below above
    by_cases h : u = 0
    · rcases Nat.eq_zero_or_pos m with rfl | hpos
      · simp [h]
      · obtain ⟨k, rfl⟩ : ∃ k, m = k + 1 := ⟨m - 1, by omega⟩
        simp [h]
        field_simp
        ring
    · simp [h]
      field_simp
      ring
  rw [hex]
  have hd : |b - a| ≤ 2 * M := (abs_sub _ _).trans (by linarith)
  have h1 : ErrBy r 1 (r.rnd (b - a)) (b - a) (2 * M) := (ErrBy.exact' hd).rnd
  have h2 : ErrBy r 2 (r.rnd (r.rnd (b - a) / F)) ((b - a) / F) (2 * M / F) := by
    have := (h1.mul (ErrBy.exact' (r := r) (x := 1 / (F : ℝ)) (m := 1 / F) (by rw [abs_of_pos (by positivity)]))).rnd
    rw [mul_one_div, mul_one_div, mul_one_div] at this
    exact this
  have h3 : ErrBy r 3 (r.rnd (r.rnd (r.rnd (b - a) / F) * t)) ((b - a) / F * t) (2 * M) := by
    have := (h2.mul (ErrBy.exact' (r := r) (x := t) (m := F) (by rw [abs_of_nonneg ht0]; exact ht1))).rnd
    have e : 2 * M / F * F = 2 * M := by field_simp
    rw [e] at this
    exact this
  have h4 := (h3.add ((ErrBy.exact' (r := r) hA).mono (k' := 3) (by omega) le_rfl)).rnd
  refine h4.1.trans ?_
  have hM0 : 0 ≤ M := (abs_nonneg _).trans hA
  have hu' : 2 * ((3 + 1 : ℕ) : ℝ) * r.u ≤ 1 := by
    have : r.u ≤ 1 / 16 := by
      unfold Rounding.u
      have : (2 : ℝ) ^ (-(r.p : ℤ)) ≤ 2 ^ (-4 : ℤ) := zpow_le_zpow_right₀ (by norm_num) (by omega)
      exact this.trans (by norm_num)
    push_cast; linarith
  have h5 := pow_u_le (r := r) (3 + 1) hu'
  calc _ ≤ (2 * ((3 + 1 : ℕ) : ℝ) * r.u) * (2 * M + M) := mul_le_mul_of_nonneg_right h5 (by linarith)
    _ = _ := by push_cast; ring

/-- **Sterbenz**: the difference of two representable numbers within a factor of two is representable -/
theorem sterbenz {p : Nat} {a b : ℝ} (ha : Rep p a) (hb : Rep p b) (h1 : a / 2 ≤ b) (h2 : b ≤ 2 * a) : Rep p (b - a) := by
  have ha0 : 0 ≤ a := by linarith
  have hb0 : 0 ≤ b := by linarith
  obtain ⟨m, e, hm, rfl⟩ := ha
  obtain ⟨k, f, hk, rfl⟩ := hb
  have pe := two_zpow_pos e
  have pf := two_zpow_pos f
  have hm0 : 0 ≤ m := by
    have : (0 : ℝ) ≤ m := nonneg_of_mul_nonneg_left ha0 pe
    exact_mod_cast this
  have hk0 : 0 ≤ k := by
    have : (0 : ℝ) ≤ k := nonneg_of_mul_nonneg_left hb0 pf
    exact_mod_cast this
  rw [abs_of_nonneg hm0] at hm
  rw [abs_of_nonneg hk0] at hk
  rcases le_total e f with hef | hef
  · -- the last bit of `a` is the lower one; |b - a| ≤ a
    obtain ⟨d, rfl⟩ : ∃ d : ℕ, f = e + d := ⟨(f - e).toNat, by omega⟩
    refine ⟨k * 2 ^ d - m, e, ?_, ?_⟩
    · have e1 : (k : ℝ) * 2 ^ (e + (d : ℤ)) = ((k * 2 ^ d : ℤ) : ℝ) * 2 ^ e := by
        rw [zpow_add₀ (by norm_num)]; push_cast; rw [zpow_natCast]; ring
      rw [e1] at h1 h2
      have g1 : ((k * 2 ^ d : ℤ) : ℝ) ≤ ((2 * m : ℤ) : ℝ) := by
        refine le_of_mul_le_mul_right ?_ pe
        push_cast at h2 ⊢; linarith
      have g2 : ((m : ℤ) : ℝ) ≤ ((2 * (k * 2 ^ d) : ℤ) : ℝ) := by
        refine le_of_mul_le_mul_right ?_ pe
        push_cast at h1 ⊢; linarith
      have g1' : k * 2 ^ d ≤ 2 * m := by exact_mod_cast g1
      have g2' : m ≤ 2 * (k * 2 ^ d) := by exact_mod_cast g2
      have : 0 ≤ k * 2 ^ d := by positivity
      rw [abs_lt]; constructor <;> linarith
    · rw [zpow_add₀ (by norm_num)]; push_cast; rw [zpow_natCast]; ring
  · obtain ⟨d, rfl⟩ : ∃ d : ℕ, e = f + d := ⟨(e - f).toNat, by omega⟩
    refine ⟨k - m * 2 ^ d, f, ?_, ?_⟩
    · have e1 : (m : ℝ) * 2 ^ (f + (d : ℤ)) = ((m * 2 ^ d : ℤ) : ℝ) * 2 ^ f := by
        rw [zpow_add₀ (by norm_num)]; push_cast; rw [zpow_natCast]; ring
      rw [e1] at h1 h2
      have g1 : ((k : ℤ) : ℝ) ≤ ((2 * (m * 2 ^ d) : ℤ) : ℝ) := by
        refine le_of_mul_le_mul_right ?_ pf
        push_cast at h2 ⊢; linarith
      have g2 : ((m * 2 ^ d : ℤ) : ℝ) ≤ ((2 * k : ℤ) : ℝ) := by
        refine le_of_mul_le_mul_right ?_ pf
        push_cast at h1 ⊢; linarith
      have g1' : k ≤ 2 * (m * 2 ^ d) := by exact_mod_cast g1
      have g2' : m * 2 ^ d ≤ 2 * k := by exact_mod_cast g2
      have : 0 ≤ m * 2 ^ d := by positivity
      rw [abs_lt]; constructor <;> linarith
    · rw [zpow_add₀ (by norm_num)]; push_cast; rw [zpow_natCast]; ring

/-- at a tie the result is the tie value, if the factor is a power of two and the difference to the tie before is exact -/
theorem interp1_exact (n q m : Nat) (hb : (n - 1) * 2 ^ q ≤ 2 ^ r.p) (y : Nat → ℝ) (hm : m + 1 < n)
    (hr : Rep r.p (y m)) (hd : m ≠ 0 → Rep r.p (y m - y (m - 1))) :
    interp1 (nums (tieGrid n (2 ^ q))) ((List.range n).map (fun i => (val (y i) : Fl r)))
        (Arith.ofInt ((m * 2 ^ q : Nat) : Int)) = val (y m) := by
  have h := interp1_fl (r := r) n (2 ^ q) m 0 hb y hm (by positivity)
  rw [Nat.add_zero] at h
  rw [h, Fl.val.injEq]
  rcases Nat.eq_zero_or_pos m with rfl | hpos
  · simp [above, below, r.rnd_rep hr]
  · have e1 : below m 0 = m - 1 := by simp [below]
    have e2 : above (2 ^ q) 0 m = 2 ^ q := by simp [above, hpos.ne']
    rw [e1, e2, show m - 1 + 1 = m by omega]
    have hd' := hd hpos.ne'
    have hdiv : Rep r.p ((y m - y (m - 1)) / ((2 ^ q : Nat) : ℝ)) := by
      have := hd'.scale (-(q : ℤ))
      rw [zpow_neg, zpow_natCast, ← div_eq_mul_inv] at this
      push_cast; exact this
    have hne : (((2 ^ q : Nat) : ℝ)) ≠ 0 := by positivity
    rw [r.rnd_rep hd', r.rnd_rep hdiv, div_mul_cancel₀ _ hne, r.rnd_rep hd', sub_add_cancel, r.rnd_rep hr]

end Verif.Vii
