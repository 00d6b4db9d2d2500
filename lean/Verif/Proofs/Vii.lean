import Verif.Model.Vii
import Verif.Spec.Vii
import Verif.Proofs.GridDask
import Verif.Proofs.GridNum
import Mathlib.Tactic.Ring
import Mathlib.Tactic.Linarith
import Mathlib.Tactic.FieldSimp

/-!
# Lemmas on the VII interpolation
-/

set_option linter.unusedSectionVars false

namespace Verif.Vii
open Verif Verif.Interpolator Verif.Grid FP

/-! ### pixel rows -/

/-- the pixel rows, enumerated -/
theorem pixelRows_eq (N T F : Nat) (hL : 0 < (T - 1) * F) :
    pixelRows N T F = (List.range (N * ((T - 1) * F))).map (fun x =>
      x / ((T - 1) * F) * T * F + x % ((T - 1) * F)) := by
  unfold pixelRows
  set L := (T - 1) * F with hLdef
  induction N with
  | zero => simp
  | succ N ih =>
    rw [List.range_succ, List.flatMap_append, ih, Nat.succ_mul, List.range_add, List.map_append, List.flatMap_singleton,
      List.map_map]
    congr 1
    apply List.map_congr_left
    intro i hi
    have hi' : i < L := List.mem_range.1 hi
    simp only [Function.comp]
    rw [Nat.mul_comm N L, Nat.mul_add_div hL, Nat.mul_add_mod, Nat.div_eq_of_lt hi', Nat.mod_eq_of_lt hi', Nat.add_zero]

theorem length_pixelRows (N T F : Nat) : (pixelRows N T F).length = N * ((T - 1) * F) := by
  simp [pixelRows, List.length_flatMap]

/-- pixel `p` of scan `j` -/
theorem pixelRows_get (N T F j p : Nat) (hj : j < N) (hp : p < (T - 1) * F) :
    (pixelRows N T F)[j * ((T - 1) * F) + p]? = some (j * T * F + p) := by
  have hL : 0 < (T - 1) * F := by omega
  rw [pixelRows_eq N T F hL]
  set L := (T - 1) * F
  have hlt : j * L + p < N * L := by
    calc j * L + p < j * L + L := by omega
      _ = (j + 1) * L := by ring
      _ ≤ N * L := Nat.mul_le_mul_right _ hj
  rw [List.getElem?_map, List.getElem?_range hlt, Option.map_some]
  congr 1
  rw [Nat.mul_comm j L, Nat.mul_add_div hL, Nat.mul_add_mod, Nat.div_eq_of_lt hp, Nat.mod_eq_of_lt hp, Nat.add_zero]

/-! ### entries -/

section
variable {α : Type} [Arith α]

/-- element of an array -/
def DataArray.at (d : DataArray α) (i j : Nat) : α := (d.rows.getD i []).getD j 0

/-- column of an array -/
def DataArray.col (d : DataArray α) (c : Nat) : List α := d.rows.map (fun row => row.getD c 0)

/-- the value computed at row position `r`, column position `q` -/
def pixel (F : Nat) (d : DataArray α) (r q : Nat) : α :=
  interp1 (nums (tieGrid d.cols F)) ((List.range d.cols).map (fun c =>
    interp1 (nums (tieGrid d.rows.length F)) (d.col c) (Arith.ofInt (r : Int)))) (Arith.ofInt (q : Int))

theorem interpOne_ok (d : DataArray α) (N T F : Nat) (hT : 2 ≤ T) (hF : 1 ≤ F) (hN : 1 ≤ N)
    (hrows : d.rows.length = N * T) (hc : 2 ≤ d.cols) :
    interpOne d.dims d.shape T F d = .ok { d with
      cols := (d.cols - 1) * F
      rows := (pixelRows N T F).map (fun r => (List.range ((d.cols - 1) * F)).map (fun q => pixel F d r q)) } := by
  have h1 : d.rows.length / T = N := by rw [hrows]; exact Nat.mul_div_cancel _ (by omega)
  have hL : 0 < (T - 1) * F := Nat.mul_pos (by omega) (by omega)
  have hC : 0 < (d.cols - 1) * F := Nat.mul_pos (by omega) (by omega)
  have e1 : (pixelRows N T F).isEmpty = false := by
    rw [List.isEmpty_eq_false_iff, ← List.length_pos_iff, length_pixelRows]
    exact Nat.mul_pos (by omega) hL
  have e2 : (List.range ((d.cols - 1) * F)).isEmpty = false := by
    rw [List.isEmpty_eq_false_iff, ← List.length_pos_iff, List.length_range]
    exact hC
  unfold interpOne
  rw [if_neg (by simp)]
  simp only [DataArray.shape, h1, interpAlt, e1, Bool.false_eq_true, if_false, bind, Except.bind, interpAct, e2,
    List.length_range]
  congr 2
  simp only [nums, List.map_map]
  rfl

theorem interpOne_cases (dims : String × String) (shape : Nat × Nat) (T F : Nat) (d : DataArray α) :
    (∃ o, interpOne dims shape T F d = .ok o) ∨ interpOne dims shape T F d = .error .valueError := by
  unfold interpOne
  split
  · exact Or.inr rfl
  · unfold interpAlt
    split
    · exact Or.inr rfl
    · simp only [bind, Except.bind]
      unfold interpAct
      split
      · exact Or.inr rfl
      · exact Or.inl ⟨_, rfl⟩

/-- a comprehension in which every element succeeds or raises `e`, and one raises -/
theorem mapM_some_error {β γ : Type} {f : β → Except Err γ} {e : Err} {l : List β}
    (h : ∀ b ∈ l, (∃ c, f b = .ok c) ∨ f b = .error e) {b : β} (hb : b ∈ l) (hbad : f b = .error e) :
    l.mapM f = .error e := by
  induction l with
  | nil => simp at hb
  | cons a l ih =>
    rw [List.mapM_cons]
    rcases h a (by simp) with ⟨c, hc⟩ | ha
    · rw [hc]
      rcases List.mem_cons.1 hb with rfl | hb'
      · rw [hc] at hbad; cases hbad
      · rw [ih (fun x hx => h x (by simp [hx])) hb']
        rfl
    · rw [ha]; rfl

end

/-! ### the linear interpolator on multiples of the factor -/

section
variable {K : Type} [Field K] [LinearOrder K] [IsStrictOrderedRing K]

theorem nums_val (l : List Nat) : (nums l : List (FP K)) = (l.map (fun (n : Nat) => (n : K))).map val := by
  simp [nums]

/-- the straight line of scipy's `interp1d` from node `lo` of a grid of step `F` -/
def segment (F : Nat) (ys : List (FP K)) (lo : Nat) (x : K) : FP K :=
  (ys.getD (lo + 1) 0 - ys.getD lo 0) / val (F : K) * val (x - lo * F) + ys.getD lo 0

/-- the node below position `m * F + u` chosen by the left-sided search -/
def below (m u : Nat) : Nat := if u = 0 then m - 1 else m

theorem searchsorted_tie (n F m u : Nat) (hm : m + 1 < n) (hu : u < F) :
    searchsorted (nums (tieGrid n F) : List (FP K)) (Arith.ofInt ((m * F + u : Nat) : Int))
      = if u = 0 then m else m + 1 := by
  unfold searchsorted
  have hlen : (nums (tieGrid n F) : List (FP K)).length = n := by simp [nums, tieGrid]
  have hget : ∀ i (h : i < (nums (tieGrid n F) : List (FP K)).length),
      (nums (tieGrid n F) : List (FP K))[i] = val ((i * F : Nat) : K) := by
    intro i h
    simp [nums, tieGrid]
  refine length_takeWhile_eq _ _ _ ?_ ?_ ?_
  · rw [hlen]; split <;> omega
  · intro i hi
    rw [hget]
    simp only [ofInt_eq, lt_val, decide_eq_true_eq, Int.cast_natCast, Nat.cast_lt]
    split at hi
    · have : (i + 1) * F ≤ m * F := Nat.mul_le_mul_right _ hi
      rw [Nat.succ_mul] at this; omega
    · have : i * F ≤ m * F := Nat.mul_le_mul_right _ (by omega)
      omega
  · intro h
    rw [hget]
    simp only [ofInt_eq, lt_val, decide_eq_false_iff_not, Int.cast_natCast, Nat.cast_lt, not_lt]
    split
    · omega
    · rw [Nat.succ_mul]; omega

theorem interp1_tie (n F m u : Nat) (ys : List (FP K)) (hm : m + 1 < n) (hu : u < F) :
    interp1 (nums (tieGrid n F)) ys (Arith.ofInt ((m * F + u : Nat) : Int) : FP K)
      = segment F ys (below m u) ((m * F + u : Nat) : K) := by
  have hF : (F : K) ≠ 0 := by
    have : 0 < F := by omega
    exact_mod_cast this.ne'
  have hlen : (nums (tieGrid n F) : List (FP K)).length = n := by simp [nums, tieGrid]
  have hget : ∀ i, i < n → (nums (tieGrid n F) : List (FP K))[i]? = some (val ((i * F : Nat) : K)) := by
    intro i h
    simp [nums, tieGrid, h]
  have hhead : (nums (tieGrid n F) : List (FP K)).head? = some (val 0) := by
    rw [List.head?_eq_getElem?, hget 0 (by omega)]; simp
  have hlast : (nums (tieGrid n F) : List (FP K)).getLast? = some (val (((n - 1) * F : Nat) : K)) := by
    rw [List.getLast?_eq_getElem?, hlen, hget (n - 1) (by omega)]
  have hle : m * F + u ≤ (n - 1) * F := by
    calc m * F + u ≤ m * F + F := by omega
      _ = (m + 1) * F := by ring
      _ ≤ (n - 1) * F := Nat.mul_le_mul_right _ (by omega)
  unfold interp1
  rw [hhead, hlast]
  simp only [searchsorted_tie n F m u hm hu, hlen]
  have hb : (Arith.lt (Arith.ofInt ((m * F + u : Nat) : Int) : FP K) (val 0) ||
      Arith.lt (val (((n - 1) * F : Nat) : K)) (Arith.ofInt ((m * F + u : Nat) : Int))) = false := by
    simp only [ofInt_eq, lt_val, Int.cast_natCast, Bool.or_eq_false_iff, decide_eq_false_iff_not, not_lt]
    exact ⟨Nat.cast_nonneg _, by exact_mod_cast hle⟩
  rw [hb]
  simp only [Bool.false_eq_true, if_false]
  have hi : min (max (if u = 0 then m else m + 1) 1) (n - 1) = below m u + 1 := by
    unfold below; split <;> omega
  rw [hi, Nat.add_sub_cancel]
  have hbl : below m u + 1 < n := by unfold below; split <;> omega
  unfold segment
  simp only [List.getD_eq_getElem?_getD (l := nums (tieGrid n F)), hget _ hbl, hget _ (show below m u < n by omega),
    Option.getD_some, ofInt_eq, Int.cast_natCast, val_sub]
  congr 3
  · congr 1
    push_cast
    ring
  · push_cast
    ring

/-- the straight line through numbers -/
theorem segment_val (F m u n : Nat) (y : Nat → K) (hm : m + 1 < n) (hu : u < F) :
    segment F ((List.range n).map (fun i => (val (y i) : FP K))) (below m u) ((m * F + u : Nat) : K)
      = val ((1 - (u : K) / F) * y m + (u : K) / F * y (m + 1)) := by
  have hF : (F : K) ≠ 0 := by
    have : 0 < F := by omega
    exact_mod_cast this.ne'
  have hget : ∀ i, i < n → ((List.range n).map (fun i => (val (y i) : FP K))).getD i 0 = val (y i) := by
    intro i h; simp [h]
  unfold segment
  have hbl : below m u + 1 < n := by unfold below; split <;> omega
  rw [hget _ hbl, hget _ (show below m u < n by omega), val_sub, val_div_of_ne _ hF, val_mul, val_add]
  congr 1
  unfold below
  split
  · rename_i h
    subst h
    rcases Nat.eq_zero_or_pos m with rfl | hpos
    · simp
    · obtain ⟨k, rfl⟩ : ∃ k, m = k + 1 := ⟨m - 1, by omega⟩
      simp only [Nat.add_sub_cancel]
      push_cast
      field_simp
      ring
  · push_cast
    field_simp
    ring

/-- the value computed at a pixel, for an array of numbers -/
theorem pixel_val (F : Nat) (dims : String × String) (n c : Nat) (V : Nat → Nat → K) (m u k w : Nat) (hm : m + 1 < n)
    (hu : u < F) (hk : k + 1 < c) (hw : w < F) :
    pixel F ⟨dims, c, (List.range n).map (fun i => (List.range c).map (fun j => (val (V i j) : FP K)))⟩ (m * F + u)
      (k * F + w) = val (Spec.bilinear V m k ((u : K) / F) ((w : K) / F)) := by
  unfold pixel
  have hcol : ∀ j ∈ List.range c, interp1 (nums (tieGrid n F)) (DataArray.col ⟨dims, c, (List.range n).map (fun i =>
      (List.range c).map (fun j => (val (V i j) : FP K)))⟩ j) (Arith.ofInt ((m * F + u : Nat) : Int))
      = val ((1 - (u : K) / F) * V m j + (u : K) / F * V (m + 1) j) := by
    intro j hj
    have hj' : j < c := List.mem_range.1 hj
    rw [interp1_tie n F m u _ hm hu]
    have : DataArray.col ⟨dims, c, (List.range n).map (fun i => (List.range c).map (fun j => (val (V i j) : FP K)))⟩ j
        = (List.range n).map (fun i => (val (V i j) : FP K)) := by
      simp [DataArray.col, hj']
    rw [this, segment_val F m u n (fun i => V i j) hm hu]
  simp only [List.length_map, List.length_range]
  rw [List.map_congr_left hcol, interp1_tie c F k w _ hk hw, segment_val F k w c _ hk hw]
  congr 1
  unfold Spec.bilinear
  ring

end

end Verif.Vii
