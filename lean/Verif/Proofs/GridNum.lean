import Verif.Model.GridInterp
import Verif.Proofs.InterpolatorNum

/-!
# The linear grid interpolator at its tie points
-/

set_option linter.unusedSectionVars false

namespace Verif.Grid
open Verif Verif.Interpolator FP

theorem length_takeWhile_eq {β : Type} (p : β → Bool) (l : List β) (k : Nat) (hk : k ≤ l.length)
    (h1 : ∀ m (h : m < k), p (l[m]'(by omega)) = true) (h2 : ∀ h : k < l.length, p l[k] = false) :
    (l.takeWhile p).length = k := by
  induction l generalizing k with
  | nil => simp at hk; simp [hk]
  | cons a l ih =>
    cases k with
    | zero => have := h2 (by simp); simp only [List.getElem_cons_zero] at this; simp [this]
    | succ k =>
      have ha := h1 0 (by omega)
      simp only [List.getElem_cons_zero] at ha
      rw [List.takeWhile_cons_of_pos ha, List.length_cons, ih k (by simpa using hk)]
      · intro m hm
        have := h1 (m + 1) (by omega)
        simpa using this
      · intro h
        have := h2 (by simpa using h)
        simpa using this

variable {K : Type} [Field K] [LinearOrder K] [IsStrictOrderedRing K]

theorem sorted_lt {Y : List K} (h : Y.Pairwise (· < ·)) {i j : Nat} (hij : i < j) (hj : j < Y.length) :
    Y[i]'(by omega) < Y[j] := List.pairwise_iff_getElem.1 h i j (by omega) hj hij

theorem sorted_le {Y : List K} (h : Y.Pairwise (· < ·)) {i j : Nat} (hij : i ≤ j) (hj : j < Y.length) :
    Y[i]'(by omega) ≤ Y[j] := by
  rcases Nat.lt_or_eq_of_le hij with h' | rfl
  · exact (sorted_lt h h' hj).le
  · exact le_refl _

/-- the interval of a point of the interval `k` (the last one is closed) -/
theorem interval_eq {Y : List K} (h : Y.Pairwise (· < ·)) {k : Nat} (hk : k + 1 < Y.length) {x : K} (h1 : k = 0 ∨ Y[k] ≤ x)
    (h2 : k + 2 = Y.length ∨ x < Y[k + 1]) : interval (Y.map val) (val x : FP K) = k := by
  unfold interval
  refine length_takeWhile_eq _ _ _ ?_ ?_ ?_
  · simp; omega
  · intro m hm
    have hkx : Y[k] ≤ x := by rcases h1 with h0 | h0 <;> [omega; exact h0]
    simp only [List.getElem_dropLast, List.getElem_drop, List.getElem_map, le_val, decide_eq_true_eq]
    exact (sorted_le h (by omega) (by omega)).trans hkx
  · intro hlt
    simp only [List.length_dropLast, List.length_drop, List.length_map] at hlt
    have hx : x < Y[k + 1] := by rcases h2 with h0 | h0 <;> [omega; exact h0]
    simp only [List.getElem_dropLast, List.getElem_drop, List.getElem_map, le_val, decide_eq_false_iff_not, not_le]
    have e : 1 + k = k + 1 := by omega
    simp only [e]
    exact hx

/-- the matrix of numbers -/
def vals (V : List (List K)) : Mat (FP K) := V.map (List.map val)

/-- `V` has `r` rows of `c` elements -/
def Dims (r c : Nat) (V : List (List K)) : Prop := V.length = r ∧ ∀ l ∈ V, l.length = c

theorem elem_vals {r c : Nat} {V : List (List K)} (hV : Dims r c V) {i j : Nat} (hi : i < r) (hj : j < c) :
    elem (vals V) i j = val ((V.getD i []).getD j 0) := by
  have h1 : i < V.length := by rw [hV.1]; exact hi
  have h2 : j < V[i].length := by rw [hV.2 _ (List.getElem_mem _)]; exact hj
  simp [elem, vals, h1, h2]

/-- bilinear combination of the corners of cell `(i, j)` -/
def cellValue (Y X : List K) (V : List (List K)) (i j : Nat) (y x : K) : K :=
  let t := (y - Y.getD i 0) / (Y.getD (i + 1) 0 - Y.getD i 0)
  let s := (x - X.getD j 0) / (X.getD (j + 1) 0 - X.getD j 0)
  let v := fun a b => (V.getD a []).getD b 0
  (1 - t) * ((1 - s) * v i j + s * v i (j + 1)) + t * ((1 - s) * v (i + 1) j + s * v (i + 1) (j + 1))

theorem linearKernel_cell {Y X : List K} (hY : Y.Pairwise (· < ·)) (hX : X.Pairwise (· < ·)) {V : List (List K)}
    (hV : Dims Y.length X.length V) {i j : Nat} (hi : i + 1 < Y.length) (hj : j + 1 < X.length) {y x : K}
    (y1 : i = 0 ∨ Y[i] ≤ y) (y2 : i + 2 = Y.length ∨ y < Y[i + 1]) (x1 : j = 0 ∨ X[j] ≤ x)
    (x2 : j + 2 = X.length ∨ x < X[j + 1]) :
    linearKernel (Y.map val) (X.map val) (vals V) (val y) (val x) = (val (cellValue Y X V i j y x) : FP K) := by
  have dy : Y[i + 1] - Y[i] ≠ 0 := (sub_pos.2 (sorted_lt hY (Nat.lt_succ_self i) hi)).ne'
  have dx : X[j + 1] - X[j] ≠ 0 := (sub_pos.2 (sorted_lt hX (Nat.lt_succ_self j) hj)).ne'
  have i0 : i < Y.length := by omega
  have j0 : j < X.length := by omega
  unfold linearKernel
  simp only [interval_eq hY hi y1 y2, interval_eq hX hj x1 x2]
  rw [elem_vals hV i0 j0, elem_vals hV i0 hj, elem_vals hV hi j0, elem_vals hV hi hj]
  simp only [cellValue, List.getD_eq_getElem?_getD, List.getElem?_map, List.getElem?_eq_getElem i0,
    List.getElem?_eq_getElem j0, List.getElem?_eq_getElem hi, List.getElem?_eq_getElem hj, Option.map_some,
    Option.getD_some, val_sub, val_div_of_ne _ dy, val_div_of_ne _ dx, one_eq, val_mul, val_add]
  congr 1
  ring

/-- at a tie point the linear kernel gives the tie value -/
theorem linearKernel_tie {Y X : List K} (hY : Y.Pairwise (· < ·)) (hX : X.Pairwise (· < ·)) {V : List (List K)}
    (hV : Dims Y.length X.length V) (h2y : 2 ≤ Y.length) (h2x : 2 ≤ X.length) {i j : Nat} (hi : i < Y.length)
    (hj : j < X.length) :
    linearKernel (Y.map val) (X.map val) (vals V) (val Y[i]) (val X[j]) = (val ((V.getD i []).getD j 0) : FP K) := by
  have cell : ∀ {Z : List K} (_ : Z.Pairwise (· < ·)) (_ : 2 ≤ Z.length) {k : Nat} (hk : k < Z.length),
      ∃ c, ∃ hc : c + 1 < Z.length, (c = 0 ∨ Z[c] ≤ Z[k]) ∧ (c + 2 = Z.length ∨ Z[k] < Z[c + 1]) ∧
        ((c = k ∧ (Z[k] - Z.getD c 0) / (Z.getD (c + 1) 0 - Z.getD c 0) = 0) ∨
         (c + 1 = k ∧ (Z[k] - Z.getD c 0) / (Z.getD (c + 1) 0 - Z.getD c 0) = 1)) := by
    intro Z hZ h2 k hk
    by_cases h : k + 1 < Z.length
    · refine ⟨k, h, Or.inr (le_refl _), Or.inr (sorted_lt hZ (Nat.lt_succ_self k) h), Or.inl ⟨rfl, ?_⟩⟩
      simp [hk]
    · obtain ⟨c, rfl⟩ : ∃ c, k = c + 1 := ⟨k - 1, by omega⟩
      refine ⟨c, hk, Or.inr (sorted_le hZ (Nat.le_succ c) hk), Or.inl (by omega), Or.inr ⟨rfl, ?_⟩⟩
      have : Z[c + 1] - Z[c] ≠ 0 := (sub_pos.2 (sorted_lt hZ (Nat.lt_succ_self c) hk)).ne'
      have hc : c < Z.length := by omega
      simp only [List.getD_eq_getElem?_getD, List.getElem?_eq_getElem hc, List.getElem?_eq_getElem hk, Option.getD_some]
      exact div_self this
  obtain ⟨a, ha, a1, a2, a3⟩ := cell hY h2y hi
  obtain ⟨b, hb, b1, b2, b3⟩ := cell hX h2x hj
  rw [linearKernel_cell hY hX hV ha hb a1 a2 b1 b2]
  congr 1
  unfold cellValue
  rcases a3 with ⟨e, ht⟩ | ⟨e, ht⟩ <;> rcases b3 with ⟨f, hs⟩ | ⟨f, hs⟩ <;> simp only [ht, hs] <;> rw [← e, ← f] <;> ring

/-! ### construction and bounds -/

theorem mkRgi_vals (kernel : List (FP K) → List (FP K) → Mat (FP K) → FP K → FP K → FP K) (be : Bool) (fill : Option (FP K))
    {Y X : List K} (hY : Y.Pairwise (· < ·)) (hX : X.Pairwise (· < ·)) {V : List (List K)}
    (hV : Dims Y.length X.length V) :
    mkRgi kernel be fill (Y.map val) (X.map val) (vals V)
      = .ok ⟨Y.map val, X.map val, vals V, be, fill, kernel⟩ := by
  have h : ((vals V).length = (Y.map (val : K → FP K)).length ∧
      (vals V).all (fun r => r.length == (X.map (val : K → FP K)).length) = true) := by
    refine ⟨by simp [vals, hV.1], ?_⟩
    rw [List.all_eq_true]
    intro r hr
    obtain ⟨r', hr', rfl⟩ := List.mem_map.1 hr
    simp [hV.2 r' hr']
  unfold mkRgi direction
  rw [if_pos ((strictInc_val Y).2 hY), if_pos ((strictInc_val X).2 hX)]
  simp only [bind, Except.bind]
  rw [if_neg (not_not.2 h)]
  simp

/-- `y` lies between the first and the last position -/
def Inside (Y : List K) (y : K) : Prop := ∀ h : 0 < Y.length, Y[0] ≤ y ∧ y ≤ Y[Y.length - 1]

theorem inBounds_val {Y : List K} (h : 0 < Y.length) (y : K) :
    inBounds (Y.map val) (val y : FP K) = true ↔ Y[0] ≤ y ∧ y ≤ Y[Y.length - 1] := by
  have e1 : (Y.map (val : K → FP K)).head? = some (val Y[0]) := by
    rw [List.head?_map, List.head?_eq_getElem?, List.getElem?_eq_getElem h]; rfl
  have e2 : (Y.map (val : K → FP K)).getLast? = some (val Y[Y.length - 1]) := by
    rw [List.getLast?_map, List.getLast?_eq_getElem?, List.getElem?_eq_getElem (by omega)]; rfl
  simp [inBounds, e1, e2]

theorem outOfBounds_val {Y : List K} (h : 0 < Y.length) (y : K) :
    outOfBounds (Y.map val) (val y : FP K) = false ↔ Y[0] ≤ y ∧ y ≤ Y[Y.length - 1] := by
  have e1 : (Y.map (val : K → FP K)).head? = some (val Y[0]) := by
    rw [List.head?_map, List.head?_eq_getElem?, List.getElem?_eq_getElem h]; rfl
  have e2 : (Y.map (val : K → FP K)).getLast? = some (val Y[Y.length - 1]) := by
    rw [List.getLast?_map, List.getLast?_eq_getElem?, List.getElem?_eq_getElem (by omega)]; rfl
  simp [outOfBounds, e1, e2]

end Verif.Grid
