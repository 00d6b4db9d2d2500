import Verif.Proofs.Vii
import Verif.Props.Geo
import Mathlib.Algebra.Order.Ring.Rat

/-!
# C40, C41, C42: VII tie point interpolation
-/

set_option linter.unusedSectionVars false

namespace Verif.Props
open Verif Verif.Interpolator Verif.Vii FP

/-! ### C40 -/

section C40
variable {α : Type} [Arith α]

/-- `N` scans of `T` tie rows and `c` tie columns -/
def ViiShape (N T c : Nat) (d : DataArray α) : Prop :=
  d.cols = c ∧ d.rows.length = N * T ∧ ∀ r ∈ d.rows, r.length = c

/-- the result on arrays of equal shape -/
theorem vii_ok (N T F c : Nat) (hN : 1 ≤ N) (hT : 2 ≤ T) (hF : 1 ≤ F) (hc : 2 ≤ c) (dims : String × String)
    (data : List (DataArray α)) (hne : data ≠ []) (hd : ∀ d ∈ data, d.dims = dims ∧ d.cols = c ∧ d.rows.length = N * T) :
    tiePointsInterpolation data T F = .ok (data.map (fun d => ({ d with
      cols := (c - 1) * F
      rows := (pixelRows N T F).map (fun r => (List.range ((c - 1) * F)).map (fun q => pixel F d r q)) } :
        DataArray α))) := by
  match data, hne with
  | d :: ds, _ =>
  obtain ⟨e1, e2, e3⟩ := hd d (by simp)
  unfold tiePointsInterpolation
  simp only [DataArray.shape, e3, e2]
  rw [if_neg (by omega), if_neg (by simp), if_neg (by omega), if_neg (by rw [Nat.mul_div_cancel _ (by omega)]; omega)]
  have : ∀ x ∈ d :: ds, interpOne d.dims (N * T, c) T F x = .ok ({ x with
      cols := (c - 1) * F
      rows := (pixelRows N T F).map (fun r => (List.range ((c - 1) * F)).map (fun q => pixel F x r q)) } : DataArray α) := by
    intro x hx
    obtain ⟨f1, f2, f3⟩ := hd x hx
    have h := interpOne_ok x N T F hT hF hN f3 (by omega)
    rw [DataArray.shape, f3, f2] at h
    rw [e1, ← f1]
    exact h
  have hm : ∀ (l : List (DataArray α)), (∀ x ∈ l, x ∈ d :: ds) → l.mapM (interpOne d.dims (N * T, c) T F)
      = .ok (l.map (fun x => ({ x with
      cols := (c - 1) * F
      rows := (pixelRows N T F).map (fun r => (List.range ((c - 1) * F)).map (fun q => pixel F x r q)) } :
        DataArray α))) := by
    intro l hl
    induction l with
    | nil => rfl
    | cons x l ih =>
      rw [List.mapM_cons, this x (hl x (by simp)), ih (fun y hy => hl y (by simp [hy]))]
      rfl
  exact hm _ (fun x hx => hx)

/-- **C40 (shape)**: any number of arrays with the same dimension names, `N ≥ 1` scans of `T ≥ 2` tie rows, at least two
tie columns, `F ≥ 1`: one result per array, in order, with `N (T-1) F` rows, `(c-1) F` columns and the same dimension
names. -/
theorem C40_shape (N T F c : Nat) (hN : 1 ≤ N) (hT : 2 ≤ T) (hF : 1 ≤ F) (hc : 2 ≤ c) (dims : String × String)
    (data : List (DataArray α)) (hne : data ≠ []) (hd : ∀ d ∈ data, d.dims = dims ∧ ViiShape N T c d) :
    ∃ out, tiePointsInterpolation data T F = .ok out ∧ out.length = data.length ∧
      ∀ o ∈ out, o.dims = dims ∧ o.cols = (c - 1) * F ∧ o.rows.length = N * ((T - 1) * F) ∧
        ∀ r ∈ o.rows, r.length = (c - 1) * F := by
  refine ⟨_, vii_ok N T F c hN hT hF hc dims data hne (fun d h => ⟨(hd d h).1, (hd d h).2.1, (hd d h).2.2.1⟩), by simp, ?_⟩
  intro o ho
  obtain ⟨d, hd', rfl⟩ := List.mem_map.1 ho
  refine ⟨(hd d hd').1, rfl, by simp [length_pixelRows], ?_⟩
  intro r hr
  obtain ⟨x, _, rfl⟩ := List.mem_map.1 hr
  simp

/-- **C40 (rows)**: a number of tie rows that is not a multiple of `T ≥ 1` is a ValueError, whatever the arrays. -/
theorem C40_not_multiple (T F : Nat) (hT : 1 ≤ T) (d : DataArray α) (ds : List (DataArray α))
    (h : ¬ T ∣ d.rows.length) : tiePointsInterpolation (d :: ds) T F = .error .valueError := by
  unfold tiePointsInterpolation
  have h' : d.shape.1 % T ≠ 0 := fun h' => h (Nat.dvd_of_mod_eq_zero h')
  simp only
  rw [if_neg (by omega : ¬ T = 0), if_pos h']

/-- **C40 (consistency)**: an array with another shape or other dimension names than the first one is a ValueError,
wherever it stands. -/
theorem C40_inconsistent (T F : Nat) (hT : 1 ≤ T) (hF : 1 ≤ F) (d : DataArray α) (ds : List (DataArray α)) (x : DataArray α)
    (hx : x ∈ ds) (hbad : x.shape ≠ d.shape ∨ x.dims ≠ d.dims) :
    tiePointsInterpolation (d :: ds) T F = .error .valueError := by
  unfold tiePointsInterpolation
  simp only
  rw [if_neg (by omega)]
  split
  · rfl
  rw [if_neg (by omega)]
  split
  · rfl
  refine mapM_some_error (fun b _ => interpOne_cases _ _ _ _ b) (List.mem_cons_of_mem _ hx) ?_
  unfold interpOne
  rw [if_pos hbad]

end C40

/-- two arrays of two scans of two rows -/
example := C40_shape (α := Float) 2 2 8 3 (by omega) (by omega) (by omega) (by omega) ("alt", "act")
  [⟨("alt", "act"), 3, [[1, 2, 3], [4, 5, 6], [7, 8, 9], [10, 11, 12]]⟩,
   ⟨("alt", "act"), 3, [[0, 0, 0], [0, 0, 0], [0, 0, 0], [0, 0, 0]]⟩] (by simp) (by
    intro d hd
    simp only [List.mem_cons, List.not_mem_nil, or_false] at hd
    rcases hd with rfl | rfl <;> exact ⟨rfl, rfl, rfl, by simp⟩)

example : tiePointsInterpolation (α := Float) [⟨("a", "b"), 1, [[1], [2], [3]]⟩] 2 8 = .error .valueError :=
  C40_not_multiple 2 8 (by omega) _ _ (by show ¬ 2 ∣ 3; omega)

example : tiePointsInterpolation (α := Float) [⟨("a", "b"), 1, [[1], [2]]⟩, ⟨("a", "c"), 1, [[1], [2]]⟩] 2 8
    = .error .valueError :=
  C40_inconsistent 2 8 (by omega) (by omega) _ _ ⟨("a", "c"), 1, [[1], [2]]⟩ (by simp) (Or.inr (by simp))

/-! ### C41 -/

section C41
variable {K : Type} [Field K] [LinearOrder K] [IsStrictOrderedRing K]

/-- the array of the numbers `V i j` -/
def numArray (dims : String × String) (n c : Nat) (V : Nat → Nat → K) : DataArray (FP K) :=
  ⟨dims, c, (List.range n).map (fun i => (List.range c).map (fun j => val (V i j)))⟩

theorem pixel_at (F N T c : Nat) (d : DataArray (FP K)) {o : DataArray (FP K)}
    (ho : o.rows = (pixelRows N T F).map (fun r => (List.range ((c - 1) * F)).map (fun q => pixel F d r q)))
    {j p q : Nat} (hj : j < N) (hp : p < (T - 1) * F) (hq : q < (c - 1) * F) :
    o.at (j * ((T - 1) * F) + p) q = pixel F d (j * T * F + p) q := by
  unfold DataArray.at
  have h := pixelRows_get N T F j p hj hp
  simp only [ho, List.getD_eq_getElem?_getD, List.getElem?_map, h]
  simp [hq]

theorem cell_lt {k u F T : Nat} (hk : k + 1 < T) (hu : u < F) : k * F + u < (T - 1) * F := by
  calc k * F + u < k * F + F := by omega
    _ = (k + 1) * F := by ring
    _ ≤ (T - 1) * F := Nat.mul_le_mul_right _ (by omega)

/-- **C41 (partial)**: for arrays of numbers, the pixel at row `k F + u` of scan `j` and column `l F + w` is the bilinear
interpolation of the four ties of cell `(k, l)` of that scan at fractions `u/F`, `w/F`.  Missing: contents with
non-numbers, for which it is false (`C41_negation_cell`, `C41_negation_scan`). -/
theorem C41_bilinear_partial (N T F c : Nat) (hN : 1 ≤ N) (hT : 2 ≤ T) (hF : 1 ≤ F) (hc : 2 ≤ c) (dims : String × String)
    (Vs : List (Nat → Nat → K)) (hne : Vs ≠ []) :
    ∃ out, tiePointsInterpolation (Vs.map (numArray dims (N * T) c)) T F = .ok out ∧
      List.Forall₂ (fun V o => ∀ j < N, ∀ k, k + 1 < T → ∀ u < F, ∀ l, l + 1 < c → ∀ w < F,
        o.at (j * ((T - 1) * F) + (k * F + u)) (l * F + w)
          = val (Spec.bilinear V (j * T + k) l ((u : K) / F) ((w : K) / F))) Vs out := by
  refine ⟨_, vii_ok N T F c hN hT hF hc dims _ (by simpa using hne) ?_, ?_⟩
  · intro d hd
    obtain ⟨V, _, rfl⟩ := List.mem_map.1 hd
    exact ⟨rfl, rfl, by simp [numArray]⟩
  · rw [List.map_map, List.forall₂_map_right_iff, List.forall₂_same]
    intro V _ j hj k hk u hu l hl w hw
    rw [pixel_at F N T c (numArray dims (N * T) c V) rfl hj (cell_lt hk hu) (cell_lt hl hw)]
    have e : j * T * F + (k * F + u) = (j * T + k) * F + u := by ring
    rw [e]
    refine pixel_val F dims (N * T) c V (j * T + k) u l w ?_ hu hl hw
    calc j * T + k + 1 < j * T + T := by omega
      _ = (j + 1) * T := by ring
      _ ≤ N * T := Nat.mul_le_mul_right _ hj

/-- at a tie point the bilinear interpolation is the tie value -/
theorem C41_tie (V : Nat → Nat → K) (m l : Nat) (F : Nat) :
    Spec.bilinear V m l (((0 : Nat) : K) / F) (((0 : Nat) : K) / F) = V m l := by
  simp [Spec.bilinear]

example : Spec.bilinear (fun i j => (i : ℚ) * j) 3 5 ((0 : Nat) / (8 : Nat)) ((0 : Nat) / (8 : Nat)) = 15 :=
  (C41_tie _ 3 5 8).trans (by norm_num)

/-- inside a cell the bilinear interpolation lies between any bounds of the four ties -/
theorem C41_between (V : Nat → Nat → K) (m l F u w : Nat) (hu : u < F) (hw : w < F) (a b : K)
    (h : ∀ i ≤ 1, ∀ j ≤ 1, a ≤ V (m + i) (l + j) ∧ V (m + i) (l + j) ≤ b) :
    a ≤ Spec.bilinear V m l ((u : K) / F) ((w : K) / F) ∧ Spec.bilinear V m l ((u : K) / F) ((w : K) / F) ≤ b := by
  have frac : ∀ x : Nat, x < F → 0 ≤ (x : K) / F ∧ 0 ≤ 1 - (x : K) / F := by
    intro x hx
    have h0 : (0 : K) < F := by exact_mod_cast (by omega : 0 < F)
    refine ⟨div_nonneg (Nat.cast_nonneg _) h0.le, sub_nonneg.2 ((div_le_one h0).2 ?_)⟩
    exact_mod_cast hx.le
  obtain ⟨t0, t1⟩ := frac u hu
  obtain ⟨s0, s1⟩ := frac w hw
  set t := (u : K) / F
  set s := (w : K) / F
  obtain ⟨a1, b1⟩ := h 0 (by omega) 0 (by omega)
  obtain ⟨a2, b2⟩ := h 0 (by omega) 1 (by omega)
  obtain ⟨a3, b3⟩ := h 1 (by omega) 0 (by omega)
  obtain ⟨a4, b4⟩ := h 1 (by omega) 1 (by omega)
  simp only [Nat.add_zero] at *
  have mix : ∀ {r x y : K}, 0 ≤ r → 0 ≤ 1 - r → a ≤ x → x ≤ b → a ≤ y → y ≤ b →
      a ≤ (1 - r) * x + r * y ∧ (1 - r) * x + r * y ≤ b := by
    intro r x y hr hr1 h1 h2 h3 h4
    constructor
    · have := mul_le_mul_of_nonneg_left h1 hr1
      have := mul_le_mul_of_nonneg_left h3 hr
      linarith
    · have := mul_le_mul_of_nonneg_left h2 hr1
      have := mul_le_mul_of_nonneg_left h4 hr
      linarith
  obtain ⟨c1, d1⟩ := mix s0 s1 a1 b1 a2 b2
  obtain ⟨c2, d2⟩ := mix s0 s1 a3 b3 a4 b4
  exact mix t0 t1 c1 d1 c2 d2

example : (15 : ℚ) ≤ Spec.bilinear (fun i j => (i : ℚ) * j) 3 5 ((7 : Nat) / (8 : Nat)) ((2 : Nat) / (8 : Nat)) ∧
    Spec.bilinear (fun i j => (i : ℚ) * j) 3 5 ((7 : Nat) / (8 : Nat)) ((2 : Nat) / (8 : Nat)) ≤ 24 :=
  C41_between _ 3 5 8 7 2 (by omega) (by omega) 15 24 (by
    intro i hi j hj
    have hi' : i = 0 ∨ i = 1 := by omega
    have hj' : j = 0 ∨ j = 1 := by omega
    rcases hi' with rfl | rfl <;> rcases hj' with rfl | rfl <;> norm_num)

/-- **C41 (scans, partial)**: for any content, a pixel that is not in the first pixel row of a later scan depends only on
the ties of its own scan.  Missing: the first pixel row of a later scan, for which it is false
(`C41_negation_scan`). -/
theorem C41_scan_local_partial (N T F c : Nat) (hN : 1 ≤ N) (hT : 2 ≤ T) (hF : 1 ≤ F) (hc : 2 ≤ c)
    (d d' : DataArray (FP K)) (hd : ViiShape N T c d) (hd' : ViiShape N T c d') (j : Nat) (hj : j < N)
    (hsame : ∀ i < T, d.rows.getD (j * T + i) [] = d'.rows.getD (j * T + i) []) :
    ∃ o o', tiePointsInterpolation [d] T F = .ok [o] ∧ tiePointsInterpolation [d'] T F = .ok [o'] ∧
      ∀ p < (T - 1) * F, (0 < p ∨ j = 0) → ∀ q < (c - 1) * F,
        o.at (j * ((T - 1) * F) + p) q = o'.at (j * ((T - 1) * F) + p) q := by
  have ok := fun (x : DataArray (FP K)) (hx : ViiShape N T c x) => vii_ok N T F c hN hT hF hc x.dims [x] (by simp)
    (by intro y hy; rw [List.mem_singleton.1 hy]; exact ⟨rfl, hx.1, hx.2.1⟩)
  refine ⟨_, _, ok d hd, ok d' hd', ?_⟩
  intro p hp hpj q hq
  rw [pixel_at F N T c d rfl hj hp hq, pixel_at F N T c d' rfl hj hp hq]
  obtain ⟨k, u, hu, rfl⟩ : ∃ k u, u < F ∧ p = k * F + u :=
    ⟨p / F, p % F, Nat.mod_lt _ (by omega), by rw [Nat.mul_comm]; exact (Nat.div_add_mod p F).symm⟩
  have hk : k + 1 < T := by
    by_contra h
    have : (T - 1) * F ≤ k * F := Nat.mul_le_mul_right _ (by omega)
    omega
  have e : j * T * F + (k * F + u) = (j * T + k) * F + u := by ring
  have hbound : j * T + k + 1 < N * T := by
    calc j * T + k + 1 < j * T + T := by omega
      _ = (j + 1) * T := by ring
      _ ≤ N * T := Nat.mul_le_mul_right _ hj
  rw [e]
  unfold pixel
  rw [hd.1, hd'.1, hd.2.1, hd'.2.1]
  congr 1
  apply List.map_congr_left
  intro l _
  rw [interp1_tie _ F _ u _ hbound hu, interp1_tie _ F _ u _ hbound hu]
  have hcol : ∀ i < T, (d.col l).getD (j * T + i) 0 = (d'.col l).getD (j * T + i) 0 := by
    intro i hi
    have hlt : j * T + i < N * T := by
      calc j * T + i < j * T + T := by omega
        _ = (j + 1) * T := by ring
        _ ≤ N * T := Nat.mul_le_mul_right _ hj
    have hs := hsame i hi
    have g : ∀ x : DataArray (FP K), ViiShape N T c x →
        (x.col l).getD (j * T + i) 0 = (x.rows.getD (j * T + i) []).getD l 0 := by
      intro x hx
      have : j * T + i < x.rows.length := by rw [hx.2.1]; exact hlt
      simp [DataArray.col, this]
    rw [g d hd, g d' hd', hs]
  unfold Vii.segment
  have hlo : ∃ i, i + 1 < T ∧ below (j * T + k) u = j * T + i := by
    unfold below
    split
    · rename_i h0
      rcases Nat.eq_zero_or_pos k with rfl | hkp
      · have hj0 : j = 0 := by
          rcases hpj with h | h
          · simp [h0] at h
          · exact h
        subst hj0
        exact ⟨0, by omega, by simp⟩
      · exact ⟨k - 1, by omega, by omega⟩
    · exact ⟨k, hk, rfl⟩
  obtain ⟨i, hi, hie⟩ := hlo
  rw [hie, hcol i (by omega), show j * T + i + 1 = j * T + (i + 1) from rfl, hcol (i + 1) hi]

/-- the two granules differ in the first scan only -/
example := C41_scan_local_partial (K := ℚ) 2 2 8 2 (by omega) (by omega) (by omega) (by omega)
  ⟨("alt", "act"), 2, [[val 0, val 1], [val 2, val 3], [val 4, bad], [val 6, val 7]]⟩
  ⟨("alt", "act"), 2, [[val 9, bad], [val 9, val 9], [val 4, bad], [val 6, val 7]]⟩ ⟨rfl, rfl, by simp⟩ ⟨rfl, rfl, by simp⟩ 1 (by omega)
  (by
    intro i hi
    have hi' : i = 0 ∨ i = 1 := by omega
    rcases hi' with rfl | rfl <;> rfl)

end C41

/-- Two by three ties with a non-number in the first column: -/
def viiHole : DataArray (FP ℚ) := ⟨("alt", "act"), 3, [[bad, val 1, val 2], [val 1, val 1, val 1]]⟩

/-- **C41 (negation, cell)**: the four ties of the second cell are numbers, the pixel at its first corner is not. -/
theorem C41_negation_cell : tiePointsInterpolation [viiHole] 2 1
    = .ok [⟨("alt", "act"), 2, [[bad, bad]]⟩] := by
  simp [tiePointsInterpolation, viiHole, DataArray.shape, interpOne, interpAlt, interpAct, pixelRows, tieGrid, nums, interp1,
    searchsorted, List.range_succ, List.mapM_cons, bind, Except.bind, pure, Except.pure]

/-- the last tie row of the first scan is `x` -/
def viiScans (x : FP ℚ) : DataArray (FP ℚ) :=
  ⟨("alt", "act"), 2, [[val 0, val 0], [x, x], [val 2, val 2], [val 3, val 3]]⟩

/-- **C41 (negation, scans)**: two scans of two tie rows; the tie rows of the second scan are numbers, and its first pixel
row is a number or not depending on the last tie row of the first scan. -/
theorem C41_negation_scan :
    tiePointsInterpolation [viiScans (val 1)] 2 1 = .ok [⟨("alt", "act"), 1, [[val 0], [val 2]]⟩] ∧
    tiePointsInterpolation [viiScans bad] 2 1 = .ok [⟨("alt", "act"), 1, [[bad], [bad]]⟩] := by
  constructor <;>
  · simp [tiePointsInterpolation, viiScans, DataArray.shape, interpOne, interpAlt, interpAct, pixelRows, tieGrid, nums,
      interp1, searchsorted, List.range_succ, List.mapM_cons, bind, Except.bind, pure, Except.pure]
    try norm_num

/-- three scans of two arrays -/
example := C41_bilinear_partial (K := ℚ) 3 2 8 4 (by omega) (by omega) (by omega) (by omega) ("alt", "act")
  [fun i j => (i : ℚ) + j, fun i j => (i : ℚ) * j] (by simp)

end Verif.Props
