import Verif.Spec.Bilinear
import Verif.Proofs.ModisSimple

namespace Verif.Spec

theorem lin1_cell {n c : Nat} {x : ℝ} (g : Nat → ℝ) (h : c + 2 ≤ n) (lo : c = 0 ∨ (c : ℝ) ≤ x)
    (hi : c + 2 = n ∨ x ≤ c + 1) : lin1 n g x = (1 - (x - c)) * g c + (x - c) * g (c + 1) := by
  by_cases hc : cell1 n x = c
  · unfold lin1; rw [hc]
  · -- the only other possibility: `x = c + 1`, the first point of the next cell
    have h1 : ¬ x < c ∨ c = 0 := by rcases lo with h | h; exacts [Or.inr h, Or.inl (not_lt.mpr h)]
    have hne : c + 2 ≠ n := by
      intro h2
      apply hc
      unfold cell1
      rcases lo with h | h
      · omega
      · have := Nat.le_floor h; omega
    have hle : x ≤ c + 1 := hi.resolve_left hne
    have hfl : ⌊x⌋₊ ≤ c + 1 := by
      apply Nat.floor_le_of_le; push_cast; exact hle
    have hge : c ≤ ⌊x⌋₊ := by
      rcases lo with h | h
      · omega
      · exact Nat.le_floor h
    have hfx : ⌊x⌋₊ = c + 1 := by
      unfold cell1 at hc; omega
    have hx : x = c + 1 := by
      apply le_antisymm hle
      have := Nat.floor_le (a := x) (by
        by_contra hneg
        rw [Nat.floor_of_nonpos (by linarith)] at hfx; omega)
      rw [hfx] at this; push_cast at this; exact this
    have hcell : cell1 n x = c + 1 := by unfold cell1; omega
    unfold lin1
    rw [hcell, hx]; push_cast; ring

end Verif.Spec

namespace Verif.ModisSimple
open Verif FP Spec Verif.Spec.ModisSimple

/-- linear interpolation with limited coordinate, as computed by the library -/
theorem lib_lin1 {n : Nat} (hn : 2 ≤ n) (g : Nat → ℝ) (x : ℝ) :
    (1 - (clampTo n x - (⌊clampTo n x⌋₊ : ℝ))) * g ⌊clampTo n x⌋₊
      + (clampTo n x - (⌊clampTo n x⌋₊ : ℝ)) * g (min (⌊clampTo n x⌋₊ + 1) (n - 1)) = lin1 n g (clampTo n x) := by
  set z := clampTo n x with hz
  have h0 : 0 ≤ z := le_max_left _ _
  have h1 : z ≤ (n : ℝ) - 1 := by
    have : (2 : ℝ) ≤ n := by exact_mod_cast hn
    exact max_le (by linarith) (min_le_right _ _)
  have hf := Nat.floor_le h0
  have hf2 := Nat.lt_floor_add_one z
  by_cases c : ⌊z⌋₊ + 2 ≤ n
  · rw [lin1_cell g c (Or.inr hf) (Or.inr hf2.le), show min (⌊z⌋₊ + 1) (n - 1) = ⌊z⌋₊ + 1 by omega]
  · have h2 : ⌊z⌋₊ = n - 1 := by
      have : ((⌊z⌋₊ + 1 : ℕ) : ℝ) ≤ n := by push_cast; linarith
      have : ⌊z⌋₊ + 1 ≤ n := by exact_mod_cast this
      omega
    have h3 : z = (n : ℝ) - 1 := by
      rw [h2, Nat.cast_sub (by omega)] at hf; push_cast at hf; linarith
    rw [lin1_cell (c := n - 2) g (by omega)
      (Or.inr (by rw [h3, Nat.cast_sub hn]; push_cast; linarith)) (Or.inl (by omega)), h2, h3,
      show n - 2 + 1 = n - 1 by omega, show min (n - 1 + 1) (n - 1) = n - 1 by omega,
      Nat.cast_sub hn, Nat.cast_sub (show 1 ≤ n by omega)]
    push_cast; ring

theorem mcLinear_val {R C : Nat} (hR : 2 ≤ R) (hC : 2 ≤ C) (V : Nat → Nat → ℝ) (y x : ℝ) :
    mcLinear R C (fun a b => val (V a b)) (val y) (val x)
      = val (lin1 R (fun a => lin1 C (V a) (clampTo C x)) (clampTo R y)) := by
  have hfl : ∀ {n : Nat} (_ : 2 ≤ n) (z : ℝ), ⌊clampTo n z⌋₊ < n := by
    intro n hn z
    have h2 : (2 : ℝ) ≤ n := by exact_mod_cast hn
    rw [Nat.floor_lt (show 0 ≤ clampTo n z from le_max_left _ _)]
    have : clampTo n z ≤ (n : ℝ) - 1 := max_le (by linarith) (min_le_right _ _)
    linarith
  have e1 := hfl hR y
  have e2 := hfl hC x
  rw [← lib_lin1 hR]
  simp only [← lib_lin1 hC]
  simp only [mcLinear]
  rw [dif_pos ⟨e1, e2⟩, dif_pos ⟨e1, by omega⟩, dif_pos ⟨by omega, e2⟩, dif_pos ⟨by omega, by omega⟩]
  simp only [val_mul, val_add]
  congr 1
  ring

theorem coordY_val {f : Nat} (hf : Factor f) (j : Nat) :
    (coordY f j : FP ℝ) = val (((j : ℝ) + 1 / 2) / f - 1 / 2) := by
  rcases hf with rfl | rfl <;>
  · unfold coordY
    simp only [one_eq, ofNat_eq, ofInt_eq]
    rw [val_div_of_ne _ (by norm_num), val_div_of_ne _ (by norm_num), val_div_of_ne _ (by norm_num)]
    simp only [val_mul, val_add, val_sub]
    congr 1; push_cast; ring

theorem coordX_val {f : Nat} (hf : Factor f) (i : Nat) : (coordX f i : FP ℝ) = val ((i : ℝ) / f) := by
  rcases hf with rfl | rfl <;>
  · unfold coordX
    simp only [one_eq, ofInt_eq]
    rw [val_div_of_ne _ (by norm_num)]
    simp only [val_mul]
    congr 1; push_cast; ring

/-- position of fine row `j` of a scan, in tie rows -/
noncomputable def yPos (f j : Nat) : ℝ := ((j : ℝ) + 1 / 2) / f - 1 / 2

theorem base_val {f C : Nat} (hf : Factor f) (hC : 2 ≤ C) (V : Nat → Nat → ℝ) (j i : Nat) :
    base mcLinear f C (fun a b => val (V a b)) j i
      = val (lin1 10 (fun a => lin1 C (V a) (clampTo C ((i : ℝ) / f))) (clampTo 10 (yPos f j))) := by
  unfold base
  rw [coordY_val hf, coordX_val hf]
  exact mcLinear_val (by omega) hC V _ _

theorem clampTo_mid {n : Nat} {x : ℝ} (h0 : 0 ≤ x) (h1 : x ≤ (n : ℝ) - 1) : clampTo n x = x := by
  unfold clampTo; rw [min_eq_left h1, max_eq_right h0]

theorem clampTo_hi {n : Nat} {x : ℝ} (hn : 1 ≤ n) (h1 : (n : ℝ) - 1 ≤ x) : clampTo n x = (n : ℝ) - 1 := by
  have : (1 : ℝ) ≤ n := by exact_mod_cast hn
  unfold clampTo; rw [min_eq_right h1, max_eq_right (by linarith)]

/-- one row: the library value corrected on the right is the continued linear interpolation -/
theorem right_row {f C : Nat} (hf : Factor f) (hC : 2 ≤ C) (g : Nat → ℝ) (i : Nat) (hi : i < f * C) :
    (if f * C - nRight f ≤ i then
      lin1 C g (clampTo C ((i : ℝ) / f)) + (lin1 C g (clampTo C (((f * C - nRight f - 1 : ℕ) : ℝ) / f))
        - lin1 C g (clampTo C (((f * C - nRight f - 2 : ℕ) : ℝ) / f))) * ((i - (f * C - nRight f) : ℕ) + 1)
     else lin1 C g (clampTo C ((i : ℝ) / f))) = lin1 C g ((i : ℝ) / f) := by
  have hf0 : (0 : ℝ) < f := by rcases hf with rfl | rfl <;> norm_num
  have hn : nRight f + 1 = f := by rcases hf with rfl | rfl <;> simp [nRight]
  have hf2 : 2 ≤ f := by rcases hf with rfl | rfl <;> omega
  obtain ⟨C', rfl⟩ : ∃ C', C = C' + 2 := ⟨C - 2, by omega⟩
  have hq : f * (C' + 2) = f * C' + f + f := by ring
  have hcast : ((C' + 2 : ℕ) : ℝ) - 1 = C' + 1 := by push_cast; ring
  split
  · rename_i hge
    -- the last tie column and the fine column before it
    have e1 : ((f * (C' + 2) - nRight f - 1 : ℕ) : ℝ) / f = (C' : ℝ) + 1 := by
      rw [show f * (C' + 2) - nRight f - 1 = f * (C' + 1) by rw [hq, Nat.mul_add]; omega]
      push_cast; field_simp
    have e2 : ((f * (C' + 2) - nRight f - 2 : ℕ) : ℝ) / f = (C' : ℝ) + 1 - 1 / f := by
      rw [show f * (C' + 2) - nRight f - 2 = f * (C' + 1) - 1 by rw [hq, Nat.mul_add]; omega,
        Nat.cast_sub (by rw [Nat.mul_add]; omega)]
      push_cast; field_simp
    have e3 : ((i - (f * (C' + 2) - nRight f) : ℕ) : ℝ) + 1 = (i : ℝ) - f * (C' + 1) := by
      have : i - (f * (C' + 2) - nRight f) + 1 + f * (C' + 1) = i := by rw [hq, Nat.mul_add]; rw [hq] at hge hi; omega
      have h2 : (((i - (f * (C' + 2) - nRight f) + 1 + f * (C' + 1) : ℕ)) : ℝ) = i := by exact_mod_cast this
      push_cast at h2
      linarith
    have hinv : 1 / (f : ℝ) ≤ 1 := by
      rw [div_le_one hf0]; exact_mod_cast (by omega : 1 ≤ f)
    have hinv0 : 0 < 1 / (f : ℝ) := by positivity
    have hC0 : (0 : ℝ) ≤ C' := Nat.cast_nonneg _
    have hix : (C' : ℝ) + 1 ≤ (i : ℝ) / f := by
      rw [le_div_iff₀ hf0]
      have : f * (C' + 1) ≤ i := by rw [Nat.mul_add]; rw [hq] at hge; omega
      have h2 : ((f * (C' + 1) : ℕ) : ℝ) ≤ i := by exact_mod_cast this
      push_cast at h2; linarith
    rw [e1, e2, e3, clampTo_hi (by omega) (by rw [hcast]; exact hix), hcast,
      clampTo_mid (by linarith) (by rw [hcast]), clampTo_mid (by linarith) (by rw [hcast]; linarith),
      lin1_cell (c := C') g (by omega) (Or.inr (by linarith)) (Or.inl rfl),
      lin1_cell (c := C') g (by omega) (Or.inr (by linarith)) (Or.inl rfl),
      lin1_cell (c := C') g (by omega) (Or.inr (by linarith)) (Or.inl rfl)]
    field_simp
    ring
  · rename_i hlt
    rw [clampTo_mid (by positivity) ?_]
    rw [hcast, div_le_iff₀ hf0]
    have : i ≤ f * (C' + 1) := by rw [Nat.mul_add]; omega
    have h2 : (i : ℝ) ≤ ((f * (C' + 1) : ℕ) : ℝ) := by exact_mod_cast this
    push_cast at h2; linarith

theorem right_val {f C : Nat} (hf : Factor f) (hC : 2 ≤ C) (V : Nat → Nat → ℝ) (j i : Nat) (hi : i < f * C) :
    right mcLinear f C (fun a b => val (V a b)) j i
      = val (lin1 10 (fun a => lin1 C (V a) ((i : ℝ) / f)) (clampTo 10 (yPos f j))) := by
  unfold right
  simp only [base_val hf hC, ofInt_eq, val_sub, val_mul, val_add]
  rw [← apply_ite val]
  congr 1
  simp only [← right_row hf hC _ i hi]
  unfold lin1
  split
  · push_cast; ring
  · rfl

/-- the straight line through two points of a cell is the continued linear interpolation of that cell -/
theorem line_val {f c o : Nat} (hf : Factor f) (st : Nat) (hst : 0 < st) (hc : c + 2 ≤ 10) (h : Nat → ℝ)
    (v : Nat → FP ℝ) (h1 : v o = val (lin1 10 h (clampTo 10 (yPos f o))))
    (h2 : v (o + st) = val (lin1 10 h (clampTo 10 (yPos f (o + st)))))
    (lo : (c : ℝ) ≤ yPos f o) (hi : yPos f (o + st) ≤ c + 1) (j : Nat) :
    line f st o v j = val ((1 - (yPos f j - c)) * h c + (yPos f j - c) * h (c + 1)) := by
  have hf0 : (0 : ℝ) < f := by rcases hf with rfl | rfl <;> norm_num
  have hst0 : (0 : ℝ) < st := by exact_mod_cast hst
  have hd : yPos f (o + st) - yPos f o = st / f := by unfold yPos; push_cast; field_simp; ring
  have hpos : 0 < yPos f (o + st) - yPos f o := by rw [hd]; positivity
  have hc0 : (0 : ℝ) ≤ c := Nat.cast_nonneg _
  have hc9 : (c : ℝ) + 1 ≤ 9 := by
    have : ((c + 2 : ℕ) : ℝ) ≤ 10 := by exact_mod_cast hc
    push_cast at this; linarith
  unfold line
  rw [h1, h2, coordY_val hf, coordY_val hf, coordY_val hf]
  simp only [← yPos.eq_1]
  rw [clampTo_mid (by linarith) (by push_cast; linarith), clampTo_mid (by linarith) (by push_cast; linarith),
    lin1_cell (c := c) h hc (Or.inr lo) (Or.inr (by linarith)),
    lin1_cell (c := c) h hc (Or.inr (by linarith)) (Or.inr hi)]
  simp only [val_sub]
  rw [val_div_of_ne _ hpos.ne']
  simp only [val_mul, val_sub, val_add]
  congr 1
  have := hpos.ne'
  field_simp
  ring

/-- **the fine pixel of the code is the bilinear interpolation at the pixel's position** -/
theorem fine_val {f C : Nat} (hf : Factor f) (hC : 2 ≤ C) (V : Nat → Nat → ℝ) (j i : Nat) (hj : j < 10 * f)
    (hi : i < f * C) :
    fine mcLinear f C (fun a b => val (V a b)) j i = val (bilinExt 10 C V (yPos f j) ((i : ℝ) / f)) := by
  have hr := fun r => right_val hf hC V r i hi
  unfold fine bilinExt
  split
  · rename_i h
    rw [line_val hf (c := 0) (o := f / 2) (step f) (by unfold step; split <;> omega) (by omega)
      (fun a => lin1 C (V a) ((i : ℝ) / f)) _ (hr _) (hr _)
      (by rcases hf with rfl | rfl <;> norm_num [yPos]) (by rcases hf with rfl | rfl <;> norm_num [yPos, step]),
      lin1_cell (c := 0) (n := 10) (x := yPos f j) _ (by omega) (Or.inl rfl) (Or.inr ?_)]
    have hj1 : ((j + 1 : ℕ) : ℝ) ≤ f / 2 := by
      rcases hf with rfl | rfl
      · have : j + 1 ≤ 1 := by omega
        have : ((j + 1 : ℕ) : ℝ) ≤ 1 := by exact_mod_cast this
        norm_num at this ⊢; exact this
      · have : j + 1 ≤ 2 := by omega
        have : ((j + 1 : ℕ) : ℝ) ≤ 2 := by exact_mod_cast this
        norm_num at this ⊢; linarith
    unfold yPos
    have hf0 : (0 : ℝ) < f := by rcases hf with rfl | rfl <;> norm_num
    have : ((j : ℝ) + 1 / 2) / f ≤ 1 / 2 := by
      rw [div_le_iff₀ hf0]; push_cast at hj1; linarith
    rw [Nat.cast_zero]; linarith
  · rename_i h
    split
    · rename_i h2
      rw [line_val hf (c := 8) (o := 10 * f - f / 2 - step f - 1) (step f) (by unfold step; split <;> omega)
        (by omega) (fun a => lin1 C (V a) ((i : ℝ) / f)) _ (hr _) (hr _)
        (by rcases hf with rfl | rfl <;> norm_num [yPos, step]) (by rcases hf with rfl | rfl <;> norm_num [yPos, step]),
        lin1_cell (c := 8) (n := 10) (x := yPos f j) _ (by omega) (Or.inr ?_) (Or.inl rfl)]
      unfold yPos
      rcases hf with rfl | rfl
      · have : 19 ≤ j := by omega
        have : (19 : ℝ) ≤ j := by exact_mod_cast this
        push_cast; linarith
      · have : 38 ≤ j := by omega
        have : (38 : ℝ) ≤ j := by exact_mod_cast this
        push_cast; linarith
    · rename_i h2
      rw [hr, clampTo_mid]
      · unfold yPos
        rcases hf with rfl | rfl
        · have : 1 ≤ j := by omega
          have : (1 : ℝ) ≤ j := by exact_mod_cast this
          push_cast; linarith
        · have : 2 ≤ j := by omega
          have : (2 : ℝ) ≤ j := by exact_mod_cast this
          push_cast; linarith
      · unfold yPos
        rcases hf with rfl | rfl
        · have : j ≤ 18 := by omega
          have : (j : ℝ) ≤ 18 := by exact_mod_cast this
          push_cast; linarith
        · have : j ≤ 37 := by omega
          have : (j : ℝ) ≤ 37 := by exact_mod_cast this
          push_cast; linarith

end Verif.ModisSimple
