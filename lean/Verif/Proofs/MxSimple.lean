import Verif.Spec.SimpleErr
import Verif.Proofs.MxWeights
import Verif.Proofs.ModisSimpleNum

/-!
# Rounding errors of the simple MODIS interpolation (mixed precision)
-/

namespace Verif.Mx
open Verif Verif.ModisSimple Verif.Spec Verif.Spec.ModisSimple Verif.Err
variable {q : Mixed} {ε : ℝ}

/-! ### the coordinates are exact -/

private theorem rep_dyadic {p : Nat} {m : ℤ} {k : ℤ} {x : ℝ} (hx : x = (m : ℝ) * (2 : ℝ) ^ k) (hm : |m| < 2 ^ p) : Rep p x :=
  ⟨m, k, hm, hx⟩

private theorem rnd_eighth {r : Rounding} (hp : 12 ≤ r.p) {m : ℤ} {x : ℝ} (hx : x = (m : ℝ) / 16) (hm : |m| < 4096) : r.rnd x = x := by
  apply r.rnd_rep
  refine rep_dyadic (m := m) (k := -4) (by rw [hx]; norm_num; ring) (lt_of_lt_of_le hm ?_)
  calc (4096 : ℤ) = 2 ^ 12 := by norm_num
    _ ≤ 2 ^ r.p := pow_le_pow_right₀ (by norm_num) hp

theorem simple_coordY (hp : 12 ≤ q.s.p) {f : Nat} (hf : Factor f) {j : Nat} (hj : j < 10 * f) :
    (coordY f j : Mx q) = sgl (yPos f j) := by
  have hd : 12 ≤ q.d.p := hp.trans q.le
  have i1 : ∀ n : ℕ, n < 100 → q.d.rnd ((n : ℤ) : ℝ) = n := by
    intro n hn
    have := rnd_eighth (r := q.d) hd (m := 16 * n) (x := n) (by push_cast; ring) (by rw [abs_of_nonneg (by positivity)]; omega)
    simpa using this
  have dv : ∀ n : ℕ, 0 < n → n < 100 → (1 / Arith.ofInt (n : ℤ) : Mx q) = dbl (q.d.rnd (1 / n)) := by
    intro n h0 hn
    show divD (q.d.rnd ((1 : ℤ) : ℝ)) (q.d.rnd ((n : ℤ) : ℝ)) = _
    have h1 := i1 1 (by norm_num)
    rw [i1 n hn]
    norm_num at h1
    unfold divD
    rw [if_neg (by positivity)]
    norm_num [h1]
  have e16 : (1 / 16 : Mx q) = dbl (1 / 16) := by
    have := dv 16 (by norm_num) (by norm_num)
    rw [rnd_eighth hd (m := 1) (by norm_num) (by norm_num)] at this
    exact this
  have e8 : (1 / 8 : Mx q) = dbl (1 / 8) := by
    have := dv 8 (by norm_num) (by norm_num)
    rw [rnd_eighth hd (m := 2) (by norm_num) (by norm_num)] at this
    exact this
  unfold coordY
  rw [e16, e8, dv f (by rcases hf with rfl | rfl <;> norm_num) (by rcases hf with rfl | rfl <;> norm_num), ofInt_eq, ofInt_eq, id_mul, id_mul,
    i1 j (by rcases hf with rfl | rfl <;> omega), i1 f (by rcases hf with rfl | rfl <;> omega), dd_add, dd_sub, toFloating_dbl]
  congr 1
  unfold yPos
  have hj0 : (0 : ℤ) ≤ j := by positivity
  rcases hf with rfl | rfl
  · rw [rnd_eighth hd (m := 8) (x := 1 / (2 : ℕ)) (by norm_num) (by norm_num),
      rnd_eighth hd (m := 8 * j) (x := (j : ℝ) * (1 / (2 : ℕ))) (by push_cast; ring) (by rw [abs_of_nonneg (by positivity)]; omega),
      rnd_eighth hd (m := 2) (x := (2 : ℕ) * (1 / 16)) (by norm_num) (by norm_num),
      rnd_eighth hd (m := 4) (x := (2 : ℕ) * (1 / 16) + 1 / 8) (by norm_num) (by norm_num),
      rnd_eighth hd (m := 8 * j - 4) (x := (j : ℝ) * (1 / (2 : ℕ)) - ((2 : ℕ) * (1 / 16) + 1 / 8)) (by push_cast; ring) (by rw [abs_lt]; constructor <;> omega),
      rnd_eighth hp (m := 8 * j - 4) (x := (j : ℝ) * (1 / (2 : ℕ)) - ((2 : ℕ) * (1 / 16) + 1 / 8)) (by push_cast; ring) (by rw [abs_lt]; constructor <;> omega)]
    push_cast; ring
  · rw [rnd_eighth hd (m := 4) (x := 1 / (4 : ℕ)) (by norm_num) (by norm_num),
      rnd_eighth hd (m := 4 * j) (x := (j : ℝ) * (1 / (4 : ℕ))) (by push_cast; ring) (by rw [abs_of_nonneg (by positivity)]; omega),
      rnd_eighth hd (m := 4) (x := (4 : ℕ) * (1 / 16)) (by norm_num) (by norm_num),
      rnd_eighth hd (m := 6) (x := (4 : ℕ) * (1 / 16) + 1 / 8) (by norm_num) (by norm_num),
      rnd_eighth hd (m := 4 * j - 6) (x := (j : ℝ) * (1 / (4 : ℕ)) - ((4 : ℕ) * (1 / 16) + 1 / 8)) (by push_cast; ring) (by rw [abs_lt]; constructor <;> omega),
      rnd_eighth hp (m := 4 * j - 6) (x := (j : ℝ) * (1 / (4 : ℕ)) - ((4 : ℕ) * (1 / 16) + 1 / 8)) (by push_cast; ring) (by rw [abs_lt]; constructor <;> omega)]
    push_cast; ring

theorem simple_coordX (hp : 12 ≤ q.s.p) {f : Nat} (hf : Factor f) {i : Nat} (hi : i < 2 ^ q.s.p) :
    (coordX f i : Mx q) = sgl ((i : ℝ) / f) := by
  have hd : 12 ≤ q.d.p := hp.trans q.le
  have hi' : |(i : ℤ)| < 2 ^ q.s.p := by rw [abs_of_nonneg (by positivity)]; exact_mod_cast hi
  have hs : Rep q.s.p ((i : ℝ) / f) := by
    rcases hf with rfl | rfl
    · exact rep_dyadic (m := i) (k := -1) (by norm_num; ring) hi'
    · exact rep_dyadic (m := i) (k := -2) (by norm_num; ring) hi'
  have hn : Rep q.d.p (i : ℝ) := rep_d (rep_dyadic (m := i) (k := 0) (by norm_num) hi')
  have h1 : q.d.rnd ((1 : ℤ) : ℝ) = 1 := by
    rw [rnd_eighth hd (m := 16) (by norm_num) (by norm_num)]; norm_num
  have hfr : q.d.rnd ((f : ℤ) : ℝ) = f := by
    rcases hf with rfl | rfl
    · rw [rnd_eighth hd (m := 32) (by norm_num) (by norm_num)]; norm_num
    · rw [rnd_eighth hd (m := 64) (by norm_num) (by norm_num)]; norm_num
  have hf0 : (f : ℝ) ≠ 0 := by rcases hf with rfl | rfl <;> norm_num
  have hq : q.d.rnd (1 / (f : ℝ)) = 1 / f := by
    rcases hf with rfl | rfl
    · exact rnd_eighth hd (m := 8) (by norm_num) (by norm_num)
    · exact rnd_eighth hd (m := 4) (by norm_num) (by norm_num)
  have dv : (1 / Arith.ofInt (f : ℤ) : Mx q) = dbl (1 / f) := by
    show divD (q.d.rnd ((1 : ℤ) : ℝ)) (q.d.rnd ((f : ℤ) : ℝ)) = _
    unfold divD
    rw [hfr, if_neg hf0, h1, hq]
  unfold coordX
  rw [dv, ofInt_eq, id_mul, toFloating_dbl]
  have e1 : q.d.rnd ((i : ℤ) : ℝ) = i := by
    rw [Int.cast_natCast, q.d.rnd_rep hn]
  rw [e1, mul_one_div, q.d.rnd_rep (rep_d hs), q.s.rnd_rep hs]

/-! ### errors -/

/-- extrapolation to the right -/
theorem right_err (h : Prec q ε) {v v1 v2 A B M w W e : ℝ} {k : ℕ} (hk : k ≤ 3) (hv : |v - A| ≤ e) (h1 : |v1 - A| ≤ e) (h2 : |v2 - B| ≤ e)
    (hA : |A| ≤ M) (hw : |A - B| ≤ w) (hkw : k * w ≤ 0.75 * W) (hW : 0 ≤ W) :
    |q.s.rnd (v + q.s.rnd (q.s.rnd (v1 - v2) * q.s.rnd ((k : ℤ) : ℝ))) - (A + (A - B) * k)| ≤ 7.01 * e + ε * M + 3 * ε * W := by
  have h0 := h.pos
  have hε := h.le'
  have he : 0 ≤ e := (abs_nonneg _).trans hv
  have hw0 : 0 ≤ w := (abs_nonneg _).trans hw
  have hM : 0 ≤ M := (abs_nonneg _).trans hA
  have hkr : q.s.rnd ((k : ℤ) : ℝ) = k := by
    rw [rnd_eighth h.hp (m := 16 * k) (by push_cast; ring) (by rw [abs_of_nonneg (by positivity)]; omega), Int.cast_natCast]
  have hk3 : (k : ℝ) ≤ 3 := by exact_mod_cast hk
  have hk0 : (0 : ℝ) ≤ k := Nat.cast_nonneg k
  rw [hkr]
  have d0 : |v1 - v2 - (A - B)| ≤ 2 * e := by
    have a := abs_le.1 h1; have b := abs_le.1 h2
    exact abs_le.2 ⟨by linarith, by linarith⟩
  have d1 := h.rs hw d0
  obtain ⟨d, ed⟩ : ∃ d, d = q.s.rnd (v1 - v2) := ⟨_, rfl⟩
  rw [← ed] at d1 ⊢
  have d2 : |d * k - (A - B) * k| ≤ 6.0001 * e + 0.75 * ε * W := by
    rw [← sub_mul, abs_mul, abs_of_nonneg hk0]
    have e1 := mul_le_mul_of_nonneg_right d1 hk0
    have e2 : (k : ℝ) * e ≤ 3 * e := mul_le_mul_of_nonneg_right hk3 he
    have e3 : (k * w) * ε ≤ (0.75 * W) * ε := mul_le_mul_of_nonneg_right hkw h0.le
    have e4 : (k * e) * ε ≤ (3 * e) * 0.000001 := mul_le_mul e2 hε h0.le (by positivity)
    norm_num at *
    nlinarith
  have m2 : |(A - B) * k| ≤ 0.75 * W := by
    rw [abs_mul, abs_of_nonneg hk0]
    calc _ ≤ w * k := mul_le_mul_of_nonneg_right hw hk0
      _ ≤ _ := by linarith
  have d3 := h.rs m2 d2
  obtain ⟨g, eg⟩ : ∃ g, g = q.s.rnd (d * k) := ⟨_, rfl⟩
  rw [← eg] at d3 ⊢
  have eW : ε * W ≤ 0.000001 * W := mul_le_mul_of_nonneg_right hε hW
  have ee : e * ε ≤ e * 0.000001 := mul_le_mul_of_nonneg_left hε he
  have eeW : (ε * W) * ε ≤ (ε * W) * 0.000001 := mul_le_mul_of_nonneg_left hε (by positivity)
  have eee : (e * ε) * ε ≤ (e * 0.000001) * 0.000001 := mul_le_mul ee hε h0.le (by positivity)
  have d4 : |v + g - (A + (A - B) * k)| ≤ 7.001 * e + 1.51 * ε * W := by
    have a := abs_le.1 hv; have b := abs_le.1 d3
    norm_num at *
    exact abs_le.2 ⟨by nlinarith, by nlinarith⟩
  have m4 : |A + (A - B) * k| ≤ M + 0.75 * W := (abs_add_le _ _).trans (add_le_add hA m2)
  refine (h.rs m4 d4).trans ?_
  norm_num at *
  nlinarith

/-- the slope of the line through two rows -/
private theorem slope_err (h : Prec q ε) {p p0 L1 L0 g Wr E : ℝ} (hp : |p - L1| ≤ E) (hp0 : |p0 - L0| ≤ E) (hg : 1 / 2 ≤ g)
    (hWr : 0 ≤ Wr) (hW : |L1 - L0| ≤ g * Wr) :
    |q.s.rnd (q.s.rnd (p - p0) / g) - (L1 - L0) / g| ≤ (2.00001 * E) / g * 1.000001 + 2.00001 * ε * Wr ∧
      |q.s.rnd (q.s.rnd (p - p0) / g)| ≤ 1.0001 * Wr + 4.11 * E := by
  have h0 := h.pos
  have hε := h.le'
  have hE : 0 ≤ E := (abs_nonneg _).trans hp
  have hg0 : 0 < g := by linarith
  have eE : E * ε ≤ E * 0.000001 := mul_le_mul_of_nonneg_left hε hE
  have eW : (ε * Wr) * ε ≤ (ε * Wr) * 0.000001 := mul_le_mul_of_nonneg_left hε (by positivity)
  have eW0 : 0 ≤ ε * Wr := by positivity
  have d0 : |p - p0 - (L1 - L0)| ≤ 2 * E := by
    have a := abs_le.1 hp; have b := abs_le.1 hp0
    exact abs_le.2 ⟨by linarith, by linarith⟩
  have d1 := h.rs hW d0
  obtain ⟨n, en⟩ : ∃ n, n = q.s.rnd (p - p0) := ⟨_, rfl⟩
  rw [← en] at d1 ⊢
  obtain ⟨σ, eσ⟩ : ∃ σ, σ = (L1 - L0) / g := ⟨_, rfl⟩
  have hσ : |σ| ≤ Wr := by
    rw [eσ, abs_div, abs_of_pos hg0, div_le_iff₀ hg0]; linarith
  rw [← eσ]
  have d2 : |n / g - σ| ≤ (2.00001 * E) / g + ε * Wr := by
    have : n / g - σ = (n - (L1 - L0)) / g := by rw [eσ]; ring
    rw [this, abs_div, abs_of_pos hg0, div_le_iff₀ hg0, add_mul, div_mul_cancel₀ _ hg0.ne']
    refine d1.trans ?_
    norm_num at eE ⊢
    nlinarith
  have i2 : (2.00001 * E) / g ≤ 4.1 * E := by
    rw [div_le_iff₀ hg0]
    have := mul_le_mul_of_nonneg_left hg hE
    norm_num at this ⊢
    linarith
  have iP : 0 ≤ (2.00001 * E) / g := by positivity
  have iE : (2.00001 * E) / g * ε ≤ (2.00001 * E) / g * 0.000001 := mul_le_mul_of_nonneg_left hε iP
  obtain ⟨D, eD⟩ : ∃ D, D = (2.00001 * E) / g := ⟨_, rfl⟩
  rw [← eD] at d2 i2 iP iE ⊢
  have d3 : |q.s.rnd (n / g) - σ| ≤ D * 1.000001 + 2.00001 * ε * Wr := by
    refine (h.rs hσ d2).trans ?_
    norm_num at iE eW ⊢
    linarith
  refine ⟨d3, ?_⟩
  obtain ⟨m, em⟩ : ∃ m, m = q.s.rnd (n / g) := ⟨_, rfl⟩
  rw [← em] at d3 ⊢
  have t1 : |m| ≤ |σ| + |m - σ| := by
    calc |m| = |σ + (m - σ)| := by ring_nf
      _ ≤ _ := abs_add_le _ _
  have t2 : ε * Wr ≤ 0.000001 * Wr := mul_le_mul_of_nonneg_right hε hWr
  norm_num at t2 d3 i2 ⊢
  linarith

/-- the arithmetic of the bound -/
private theorem line_bound {ML E μ ε Wr : ℝ} (h0 : 0 < ε) (hε : ε ≤ 0.000001) (hM : 0 ≤ ML) (hE : 0 ≤ E) (hW : 0 ≤ Wr) (hμ : μ = 1.0001 * Wr + 4.11 * E) :
    ((ML + E + 1.5 * μ + ((ML + E) * ε + 28.201 * (ε * μ))) * ε + ((ML + E) * ε + 28.201 * (ε * μ)))
      + (E + (4.00003 * E + 3.00002 * (ε * Wr))) ≤ 5.01 * E + 2.01 * ε * ML + 37 * ε * Wr := by
  have eE : E * ε ≤ E * 0.000001 := mul_le_mul_of_nonneg_left hε hE
  have eeE : (E * ε) * ε ≤ (E * ε) * 0.000001 := mul_le_mul_of_nonneg_left hε (by positivity)
  have eeM : (ML * ε) * ε ≤ (ML * ε) * 0.000001 := mul_le_mul_of_nonneg_left hε (by positivity)
  have eeW : (Wr * ε) * ε ≤ (Wr * ε) * 0.000001 := mul_le_mul_of_nonneg_left hε (by positivity)
  have p1 : 0 ≤ ML * ε := by positivity
  have p2 : 0 ≤ Wr * ε := by positivity
  have x1 : ((ML + E + 1.5 * μ + ((ML + E) * ε + 28.201 * (ε * μ))) * ε + ((ML + E) * ε + 28.201 * (ε * μ)))
      + (E + (4.00003 * E + 3.00002 * (ε * Wr)))
      = 2 * (ML * ε) + 2 * (E * ε) + 29.701 * (1.0001 * (Wr * ε) + 4.11 * (E * ε)) + (ML * ε) * ε + (E * ε) * ε
        + 28.201 * (1.0001 * ((Wr * ε) * ε) + 4.11 * ((E * ε) * ε)) + 5.00003 * E + 3.00002 * (Wr * ε) := by
    rw [hμ]; ring
  rw [x1, show 5.01 * E + 2.01 * ε * ML + 37 * ε * Wr = 5.01 * E + 2.01 * (ML * ε) + 37 * (Wr * ε) by ring]
  norm_num at eE eeE eeM eeW ⊢
  linarith

/-- the straight line through two rows -/
theorem line_err (h : Prec q ε) {p p0 L1 L0 g y1 yj ML Wr E : ℝ} (hp : |p - L1| ≤ E) (hp0 : |p0 - L0| ≤ E) (hg : 1 / 2 ≤ g) (hg1 : g ≤ 3 / 4)
    (hWr : 0 ≤ Wr) (hW : |L1 - L0| ≤ g * Wr) (hML : |L1| ≤ ML) (hy1 : |y1| ≤ 9.4) (hyj : |yj| ≤ 9.4) (hd : |yj - y1| ≤ 2 * g) :
    |q.s.rnd (q.s.rnd (q.s.rnd (q.s.rnd (p - p0) / g) * yj) + q.s.rnd (p - q.s.rnd (q.s.rnd (q.s.rnd (p - p0) / g) * y1)))
      - (L1 + (L1 - L0) / g * (yj - y1))| ≤ 5.01 * E + 2.01 * ε * ML + 37 * ε * Wr := by
  have h0 := h.pos
  have hε := h.le'
  have hE : 0 ≤ E := (abs_nonneg _).trans hp
  have hg0 : 0 < g := by linarith
  have hM0 : 0 ≤ ML := (abs_nonneg _).trans hML
  obtain ⟨d3, hm⟩ := slope_err h hp hp0 hg hWr hW
  obtain ⟨m, em⟩ : ∃ m, m = q.s.rnd (q.s.rnd (p - p0) / g) := ⟨_, rfl⟩
  obtain ⟨σ, eσ⟩ : ∃ σ, σ = (L1 - L0) / g := ⟨_, rfl⟩
  rw [← em] at d3 hm ⊢
  rw [← eσ] at d3 ⊢
  obtain ⟨μ, eμ⟩ : ∃ μ, μ = 1.0001 * Wr + 4.11 * E := ⟨_, rfl⟩
  rw [← eμ] at hm
  have hμ : 0 ≤ μ := (abs_nonneg _).trans hm
  have mul94 : ∀ {y : ℝ}, |y| ≤ 9.4 → |m * y| ≤ 9.4 * μ := by
    intro y hy
    rw [abs_mul]
    calc _ ≤ μ * 9.4 := mul_le_mul hm hy (abs_nonneg _) hμ
      _ = _ := by ring
  have eμε2 : (ε * μ) * ε ≤ (ε * μ) * 0.000001 := mul_le_mul_of_nonneg_left hε (by positivity)
  have a1 : |q.s.rnd (m * y1) - m * y1| ≤ 9.4 * (ε * μ) := by
    have := h.rs (mul94 hy1) (x := m * y1) (e := 0) (by simp)
    linarith
  have a2 : |q.s.rnd (m * yj) - m * yj| ≤ 9.4 * (ε * μ) := by
    have := h.rs (mul94 hyj) (x := m * yj) (e := 0) (by simp)
    linarith
  have pM : |p| ≤ ML + E := by
    calc |p| = |L1 + (p - L1)| := by ring_nf
      _ ≤ _ := abs_add_le _ _
      _ ≤ _ := add_le_add hML hp
  have b0 : |p - m * y1| ≤ ML + E + 9.4 * μ := by
    have := abs_add_le p (-(m * y1))
    rw [abs_neg] at this
    have := mul94 hy1
    rw [sub_eq_add_neg]
    linarith
  have b1 : |p - q.s.rnd (m * y1) - (p - m * y1)| ≤ 9.4 * (ε * μ) := by
    rw [show p - q.s.rnd (m * y1) - (p - m * y1) = -(q.s.rnd (m * y1) - m * y1) by ring, abs_neg]; exact a1
  have b2 := h.rs b0 b1
  obtain ⟨b, eb⟩ : ∃ b, b = q.s.rnd (p - q.s.rnd (m * y1)) := ⟨_, rfl⟩
  obtain ⟨c, ec⟩ : ∃ c, c = q.s.rnd (m * yj) := ⟨_, rfl⟩
  rw [← eb] at b2 ⊢
  rw [← ec] at a2 ⊢
  have p3 : 0 ≤ ε * μ := by positivity
  have s1 : |c + b - (p + m * (yj - y1))| ≤ (ML + E) * ε + 28.201 * (ε * μ) := by
    have x := abs_add_le (c - m * yj) (b - (p - m * y1))
    rw [show c + b - (p + m * (yj - y1)) = (c - m * yj) + (b - (p - m * y1)) by ring]
    norm_num at a2 b2 eμε2 ⊢
    linarith
  have m1 : |p + m * (yj - y1)| ≤ ML + E + 1.5 * μ := by
    have e1 : |m * (yj - y1)| ≤ μ * 1.5 := by
      rw [abs_mul]
      exact mul_le_mul hm (hd.trans (by norm_num; linarith)) (abs_nonneg _) hμ
    have := abs_add_le p (m * (yj - y1))
    linarith
  have s2 := h.rs m1 s1
  obtain ⟨r, er⟩ : ∃ r, r = q.s.rnd (c + b) := ⟨_, rfl⟩
  rw [← er] at s2 ⊢
  have t1 : |p + m * (yj - y1) - (L1 + σ * (yj - y1))| ≤ E + (4.00003 * E + 3.00002 * (ε * Wr)) := by
    have e1 : p + m * (yj - y1) - (L1 + σ * (yj - y1)) = (p - L1) + (m - σ) * (yj - y1) := by ring
    rw [e1]
    refine (abs_add_le _ _).trans (add_le_add hp ?_)
    rw [abs_mul]
    refine (mul_le_mul d3 hd (abs_nonneg _) ((abs_nonneg _).trans d3)).trans ?_
    have e2 : (2.00001 * E) / g * 1.000001 * (2 * g) = 2.00001 * E * 1.000001 * 2 := by
      field_simp
    rw [add_mul, e2]
    have e3 : ε * Wr * g ≤ ε * Wr * (3 / 4) := mul_le_mul_of_nonneg_left hg1 (by positivity)
    have e4 : 0 ≤ ε * Wr := by positivity
    norm_num at e3 e4 hE ⊢
    linarith
  rw [← sub_add_sub_cancel r (p + m * (yj - y1))]
  exact ((abs_add_le _ _).trans (add_le_add s2 t1)).trans (line_bound h0 hε hM0 hE hWr eμ)

/-! ### a fine pixel -/

/-- Corners of the cell whose first corner is `(a, b)`: at most `M`, neighbours at most `W` apart. -/
structure CellOk (X : Nat → Nat → ℝ) (a b : Nat) (M W : ℝ) : Prop where
  le : ∀ a' b', (a' = a ∨ a' = a + 1) → (b' = b ∨ b' = b + 1) → |X a' b'| ≤ M
  r0 : |X a (b + 1) - X a b| ≤ W
  r1 : |X (a + 1) (b + 1) - X (a + 1) b| ≤ W
  c0 : |X (a + 1) b - X a b| ≤ W
  c1 : |X (a + 1) (b + 1) - X a (b + 1)| ≤ W

private theorem conv_le {t x y m : ℝ} (h0 : 0 ≤ t) (h1 : t ≤ 1) (hx : |x| ≤ m) (hy : |y| ≤ m) : |(1 - t) * x + t * y| ≤ m := by
  refine (abs_add_le _ _).trans ?_
  rw [abs_mul, abs_mul, abs_of_nonneg h0, abs_of_nonneg (by linarith : 0 ≤ 1 - t)]
  have := mul_le_mul_of_nonneg_left hx (by linarith : 0 ≤ 1 - t)
  have := mul_le_mul_of_nonneg_left hy h0
  linarith

private theorem yPos_clamp {f r : Nat} (h0 : 0 ≤ yPos f r) (h9 : yPos f r ≤ 9) : clampTo 10 (yPos f r) = yPos f r :=
  clampTo_mid h0 (by push_cast; linarith)

/-- a row between the first and the last tie row -/
theorem right_mx (h : Prec q ε) {ρ : ℝ} {mc : MapCoord (Mx q)} (hmc : LinearLib q ρ mc) {f C : Nat} (hf : Factor f) (hC : 2 ≤ C)
    (hCp : f * C ≤ 2 ^ q.s.p) {X : Nat → Nat → ℝ} {r i a b : Nat} {M W : ℝ} (hr : r < 10 * f) (hi : i < f * C) (ha : a + 2 ≤ 10)
    (hy0 : (a : ℝ) ≤ yPos f r) (hy1 : yPos f r ≤ a + 1) (hb : b = simpleCol f C i) (hX : CellOk X a b M W) :
    ∃ v, Rep q.s.p v ∧ right mc f C (fun a b => (sgl (X a b) : Mx q)) r i = sgl v ∧
      |v - bil X a b (yPos f r - a) ((i : ℝ) / f - b)| ≤ colErr ε M W f C i (ρ * M) := by
  have hf0 : (0 : ℝ) < f := by rcases hf with rfl | rfl <;> norm_num
  have hn : nRight f + 1 = f := by rcases hf with rfl | rfl <;> simp [nRight]
  have hf2 : 2 ≤ f := by rcases hf with rfl | rfl <;> omega
  have ha0 : (0 : ℝ) ≤ a := Nat.cast_nonneg _
  have ha9 : (a : ℝ) + 1 ≤ 9 := by
    have : ((a + 2 : ℕ) : ℝ) ≤ 10 := by exact_mod_cast ha
    push_cast at this; linarith
  have hcl := yPos_clamp (f := f) (r := r) (by linarith) (by linarith)
  obtain ⟨t, et⟩ : ∃ t, t = yPos f r - a := ⟨_, rfl⟩
  have ht0 : 0 ≤ t := by linarith
  have ht1 : t ≤ 1 := by linarith
  have hbC : b + 2 ≤ C := by rw [hb]; unfold simpleCol; omega
  -- the library
  have lib : ∀ i' : Nat, i' < f * C → (b : ℝ) ≤ clampTo C ((i' : ℝ) / f) → clampTo C ((i' : ℝ) / f) ≤ b + 1 →
      ∃ v, Rep q.s.p v ∧ base mc f C (fun a b => (sgl (X a b) : Mx q)) r i' = sgl v ∧
        |v - bil X a b t (clampTo C ((i' : ℝ) / f) - b)| ≤ ρ * M := by
    intro i' hi' h1 h2
    unfold base
    rw [simple_coordY h.hp hf hr, simple_coordX h.hp hf (hi'.trans_le hCp), et]
    have := hmc 10 C X (yPos f r) ((i' : ℝ) / f) M a b ha hbC (by rw [hcl]; exact hy0) (by rw [hcl]; exact hy1) h1 h2 hX.le
    rwa [hcl] at this
  obtain ⟨C', rfl⟩ : ∃ C', C = C' + 2 := ⟨C - 2, by omega⟩
  have hq : f * (C' + 2) = f * C' + f + f := by ring
  have hcast : ((C' + 2 : ℕ) : ℝ) - 1 = C' + 1 := by push_cast; ring
  have hC0 : (0 : ℝ) ≤ C' := Nat.cast_nonneg _
  rw [← et]
  unfold right colErr
  by_cases hge : f * (C' + 2) - nRight f ≤ i
  · -- beyond the last tie column
    have hb' : b = C' := by
      rw [hb]; unfold simpleCol
      have : C' + 1 ≤ i / f := by
        rw [Nat.le_div_iff_mul_le (by omega), Nat.add_mul, Nat.mul_comm]
        omega
      omega
    subst hb'
    obtain ⟨k, ek⟩ : ∃ k, k = i - (f * (b + 2) - nRight f) + 1 := ⟨_, rfl⟩
    have hki : i = f * (b + 1) + k := by rw [Nat.mul_add, ek]; omega
    have hk3 : k + 1 ≤ f := by omega
    have hkf : (k : ℝ) + 1 ≤ f := by exact_mod_cast hk3
    have ei : (i : ℝ) / f = b + 1 + k / f := by rw [hki]; push_cast; field_simp
    have e1 : ((f * (b + 2) - nRight f - 1 : ℕ) : ℝ) / f = (b : ℝ) + 1 := by
      rw [show f * (b + 2) - nRight f - 1 = f * (b + 1) by rw [hq, Nat.mul_add]; omega]
      push_cast; field_simp
    have e2 : ((f * (b + 2) - nRight f - 2 : ℕ) : ℝ) / f = (b : ℝ) + 1 - 1 / f := by
      rw [show f * (b + 2) - nRight f - 2 = f * (b + 1) - 1 by rw [hq, Nat.mul_add]; omega,
        Nat.cast_sub (by rw [Nat.mul_add]; omega)]
      push_cast; field_simp
    have hinv : 1 / (f : ℝ) ≤ 1 := by
      rw [div_le_one hf0]; exact_mod_cast (by omega : 1 ≤ f)
    have hinv0 : 0 < 1 / (f : ℝ) := by positivity
    have hk0 : 0 ≤ (k : ℝ) / f := by positivity
    have c1 : clampTo (b + 2) ((i : ℝ) / f) = b + 1 := by
      rw [clampTo_hi (by omega) (by rw [hcast, ei]; linarith), hcast]
    have c2 : clampTo (b + 2) (((f * (b + 2) - nRight f - 1 : ℕ) : ℝ) / f) = b + 1 := by
      rw [e1, clampTo_mid (by linarith) (by rw [hcast])]
    have c3 : clampTo (b + 2) (((f * (b + 2) - nRight f - 2 : ℕ) : ℝ) / f) = b + 1 - 1 / f := by
      rw [e2, clampTo_mid (by linarith) (by rw [hcast]; linarith)]
    obtain ⟨v, -, v2, v3⟩ := lib i hi (by rw [c1]; linarith) (by rw [c1])
    obtain ⟨w, -, w2, w3⟩ := lib (f * (b + 2) - nRight f - 1) (by omega) (by rw [c2]; linarith) (by rw [c2])
    obtain ⟨z, -, z2, z3⟩ := lib (f * (b + 2) - nRight f - 2) (by omega) (by rw [c3]; linarith) (by rw [c3]; linarith)
    rw [c1, show (b : ℝ) + 1 - b = 1 by ring] at v3
    rw [c2, show (b : ℝ) + 1 - b = 1 by ring] at w3
    rw [c3, show (b : ℝ) + 1 - 1 / f - b = 1 - 1 / f by ring] at z3
    have hk' : ((i - (f * (b + 2) - nRight f) : ℕ) : ℤ) + 1 = ((k : ℕ) : ℤ) := by rw [ek]; push_cast; ring
    rw [if_pos (show f * (b + 2) < i + f by omega)]
    simp only [if_pos hge]
    rw [v2, w2, z2, ofInt_eq, hk', ss_sub, si_mul, ss_add]
    refine ⟨_, q.s.rep _, rfl, ?_⟩
    have hA : |bil X a b t 1| ≤ M := by
      unfold bil
      have := conv_le ht0 ht1 (hX.le a (b + 1) (Or.inl rfl) (Or.inr rfl)) (hX.le (a + 1) (b + 1) (Or.inr rfl) (Or.inr rfl))
      rw [show ((1 - t) * ((1 - 1) * X a b + 1 * X a (b + 1)) + t * ((1 - 1) * X (a + 1) b + 1 * X (a + 1) (b + 1)))
        = (1 - t) * X a (b + 1) + t * X (a + 1) (b + 1) by ring]
      exact this
    have hW0 : 0 ≤ W := (abs_nonneg _).trans hX.r0
    have eAB : bil X a b t 1 - bil X a b t (1 - 1 / f)
        = ((1 - t) * (X a (b + 1) - X a b) + t * (X (a + 1) (b + 1) - X (a + 1) b)) * (1 / f) := by unfold bil; ring
    have hw : |bil X a b t 1 - bil X a b t (1 - 1 / f)| ≤ W * (1 / f) := by
      rw [eAB, abs_mul, abs_of_pos hinv0]
      exact mul_le_mul_of_nonneg_right (conv_le ht0 ht1 hX.r0 hX.r1) hinv0.le
    have hkw : (k : ℝ) * (W * (1 / f)) ≤ 0.75 * W := by
      have : (k : ℝ) * (1 / f) ≤ 0.75 := by
        rw [mul_one_div, div_le_iff₀ hf0]
        have hf4 : (f : ℝ) ≤ 4 := by rcases hf with rfl | rfl <;> norm_num
        norm_num
        linarith
      have := mul_le_mul_of_nonneg_right this hW0
      linarith
    have key := right_err h (k := k) (by rcases hf with rfl | rfl <;> omega) v3 w3 z3 hA hw hkw hW0
    have e : bil X a b t ((i : ℝ) / f - b) = bil X a b t 1 + (bil X a b t 1 - bil X a b t (1 - 1 / f)) * k := by
      rw [eAB, ei]; unfold bil; field_simp; ring
    rw [e]
    exact key
  · rw [if_neg (show ¬ f * (C' + 2) < i + f by omega)]
    simp only [if_neg hge]
    have hi2 : i ≤ f * (C' + 1) := by rw [Nat.mul_add]; omega
    have hx1 : (i : ℝ) / f ≤ C' + 1 := by
      rw [div_le_iff₀ hf0]
      have h2 : (i : ℝ) ≤ ((f * (C' + 1) : ℕ) : ℝ) := by exact_mod_cast hi2
      push_cast at h2; linarith
    have hc : clampTo (C' + 2) ((i : ℝ) / f) = (i : ℝ) / f := clampTo_mid (by positivity) (by rw [hcast]; exact hx1)
    have hbi : b * f ≤ i := by
      have : b ≤ i / f := by rw [hb]; exact min_le_left _ _
      exact (Nat.le_div_iff_mul_le (by omega)).1 this
    have hbx : (b : ℝ) ≤ (i : ℝ) / f := by
      rw [le_div_iff₀ hf0]; exact_mod_cast hbi
    have hbx1 : (i : ℝ) / f ≤ b + 1 := by
      rcases Nat.lt_or_ge (i / f) (C' + 1) with hlt | hge'
      · have eb : b = i / f := by rw [hb]; unfold simpleCol; omega
        have : i < (i / f + 1) * f := by rw [Nat.mul_comm]; exact Nat.lt_mul_div_succ i (by omega)
        rw [← eb] at this
        rw [div_le_iff₀ hf0]
        have : (i : ℝ) ≤ (((b + 1) * f : ℕ) : ℝ) := by exact_mod_cast this.le
        push_cast at this; exact this
      · have eb : b = C' := by rw [hb]; unfold simpleCol; omega
        rw [eb]; exact hx1
    obtain ⟨v, v1, v2, v3⟩ := lib i hi (by rw [hc]; exact hbx) (by rw [hc]; exact hbx1)
    rw [hc] at v3
    exact ⟨v, v1, v2, v3⟩

/-- **one coordinate of a fine pixel** -/
theorem fine_mx (h : Prec q ε) {ρ : ℝ} {mc : MapCoord (Mx q)} (hmc : LinearLib q ρ mc) {f C : Nat} (hf : Factor f) (hC : 2 ≤ C)
    (hCp : f * C ≤ 2 ^ q.s.p) {X : Nat → Nat → ℝ} {j i a b : Nat} {M W : ℝ} (hj : j < 10 * f) (hi : i < f * C)
    (ha : a = simpleRow f j) (hb : b = simpleCol f C i) (hX : CellOk X a b M W) :
    ∃ v, Rep q.s.p v ∧ fine mc f C (fun a b => (sgl (X a b) : Mx q)) j i = sgl v ∧
      |v - bil X a b (yPos f j - a) ((i : ℝ) / f - b)| ≤ rowErr ε M W f j (colErr ε M W f C i (ρ * M)) := by
  have h0 := h.pos
  have hf0 : (0 : ℝ) < f := by rcases hf with rfl | rfl <;> norm_num
  have hf4 : (f : ℝ) ≤ 4 := by rcases hf with rfl | rfl <;> norm_num
  have hf2 : (2 : ℝ) ≤ f := by rcases hf with rfl | rfl <;> norm_num
  have hW0 : 0 ≤ W := (abs_nonneg _).trans hX.r0
  have hM0 : 0 ≤ M := (abs_nonneg _).trans (hX.le a b (Or.inl rfl) (Or.inl rfl))
  have ha2 : a + 2 ≤ 10 := by rw [ha]; unfold simpleRow; omega
  obtain ⟨S, eS⟩ : ∃ S, S = (i : ℝ) / f - b := ⟨_, rfl⟩
  have hS0 : 0 ≤ S := by
    have h1 : b ≤ i / f := by rw [hb]; exact min_le_left _ _
    have h2 : b * f ≤ i := (Nat.le_div_iff_mul_le (by rcases hf with rfl | rfl <;> omega)).1 h1
    have : (b : ℝ) ≤ (i : ℝ) / f := by rw [le_div_iff₀ hf0]; exact_mod_cast h2
    linarith
  have hS2 : S ≤ 1.75 := by
    have h1 : 4 * i + 4 ≤ 4 * (f * C) := by omega
    have h2 : i ≤ f * b + 2 * f - 1 := by
      rw [hb]; unfold simpleCol
      have hm : f * C = f * (C - 2) + 2 * f := by
        obtain ⟨C', rfl⟩ : ∃ C', C = C' + 2 := ⟨C - 2, by omega⟩
        rw [Nat.add_sub_cancel]; ring
      have hlt : i < f * (i / f + 1) := Nat.lt_mul_div_succ i (by rcases hf with rfl | rfl <;> omega)
      rcases le_total (i / f) (C - 2) with hle | hle
      · rw [min_eq_left hle]; rw [Nat.mul_add] at hlt; omega
      · rw [min_eq_right hle]; omega
    have h3 : i + 1 ≤ f * b + 2 * f := by rcases hf with rfl | rfl <;> omega
    have h4 : (i : ℝ) + 1 ≤ f * b + 2 * f := by exact_mod_cast h3
    have h5 : (i : ℝ) / f ≤ b + 2 - 1 / f := by
      rw [div_le_iff₀ hf0, sub_mul, div_mul_cancel₀ _ hf0.ne']; linarith
    have h6 : (1 : ℝ) / 4 ≤ 1 / f := one_div_le_one_div_of_le hf0 hf4
    rw [eS]; norm_num; linarith
  rw [← eS]
  -- the line through rows `o` and `o + st`
  have line_case : ∀ o st : Nat, o + st < 10 * f → (a : ℝ) ≤ yPos f o → yPos f (o + st) ≤ a + 1 → (st : ℝ) / f ≤ 3 / 4 → 1 / 2 ≤ (st : ℝ) / f →
      |yPos f j - yPos f (o + st)| ≤ 2 * ((st : ℝ) / f) → Rep q.s.p ((st : ℝ) / f) →
      ∃ v, Rep q.s.p v ∧ line f st o (fun r => right mc f C (fun a b => (sgl (X a b) : Mx q)) r i) j = sgl v ∧
        |v - bil X a b (yPos f j - a) S| ≤ 5.01 * colErr ε M W f C i (ρ * M) + 2.01 * ε * M + 95 * ε * W := by
    intro o st hst lo hi' g1 g2 gd hrep
    have hd : yPos f (o + st) - yPos f o = st / f := by unfold yPos; push_cast; field_simp; ring
    have hst0 : 0 < (st : ℝ) / f := by linarith
    obtain ⟨p, p1, p2, p3⟩ := right_mx h hmc hf hC hCp hst hi ha2 (by linarith) hi' hb hX
    obtain ⟨p0, -, z2, z3⟩ := right_mx h hmc hf hC hCp (r := o) (by omega) hi ha2 lo (by linarith) hb hX
    rw [← eS] at p3 z3
    unfold line
    simp only [p2, z2, simple_coordY h.hp hf hst, simple_coordY h.hp hf (show o < 10 * f by omega), simple_coordY h.hp hf hj, ss_sub, hd,
      q.s.rnd_rep hrep]
    rw [ss_div _ hst0.ne']
    simp only [ss_mul, ss_sub, ss_add]
    refine ⟨_, q.s.rep _, rfl, ?_⟩
    obtain ⟨g, eg⟩ : ∃ g, g = (st : ℝ) / f := ⟨_, rfl⟩
    rw [← eg] at hd g1 g2 gd hst0 ⊢
    obtain ⟨y1, ey1⟩ : ∃ y1, y1 = yPos f (o + st) := ⟨_, rfl⟩
    obtain ⟨y0, ey0⟩ : ∃ y0, y0 = yPos f o := ⟨_, rfl⟩
    rw [← ey1] at hd hi' gd p3 ⊢
    rw [← ey0] at hd lo z3
    have ha0 : (0 : ℝ) ≤ a := Nat.cast_nonneg _
    have ha9 : (a : ℝ) + 1 ≤ 9 := by
      have : ((a + 2 : ℕ) : ℝ) ≤ 10 := by exact_mod_cast ha2
      push_cast at this; linarith
    -- the exact line
    have diff : ∀ T T' : ℝ, bil X a b T S - bil X a b T' S
        = (T - T') * ((1 - S) * (X (a + 1) b - X a b) + S * (X (a + 1) (b + 1) - X a (b + 1))) := by
      intro T T'; unfold bil; ring
    have hD : |(1 - S) * (X (a + 1) b - X a b) + S * (X (a + 1) (b + 1) - X a (b + 1))| ≤ 2.5 * W := by
      refine (abs_add_le _ _).trans ?_
      rw [abs_mul, abs_mul, abs_of_nonneg hS0]
      have k2 : |1 - S| + S ≤ 2.5 := by
        rcases le_total S 1 with hs | hs
        · rw [abs_of_nonneg (by linarith)]; norm_num
        · rw [abs_of_nonpos (by linarith)]; norm_num at hS2 ⊢; linarith
      have m1 := mul_le_mul_of_nonneg_left hX.c0 (abs_nonneg (1 - S))
      have m2 := mul_le_mul_of_nonneg_left hX.c1 hS0
      have m3 := mul_le_mul_of_nonneg_right k2 hW0
      linarith
    have hL : |bil X a b (y1 - a) S| ≤ M + 0.75 * W := by
      have t0 : 0 ≤ y1 - a := by linarith
      have t1 : y1 - a ≤ 1 := by linarith
      have row : ∀ {x y : ℝ}, |x| ≤ M → |y| ≤ M → |y - x| ≤ W → |(1 - S) * x + S * y| ≤ M + 0.75 * W := by
        intro x y hx hy hxy
        rcases le_total S 1 with hs | hs
        · exact (conv_le hS0 hs hx hy).trans (by norm_num; linarith)
        · have e : (1 - S) * x + S * y = y + (S - 1) * (y - x) := by ring
          rw [e]
          refine (abs_add_le _ _).trans (add_le_add hy ?_)
          rw [abs_mul, abs_of_nonneg (by linarith : 0 ≤ S - 1)]
          exact mul_le_mul (by norm_num at hS2 ⊢; linarith) hxy (abs_nonneg _) (by norm_num)
      unfold bil
      exact conv_le t0 t1 (row (hX.le _ _ (Or.inl rfl) (Or.inl rfl)) (hX.le _ _ (Or.inl rfl) (Or.inr rfl)) hX.r0)
        (row (hX.le _ _ (Or.inr rfl) (Or.inl rfl)) (hX.le _ _ (Or.inr rfl) (Or.inr rfl)) hX.r1)
    have hs1 : |bil X a b (y1 - a) S - bil X a b (y0 - a) S| ≤ g * (2.5 * W) := by
      rw [diff, show y1 - a - (y0 - a) = g by linarith, abs_mul, abs_of_pos hst0]
      exact mul_le_mul_of_nonneg_left hD hst0.le
    have hy1 : |y1| ≤ 9.4 := by rw [abs_of_nonneg (by linarith)]; norm_num; linarith
    have hyj : |yPos f j| ≤ 9.4 := by
      have j1 : (j : ℝ) + 1 ≤ 10 * f := by exact_mod_cast hj
      have j0 : (0 : ℝ) ≤ j := Nat.cast_nonneg _
      have e1 : ((j : ℝ) + 1 / 2) / f ≤ 10 - 1 / 2 / f := by
        rw [div_le_iff₀ hf0, sub_mul, div_mul_cancel₀ _ hf0.ne']; linarith
      have e2 : 0 ≤ ((j : ℝ) + 1 / 2) / f := by positivity
      have e3 : (1 : ℝ) / 2 / f ≥ 1 / 8 := by
        rw [ge_iff_le, le_div_iff₀ hf0]; linarith
      unfold yPos
      rw [abs_le]; norm_num at e1 e2 e3 ⊢
      constructor <;> linarith
    have key := line_err h p3 z3 g2 g1 (by positivity : 0 ≤ 2.5 * W) hs1 hL hy1 hyj gd
    have e : bil X a b (y1 - a) S + (bil X a b (y1 - a) S - bil X a b (y0 - a) S) / g * (yPos f j - y1) = bil X a b (yPos f j - a) S := by
      rw [diff, show y1 - a - (y0 - a) = g by linarith, mul_div_cancel_left₀ _ hst0.ne']
      have := diff (yPos f j - a) (y1 - a)
      rw [show yPos f j - a - (y1 - a) = yPos f j - y1 by ring] at this
      linarith
    rw [e] at key
    refine key.trans ?_
    have : 0 ≤ ε * W := by positivity
    norm_num
    linarith
  have rep34 : Rep q.s.p ((3 : ℕ) / (4 : ℕ) : ℝ) := by
    have := q.s.rep (3 / 4)
    rw [rnd_eighth h.hp (m := 12) (x := 3 / 4) (by norm_num) (by norm_num)] at this
    exact_mod_cast this
  have rep12 : Rep q.s.p ((1 : ℕ) / (2 : ℕ) : ℝ) := by
    have := q.s.rep (1 / 2)
    rw [rnd_eighth h.hp (m := 8) (x := 1 / 2) (by norm_num) (by norm_num)] at this
    exact_mod_cast this
  unfold fine rowErr
  by_cases h1 : j < f / 2
  · rw [if_pos h1, if_pos (Or.inl h1)]
    rcases hf with rfl | rfl
    · have ej : j = 0 := by omega
      have ea : a = 0 := by rw [ha, ej]; rfl
      subst ea ej
      exact line_case (2 / 2) (step 2) (by decide) (by norm_num [yPos]) (by norm_num [yPos, step]) (by norm_num [step]) (by norm_num [step])
        (by norm_num [yPos, step]) (by rw [show step 2 = 1 from rfl]; exact rep12)
    · have ea : a = 0 := by rw [ha]; unfold simpleRow; omega
      have ej : j = 0 ∨ j = 1 := by omega
      subst ea
      refine line_case (4 / 2) (step 4) (by decide) (by norm_num [yPos]) (by norm_num [yPos, step]) (by norm_num [step]) (by norm_num [step])
        ?_ (by rw [show step 4 = 3 from rfl]; exact rep34)
      rcases ej with rfl | rfl <;> norm_num [yPos, step, abs_of_neg]
  · rw [if_neg h1]
    by_cases h2 : 10 * f - f / 2 ≤ j
    · rw [if_pos h2, if_pos (Or.inr (by omega))]
      rcases hf with rfl | rfl
      · have ej : j = 19 := by omega
        have ea : a = 8 := by rw [ha, ej]; rfl
        subst ea ej
        exact line_case (10 * 2 - 2 / 2 - step 2 - 1) (step 2) (by decide) (by norm_num [yPos, step]) (by norm_num [yPos, step]) (by norm_num [step]) (by norm_num [step])
          (by norm_num [yPos, step]) (by rw [show step 2 = 1 from rfl]; exact rep12)
      · have ea : a = 8 := by rw [ha]; unfold simpleRow; omega
        have ej : j = 38 ∨ j = 39 := by omega
        subst ea
        refine line_case (10 * 4 - 4 / 2 - step 4 - 1) (step 4) (by decide) (by norm_num [yPos, step]) (by norm_num [yPos, step]) (by norm_num [step])
          (by norm_num [step]) ?_ (by rw [show step 4 = 3 from rfl]; exact rep34)
        rcases ej with rfl | rfl <;> norm_num [yPos, step, abs_of_pos]
    · rw [if_neg h2, if_neg (by omega), eS]
      -- between the first and the last tie row
      have hle : 2 * f * a ≤ 2 * j + 1 - f := by
        have : a ≤ (2 * j + 1 - f) / (2 * f) := by rw [ha]; exact min_le_left _ _
        rw [Nat.mul_comm]
        exact (Nat.le_div_iff_mul_le (by rcases hf with rfl | rfl <;> omega)).1 this
      have hlt : 2 * j + 1 - f < 2 * f * (a + 1) := by
        have e : a = (2 * j + 1 - f) / (2 * f) := by
          rw [ha]; unfold simpleRow
          rcases hf with rfl | rfl <;> omega
        rw [e]
        exact Nat.lt_mul_div_succ _ (by rcases hf with rfl | rfl <;> omega)
      have b1 : 2 * f * a + f ≤ 2 * j + 1 := by rcases hf with rfl | rfl <;> omega
      have b2 : 2 * j + 1 ≤ 2 * f * (a + 1) + f := by rcases hf with rfl | rfl <;> omega
      have r1 : 2 * (f : ℝ) * a + f ≤ 2 * j + 1 := by exact_mod_cast b1
      have r2 : 2 * (j : ℝ) + 1 ≤ 2 * f * (a + 1) + f := by exact_mod_cast b2
      have ey : yPos f j = (2 * (j : ℝ) + 1 - f) / (2 * f) := by unfold yPos; field_simp
      refine right_mx h hmc hf hC hCp hj hi ha2 ?_ ?_ hb hX
      · rw [ey, le_div_iff₀ (by positivity)]; linarith
      · rw [ey, div_le_iff₀ (by positivity)]; linarith

end Verif.Mx
