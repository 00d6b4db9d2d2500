import Mathlib.Analysis.Calculus.LocalExtr.Rolle
import Mathlib.Analysis.Calculus.Deriv.MeanValue
import Mathlib.Analysis.Calculus.Deriv.Mul
import Mathlib.Analysis.Calculus.Deriv.Pow
import Mathlib.Analysis.Calculus.Deriv.Comp
import Mathlib.Tactic

/-!
# Error of the parabola through three equidistant points (real analysis)
-/

namespace Verif.Quad

/-- a function with four zeros has a zero of its third derivative -/
theorem four_zeros {g g1 g2 g3 : ℝ → ℝ} {lo hi : ℝ} (h1 : ∀ x ∈ Set.Icc lo hi, HasDerivAt g (g1 x) x)
    (h2 : ∀ x ∈ Set.Icc lo hi, HasDerivAt g1 (g2 x) x) (h3 : ∀ x ∈ Set.Icc lo hi, HasDerivAt g2 (g3 x) x) {p q r s : ℝ} (hp : lo ≤ p)
    (pq : p < q) (qr : q < r) (rs : r < s) (hs : s ≤ hi) (zp : g p = 0) (zq : g q = 0) (zr : g r = 0) (zs : g s = 0) :
    ∃ x ∈ Set.Icc lo hi, g3 x = 0 := by
  have roll : ∀ {f f' : ℝ → ℝ}, (∀ x ∈ Set.Icc lo hi, HasDerivAt f (f' x) x) → ∀ {x y : ℝ}, lo ≤ x → x < y → y ≤ hi → f x = f y →
      ∃ c, x < c ∧ c < y ∧ f' c = 0 := by
    intro f f' hf x y hx hxy hy e
    obtain ⟨c, hc, hc'⟩ := exists_hasDerivAt_eq_zero hxy
      (fun z hz => (hf z ⟨hx.trans hz.1, hz.2.trans hy⟩).continuousAt.continuousWithinAt) e
      (fun z hz => hf z ⟨hx.trans hz.1.le, hz.2.le.trans hy⟩)
    exact ⟨c, hc.1, hc.2, hc'⟩
  obtain ⟨c1, a1, b1, e1⟩ := roll h1 hp pq (by linarith) (by rw [zp, zq])
  obtain ⟨c2, a2, b2, e2⟩ := roll h1 (by linarith) qr (by linarith) (by rw [zq, zr])
  obtain ⟨c3, a3, b3, e3⟩ := roll h1 (by linarith) rs (by linarith) (by rw [zr, zs])
  obtain ⟨d1, a4, b4, e4⟩ := roll h2 (by linarith) (show c1 < c2 by linarith) (by linarith) (by rw [e1, e2])
  obtain ⟨d2, a5, b5, e5⟩ := roll h2 (by linarith) (show c2 < c3 by linarith) (by linarith) (by rw [e2, e3])
  obtain ⟨c, a6, b6, e6⟩ := roll h3 (by linarith) (show d1 < d2 by linarith) (by linarith) (by rw [e4, e5])
  exact ⟨c, ⟨by linarith, by linarith⟩, e6⟩

/-- the parabola through the values at 0, 1/2 and 1 -/
noncomputable def parab (u v m s : ℝ) : ℝ := u + s * (v - u) - 4 * (s * (1 - s)) * ((u + v) / 2 - m)

theorem unit_err {F F1 F2 F3 : ℝ → ℝ} {lo hi M : ℝ} (hlo : lo ≤ 0) (hhi : 1 ≤ hi) (h1 : ∀ x ∈ Set.Icc lo hi, HasDerivAt F (F1 x) x)
    (h2 : ∀ x ∈ Set.Icc lo hi, HasDerivAt F1 (F2 x) x) (h3 : ∀ x ∈ Set.Icc lo hi, HasDerivAt F2 (F3 x) x)
    (hM : ∀ x ∈ Set.Icc lo hi, |F3 x| ≤ M) {s : ℝ} (s0 : lo ≤ s) (s1 : s ≤ hi) :
    |F s - parab (F 0) (F 1) (F (1 / 2)) s| ≤ M / 6 * |s * (s - 1 / 2) * (s - 1)| := by
  by_cases hz : s * (s - 1 / 2) * (s - 1) = 0
  · rw [hz, abs_zero, mul_zero]
    have : F s - parab (F 0) (F 1) (F (1 / 2)) s = 0 := by
      rcases mul_eq_zero.1 hz with h | h
      · rcases mul_eq_zero.1 h with h | h
        · subst h; unfold parab; ring
        · obtain rfl : s = 1 / 2 := by linarith
          unfold parab; ring
      · obtain rfl : s = 1 := by linarith
        unfold parab; ring
    rw [this, abs_zero]
  · obtain ⟨K, hK⟩ : ∃ K, K * (s * (s - 1 / 2) * (s - 1)) = F s - parab (F 0) (F 1) (F (1 / 2)) s := ⟨_, div_mul_cancel₀ _ hz⟩
    obtain ⟨u, v, m, eu, ev, em⟩ : ∃ u v m, u = F 0 ∧ v = F 1 ∧ m = F (1 / 2) := ⟨_, _, _, rfl, rfl, rfl⟩
    rw [← eu, ← ev, ← em] at hK ⊢
    obtain ⟨N, hN⟩ : ∃ N, N = (u + v) / 2 - m := ⟨_, rfl⟩
    have hs : s ≠ 0 ∧ s ≠ 1 / 2 ∧ s ≠ 1 := by
      refine ⟨?_, ?_, ?_⟩ <;> rintro rfl <;> norm_num at hz
    have d1 : ∀ x ∈ Set.Icc lo hi, HasDerivAt (fun t => F t - parab u v m t - K * (t * (t - 1 / 2) * (t - 1)))
        (F1 x - ((v - u) - 4 * (1 - 2 * x) * N) - K * (3 * x ^ 2 - 3 * x + 1 / 2)) x := by
      intro x hx
      have hp : HasDerivAt (fun t : ℝ => t ^ 2) (2 * x) x := by simpa using hasDerivAt_pow 2 x
      have hc : HasDerivAt (fun t : ℝ => t ^ 3) (3 * x ^ 2) x := by simpa using hasDerivAt_pow 3 x
      have hi := hasDerivAt_id' x
      have hq : HasDerivAt (fun t => u + (v - u) * t - 4 * N * (t - t ^ 2)) (0 + (v - u) * 1 - 4 * N * (1 - 2 * x)) x :=
        ((hasDerivAt_const x u).add (hi.const_mul (v - u))).sub ((hi.sub hp).const_mul (4 * N))
      have hr : HasDerivAt (fun t => K * (t ^ 3 - 3 / 2 * t ^ 2 + 1 / 2 * t)) (K * (3 * x ^ 2 - 3 / 2 * (2 * x) + 1 / 2 * 1)) x :=
        ((hc.sub (hp.const_mul _)).add (hi.const_mul _)).const_mul K
      refine (((h1 x hx).sub hq).sub hr).congr_deriv ?_ |>.congr_of_eventuallyEq (Filter.Eventually.of_forall fun t => ?_)
      · ring
      · simp only [parab, Pi.sub_apply, hN]; ring
    have d2 : ∀ x ∈ Set.Icc lo hi, HasDerivAt (fun x => F1 x - ((v - u) - 4 * (1 - 2 * x) * N) - K * (3 * x ^ 2 - 3 * x + 1 / 2))
        (F2 x - 8 * N - K * (6 * x - 3)) x := by
      intro x hx
      have hp : HasDerivAt (fun t : ℝ => t ^ 2) (2 * x) x := by simpa using hasDerivAt_pow 2 x
      have hi := hasDerivAt_id' x
      have hq : HasDerivAt (fun t => (v - u) - 4 * N + 8 * N * t) (0 + 8 * N * 1) x :=
        (hasDerivAt_const x ((v - u) - 4 * N)).add (hi.const_mul (8 * N))
      have hr : HasDerivAt (fun t => K * (3 * t ^ 2 - 3 * t + 1 / 2)) (K * (3 * (2 * x) - 3 * 1 + 0)) x :=
        (((hp.const_mul _).sub (hi.const_mul _)).add (hasDerivAt_const x _)).const_mul K
      refine (((h2 x hx).sub hq).sub hr).congr_deriv ?_ |>.congr_of_eventuallyEq (Filter.Eventually.of_forall fun t => ?_)
      · ring
      · simp only [Pi.sub_apply]; ring
    have d3 : ∀ x ∈ Set.Icc lo hi, HasDerivAt (fun x => F2 x - 8 * N - K * (6 * x - 3)) (F3 x - 6 * K) x := by
      intro x hx
      have hi := hasDerivAt_id' x
      have hr : HasDerivAt (fun t => 8 * N - 3 * K + 6 * K * t) (0 + 6 * K * 1) x :=
        (hasDerivAt_const x _).add (hi.const_mul _)
      refine ((h3 x hx).sub hr).congr_deriv ?_ |>.congr_of_eventuallyEq (Filter.Eventually.of_forall fun t => ?_)
      · ring
      · simp only [Pi.sub_apply]; ring
    have z0 : (fun t => F t - parab u v m t - K * (t * (t - 1 / 2) * (t - 1))) 0 = 0 := by simp only [parab, eu]; ring
    have z1 : (fun t => F t - parab u v m t - K * (t * (t - 1 / 2) * (t - 1))) 1 = 0 := by simp only [parab, ev]; ring
    have z2 : (fun t => F t - parab u v m t - K * (t * (t - 1 / 2) * (t - 1))) (1 / 2) = 0 := by simp only [parab, em]; ring
    have z3 : (fun t => F t - parab u v m t - K * (t * (t - 1 / 2) * (t - 1))) s = 0 := by simp only []; rw [hK, sub_self]
    obtain ⟨x, hx, ex⟩ : ∃ x ∈ Set.Icc lo hi, F3 x - 6 * K = 0 := by
      have h12 : (0 : ℝ) < 1 / 2 := by norm_num
      have h21 : (1 / 2 : ℝ) < 1 := by norm_num
      rcases lt_or_gt_of_ne hs.1 with g | g
      · exact four_zeros d1 d2 d3 s0 g h12 h21 hhi z3 z0 z2 z1
      rcases lt_or_gt_of_ne hs.2.1 with h | h
      · exact four_zeros d1 d2 d3 hlo g h h21 hhi z0 z3 z2 z1
      rcases lt_or_gt_of_ne hs.2.2 with h' | h'
      · exact four_zeros d1 d2 d3 hlo h12 h h' hhi z0 z2 z3 z1
      · exact four_zeros d1 d2 d3 hlo h12 h21 h' s1 z0 z2 z1 z3
    rw [← hK, abs_mul]
    refine mul_le_mul_of_nonneg_right ?_ (abs_nonneg _)
    have := hM x hx
    rw [show F3 x = 6 * K by linarith, abs_mul, abs_of_pos (by norm_num : (0 : ℝ) < 6)] at this
    linarith

/-- **the parabola through the values at the ends and in the middle**: its error, also beyond the ends, is at most a sixth of the bound of
the third derivative times `|s (s - 1/2) (s - 1)|` times the cube of the length -/
theorem quad_err_wide {f f1 f2 f3 : ℝ → ℝ} {a b M lo hi : ℝ} (hlo : lo ≤ 0) (hhi : 1 ≤ hi)
    (h1 : ∀ t ∈ Set.Icc lo hi, HasDerivAt f (f1 (a + t * (b - a))) (a + t * (b - a)))
    (h2 : ∀ t ∈ Set.Icc lo hi, HasDerivAt f1 (f2 (a + t * (b - a))) (a + t * (b - a)))
    (h3 : ∀ t ∈ Set.Icc lo hi, HasDerivAt f2 (f3 (a + t * (b - a))) (a + t * (b - a)))
    (hM : ∀ t ∈ Set.Icc lo hi, |f3 (a + t * (b - a))| ≤ M) {s : ℝ} (s0 : lo ≤ s) (s1 : s ≤ hi) :
    |f (a + s * (b - a)) - parab (f a) (f b) (f ((a + b) / 2)) s| ≤ M / 6 * |s * (s - 1 / 2) * (s - 1)| * |b - a| ^ 3 := by
  have lin : ∀ t, HasDerivAt (fun t : ℝ => a + t * (b - a)) (b - a) t := fun t => by
    simpa using ((hasDerivAt_id' t).mul_const (b - a)).const_add a
  have key := unit_err (F := fun t => f (a + t * (b - a))) (F1 := fun t => f1 (a + t * (b - a)) * (b - a))
    (F2 := fun t => f2 (a + t * (b - a)) * (b - a) * (b - a)) (F3 := fun t => f3 (a + t * (b - a)) * (b - a) * (b - a) * (b - a))
    (M := M * |b - a| ^ 3) hlo hhi
    (fun t ht => (h1 t ht).comp t (lin t))
    (fun t ht => ((h2 t ht).comp t (lin t)).mul_const _)
    (fun t ht => (((h3 t ht).comp t (lin t)).mul_const _).mul_const _)
    (fun t ht => by
      rw [abs_mul, abs_mul, abs_mul]
      have := mul_le_mul_of_nonneg_right (hM t ht) (by positivity : 0 ≤ |b - a| ^ 3)
      calc _ = |f3 (a + t * (b - a))| * |b - a| ^ 3 := by ring
        _ ≤ _ := this) s0 s1
  simp only [zero_mul, add_zero, one_mul] at key
  rw [show a + (b - a) = b by ring, show a + 1 / 2 * (b - a) = (a + b) / 2 by ring] at key
  calc _ ≤ _ := key
    _ = _ := by ring

/-- the mean of the values at the ends and the value in the middle -/
theorem second_diff {f f1 f2 : ℝ → ℝ} {a b : ℝ} (h1 : ∀ x ∈ Set.uIcc a b, HasDerivAt f (f1 x) x)
    (h2 : ∀ x ∈ Set.uIcc a b, HasDerivAt f1 (f2 x) x) :
    ∃ x ∈ Set.uIcc a b, (f a + f b) / 2 - f ((a + b) / 2) = f2 x * (b - a) ^ 2 / 8 := by
  wlog hab : a ≤ b generalizing a b with H
  · obtain ⟨x, hx, e⟩ := H (a := b) (b := a) (by rwa [Set.uIcc_comm]) (by rwa [Set.uIcc_comm]) (le_of_not_ge hab)
    refine ⟨x, by rwa [Set.uIcc_comm], ?_⟩
    rw [add_comm (f a), add_comm a, e]
    ring
  rw [Set.uIcc_of_le hab] at *
  rcases hab.eq_or_lt with rfl | hlt
  · exact ⟨a, ⟨le_rfl, le_rfl⟩, by rw [show (a + a) / 2 = a by ring]; ring⟩
  obtain ⟨m, L, em, eL, hL⟩ : ∃ m L : ℝ, a = m - L ∧ b = m + L ∧ 0 < L := ⟨(a + b) / 2, (b - a) / 2, by ring, by ring, by linarith⟩
  subst em eL
  have d : ∀ t ∈ Set.Icc 0 L, HasDerivAt (fun t => f (m + t) + f (m - t)) (f1 (m + t) - f1 (m - t)) t := by
    intro t ht
    have g1 := (h1 (m + t) ⟨by linarith [ht.1], by linarith [ht.2]⟩).comp t ((hasDerivAt_id' t).const_add m)
    have g2 := (h1 (m - t) ⟨by linarith [ht.2], by linarith [ht.1]⟩).comp t ((hasDerivAt_id' t).const_sub m)
    refine (g1.add g2).congr_deriv (by ring)
  have d' : ∀ t : ℝ, HasDerivAt (fun t : ℝ => t ^ 2) (2 * t) t := fun t => by simpa using hasDerivAt_pow 2 t
  obtain ⟨c, hc, e⟩ := exists_ratio_hasDerivAt_eq_ratio_slope (fun t => f (m + t) + f (m - t)) (fun t => f1 (m + t) - f1 (m - t)) hL
    (fun t ht => (d t ht).continuousAt.continuousWithinAt) (fun t ht => d t ⟨ht.1.le, ht.2.le⟩) (fun t => t ^ 2) (fun t => 2 * t)
    (fun t _ => (d' t).continuousAt.continuousWithinAt) (fun t _ => d' t)
  obtain ⟨x, hx, ex⟩ := exists_hasDerivAt_eq_slope f1 f2 (show m - c < m + c by linarith [hc.1])
    (fun t ht => (h2 t ⟨by linarith [ht.1, hc.2], by linarith [ht.2, hc.2]⟩).continuousAt.continuousWithinAt)
    (fun t ht => h2 t ⟨by linarith [ht.1, hc.2], by linarith [ht.2, hc.2]⟩)
  refine ⟨x, ⟨by linarith [hx.1, hc.2], by linarith [hx.2, hc.2]⟩, ?_⟩
  have hc0 : c ≠ 0 := hc.1.ne'
  have e2 : f1 (m + c) - f1 (m - c) = f2 x * (2 * c) := by
    rw [ex, show m + c - (m - c) = 2 * c by ring, div_mul_cancel₀ _ (by simpa using hc0)]
  simp only [add_zero, sub_zero] at e
  rw [e2] at e
  have e3 : f (m + L) + f (m - L) - (f m + f m) = f2 x * L ^ 2 := by
    have : (2 * c) * (f (m + L) + f (m - L) - (f m + f m)) = (2 * c) * (f2 x * L ^ 2) := by linear_combination -e
    exact mul_left_cancel₀ (by simpa using hc0) this
  rw [show (m - L + (m + L)) / 2 = m by ring, show m + L - (m - L) = 2 * L by ring]
  linear_combination e3 / 2

end Verif.Quad
