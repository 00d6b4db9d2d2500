import Mathlib.Analysis.SpecialFunctions.Trigonometric.Arctan
import Mathlib.Analysis.SpecialFunctions.Trigonometric.Angle
import Mathlib.Tactic.Linarith
import Mathlib.Tactic.Positivity
import Mathlib.Tactic.FieldSimp
import Mathlib.Tactic.LinearCombination
import Verif.Spec.Geo
import Verif.Spec.Vii

/-!
# Longitudes of the points of a cell

The points between four points of the sphere whose longitudes are less than 180 degrees apart: seen from the axis, along the middle
meridian `α`, they are at `arctan (N / D)`, where `N / D` is a mean of the tangents of the four.
-/

namespace Verif.LonOrder
open Real Verif.Spec

/-- a weighted mean of two groups, the second above the first, grows with the weight of the second -/
theorem mean_lt {a b ta tb s s' : ℝ} (ha : 0 < a) (hb : 0 < b) (ht : ta < tb) (h0 : 0 ≤ s) (hs : s < s') (h1 : s' ≤ 1) :
    ((1 - s) * (a * ta) + s * (b * tb)) / ((1 - s) * a + s * b) < ((1 - s') * (a * ta) + s' * (b * tb)) / ((1 - s') * a + s' * b) := by
  have d1 : 0 < (1 - s) * a + s * b := by
    have : 0 < (1 - s) * a := mul_pos (by linarith) ha
    have : 0 ≤ s * b := mul_nonneg h0 hb.le
    linarith
  have d2 : 0 < (1 - s') * a + s' * b := by
    have : 0 ≤ (1 - s') * a := mul_nonneg (by linarith) ha.le
    have : 0 < s' * b := mul_pos (by linarith) hb
    linarith
  rw [div_lt_div_iff₀ d1 d2]
  have : 0 < (s' - s) * (a * b) * (tb - ta) := mul_pos (mul_pos (by linarith) (mul_pos ha hb)) (by linarith)
  nlinarith [this]

/-- the mean of two is between them -/
theorem mean_between {a b ta tb lo hi t : ℝ} (ha : 0 < a) (hb : 0 < b) (t0 : 0 ≤ t) (t1 : t ≤ 1) (h1 : lo ≤ ta) (h2 : lo ≤ tb)
    (h3 : ta ≤ hi) (h4 : tb ≤ hi) :
    0 < (1 - t) * a + t * b ∧ lo * ((1 - t) * a + t * b) ≤ (1 - t) * (a * ta) + t * (b * tb) ∧
      (1 - t) * (a * ta) + t * (b * tb) ≤ hi * ((1 - t) * a + t * b) := by
  have u : 0 ≤ 1 - t := by linarith
  have p1 : 0 ≤ (1 - t) * a * (ta - lo) := mul_nonneg (mul_nonneg u ha.le) (by linarith)
  have p2 : 0 ≤ t * b * (tb - lo) := mul_nonneg (mul_nonneg t0 hb.le) (by linarith)
  have p3 : 0 ≤ (1 - t) * a * (hi - ta) := mul_nonneg (mul_nonneg u ha.le) (by linarith)
  have p4 : 0 ≤ t * b * (hi - tb) := mul_nonneg (mul_nonneg t0 hb.le) (by linarith)
  refine ⟨?_, by nlinarith, by nlinarith⟩
  rcases eq_or_lt_of_le t0 with h | h
  · rw [← h]; linarith
  · have : 0 < t * b := mul_pos h hb
    have : 0 ≤ (1 - t) * a := mul_nonneg u ha.le
    linarith

theorem cos_mul_tan {x : ℝ} (h1 : -(π / 2) < x) (h2 : x < π / 2) : cos x * tan x = sin x := by
  rw [tan_eq_sin_div_cos]
  have := (cos_pos_of_mem_Ioo ⟨h1, h2⟩).ne'
  field_simp

/-- Points `r i` from the axis at angles `α + x i`, the two on the left before the two on the right: the angle of their mean, for the
weights `t` and `s`. -/
structure Four where
  r : Fin 2 → Fin 2 → ℝ
  x : Fin 2 → Fin 2 → ℝ
  pos : ∀ a b, 0 < r a b
  lo : ∀ a b, -(π / 2) < x a b
  hi : ∀ a b, x a b < π / 2
  lt : ∀ a a', x a 0 < x a' 1

namespace Four
variable (q : Four)

noncomputable def c (a b : Fin 2) : ℝ := q.r a b * cos (q.x a b)

noncomputable def bil (f : Fin 2 → Fin 2 → ℝ) (t s : ℝ) : ℝ :=
  (1 - t) * ((1 - s) * f 0 0 + s * f 0 1) + t * ((1 - s) * f 1 0 + s * f 1 1)

/-- across -/
noncomputable def N (t s : ℝ) : ℝ := bil (fun a b => q.r a b * sin (q.x a b)) t s

/-- ahead -/
noncomputable def D (t s : ℝ) : ℝ := bil q.c t s

/-- the angle -/
noncomputable def th (t s : ℝ) : ℝ := arctan (q.N t s / q.D t s)

theorem c_pos (a b : Fin 2) : 0 < q.c a b := mul_pos (q.pos a b) (cos_pos_of_mem_Ioo ⟨q.lo a b, q.hi a b⟩)

theorem c_tan (a b : Fin 2) : q.r a b * sin (q.x a b) = q.c a b * tan (q.x a b) := by
  rw [c, mul_assoc, cos_mul_tan (q.lo a b) (q.hi a b)]

/-- one column -/
theorem column (b : Fin 2) {t lo hi : ℝ} (t0 : 0 ≤ t) (t1 : t ≤ 1) (h1 : ∀ a, lo ≤ tan (q.x a b)) (h2 : ∀ a, tan (q.x a b) ≤ hi) :
    ∃ C T, 0 < C ∧ (1 - t) * q.c 0 b + t * q.c 1 b = C ∧
      (1 - t) * (q.r 0 b * sin (q.x 0 b)) + t * (q.r 1 b * sin (q.x 1 b)) = C * T ∧ lo ≤ T ∧ T ≤ hi := by
  obtain ⟨p, l, h⟩ := mean_between (q.c_pos 0 b) (q.c_pos 1 b) t0 t1 (h1 0) (h1 1) (h2 0) (h2 1)
  refine ⟨_, ((1 - t) * (q.c 0 b * tan (q.x 0 b)) + t * (q.c 1 b * tan (q.x 1 b))) / ((1 - t) * q.c 0 b + t * q.c 1 b), p, rfl,
    ?_, ?_, ?_⟩
  · rw [q.c_tan, q.c_tan]; field_simp
  · rw [le_div_iff₀ p]; exact l
  · rw [div_le_iff₀ p]; exact h

/-- the two columns -/
theorem columns {t : ℝ} (t0 : 0 ≤ t) (t1 : t ≤ 1) : ∃ C T C' T', 0 < C ∧ 0 < C' ∧ T < T' ∧
    (min (tan (q.x 0 0)) (tan (q.x 1 0)) ≤ T ∧ T' ≤ max (tan (q.x 0 1)) (tan (q.x 1 1))) ∧
    (∀ s, q.D t s = (1 - s) * C + s * C') ∧ ∀ s, q.N t s = (1 - s) * (C * T) + s * (C' * T') := by
  obtain ⟨C, T, p, e1, e2, b1, b2⟩ := q.column 0 (lo := min (tan (q.x 0 0)) (tan (q.x 1 0)))
    (hi := max (tan (q.x 0 0)) (tan (q.x 1 0))) t0 t1 (by intro a; fin_cases a <;> simp) (by intro a; fin_cases a <;> simp)
  obtain ⟨C', T', p', e1', e2', b1', b2'⟩ := q.column 1 (lo := min (tan (q.x 0 1)) (tan (q.x 1 1)))
    (hi := max (tan (q.x 0 1)) (tan (q.x 1 1))) t0 t1 (by intro a; fin_cases a <;> simp) (by intro a; fin_cases a <;> simp)
  have lt : ∀ a a', tan (q.x a 0) < tan (q.x a' 1) := fun a a' => tan_lt_tan_of_lt_of_lt_pi_div_two (q.lo _ _) (q.hi _ _) (q.lt a a')
  have : max (tan (q.x 0 0)) (tan (q.x 1 0)) < min (tan (q.x 0 1)) (tan (q.x 1 1)) :=
    max_lt (lt_min (lt _ _) (lt _ _)) (lt_min (lt _ _) (lt _ _))
  refine ⟨C, T, C', T', p, p', by linarith, ⟨b1, b2'⟩, ?_, ?_⟩
  · intro s; rw [← e1, ← e1', D, bil]; ring
  · intro s; rw [← e2, ← e2', N, bil]; ring

theorem D_pos {t s : ℝ} (t0 : 0 ≤ t) (t1 : t ≤ 1) (s0 : 0 ≤ s) (s1 : s ≤ 1) : 0 < q.D t s := by
  obtain ⟨C, T, C', T', p, p', _, _, e, _⟩ := q.columns t0 t1
  rw [e]
  exact (mean_between p p' s0 s1 (le_refl (0 : ℝ)) (le_refl 0) le_rfl le_rfl).1

/-- the angle grows along the row -/
theorem th_lt {t s s' : ℝ} (t0 : 0 ≤ t) (t1 : t ≤ 1) (s0 : 0 ≤ s) (hs : s < s') (s1 : s' ≤ 1) : q.th t s < q.th t s' := by
  obtain ⟨C, T, C', T', p, p', h, _, e1, e2⟩ := q.columns t0 t1
  unfold th
  apply arctan_strictMono
  rw [e1, e1, e2, e2]
  exact mean_lt p p' h s0 hs s1

/-- the angle is one of the cell -/
theorem th_mem {t s : ℝ} (t0 : 0 ≤ t) (t1 : t ≤ 1) (s0 : 0 ≤ s) (s1 : s ≤ 1) :
    min (q.x 0 0) (q.x 1 0) ≤ q.th t s ∧ q.th t s ≤ max (q.x 0 1) (q.x 1 1) := by
  obtain ⟨C, T, C', T', p, p', h, ⟨b1, b2⟩, e1, e2⟩ := q.columns t0 t1
  obtain ⟨d, l, u⟩ := mean_between p p' s0 s1 (le_refl T) h.le h.le (le_refl T')
  rw [← e1 s] at d l u
  rw [← e2 s] at l u
  have at' : ∀ a b, arctan (tan (q.x a b)) = q.x a b := fun a b => arctan_tan (q.lo a b) (q.hi a b)
  constructor
  · have : arctan (min (tan (q.x 0 0)) (tan (q.x 1 0))) ≤ q.th t s :=
      arctan_mono (le_trans b1 (by rw [le_div_iff₀ d]; exact l))
    rwa [arctan_mono.map_min, at', at'] at this
  · have : q.th t s ≤ arctan (max (tan (q.x 0 1)) (tan (q.x 1 1))) :=
      arctan_mono (le_trans (by rw [div_le_iff₀ d]; exact u) b2)
    rwa [arctan_mono.map_max, at', at'] at this

/-- the mean, in polar coordinates -/
theorem polar {t s : ℝ} (t0 : 0 ≤ t) (t1 : t ≤ 1) (s0 : 0 ≤ s) (s1 : s ≤ 1) :
    ∃ ρ, 0 < ρ ∧ q.D t s = ρ * cos (q.th t s) ∧ q.N t s = ρ * sin (q.th t s) := by
  have d := q.D_pos t0 t1 s0 s1
  have c : 0 < cos (q.th t s) := cos_arctan_pos (q.N t s / q.D t s)
  refine ⟨q.D t s / cos (q.th t s), div_pos d c, ?_, ?_⟩
  · rw [div_mul_cancel₀ _ c.ne']
  · have : sin (q.th t s) = q.N t s / q.D t s * cos (q.th t s) := by
      rw [← tan_arctan (q.N t s / q.D t s), ← th, tan_mul_cos c.ne']
    rw [this]
    field_simp [c.ne']

end Four

/-- two angles less than a turn apart with the same direction are equal -/
theorem angle_unique {a b : ℝ} (ha : -π < a) (ha' : a ≤ π) (hb : -π < b) (hb' : b ≤ π) (hc : cos a = cos b) (hs : sin a = sin b) :
    a = b := by
  have h : (a : Real.Angle) = b := Real.Angle.cos_sin_inj hc hs
  have h1 := Real.Angle.toReal_coe_eq_self_iff.2 ⟨ha, ha'⟩
  have h2 := Real.Angle.toReal_coe_eq_self_iff.2 ⟨hb, hb'⟩
  rw [← h1, ← h2, h]

/-- the order of the values of a row of cells, from the order in each -/
theorem row_order {n : Nat} {f : Nat → ℝ → ℝ} (hin : ∀ l < n, ∀ s s', 0 ≤ s → s < s' → s' ≤ 1 → f l s < f l s')
    (hj : ∀ l, l + 1 < n → f l 1 = f (l + 1) 0) (l : Nat) :
    ∀ l', l' < n → ∀ s s', 0 ≤ s → s ≤ 1 → 0 ≤ s' → s' ≤ 1 → (l : ℝ) + s < l' + s' → l ≤ l' → f l s < f l' s' := by
  intro l'
  induction l' with
  | zero =>
    intro hl s s' s0 _ _ s1' h hle
    obtain rfl : l = 0 := by omega
    exact hin 0 hl s s' s0 (by simpa using h) s1'
  | succ k ih =>
    intro hl s s' s0 s1 s0' s1' h hle
    rcases Nat.eq_or_lt_of_le hle with e | e
    · subst e
      exact hin _ hl s s' s0 (by linarith) s1'
    · have hk : l ≤ k := by omega
      have hkr : (l : ℝ) ≤ k := by exact_mod_cast hk
      push_cast at h
      have step : f k 1 = f (k + 1) 0 := hj k hl
      have first : f l s ≤ f k 1 := by
        rcases lt_or_ge ((l : ℝ) + s) (k + 1) with g | g
        · exact (ih (by omega) s 1 s0 s1 zero_le_one le_rfl g hk).le
        · have e1 : (l : ℝ) = k := by linarith
          have e2 : s = 1 := by linarith
          have : l = k := by exact_mod_cast e1
          rw [this, e2]
      rcases eq_or_lt_of_le s0' with g | g
      · rw [← g, ← step]
        exact ih (by omega) s 1 s0 s1 zero_le_one le_rfl (by rw [← g] at h; linarith) hk
      · calc f l s ≤ f k 1 := first
          _ = f (k + 1) 0 := step
          _ < f (k + 1) s' := hin _ hl 0 s' le_rfl g s1'

end Verif.LonOrder
