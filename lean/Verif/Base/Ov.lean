import Verif.Base.Mx
import Verif.Base.RealTrig
import Mathlib.Analysis.Real.Pi.Bounds

/-!
# Overflow

The arithmetics `Fl r` and `Mx q` have numbers of any size.  `Ov L` is any arithmetic `α` in which every result that is too large to be
stored (`L` says which ones can be) is replaced by an overflow (an infinity; like every infinity it is merged with NaN).  `Approx α` says what is needed of `α` to
follow the size of results: its values are real numbers or no numbers, and every operation has a relative error of at most a
quarter.
-/

namespace Verif

/-- An arithmetic whose results are within a quarter of the exact ones. -/
structure Approx (α : Type) [Trig α] where
  value : α → Option ℝ
  /-- what is stored on overflow -/
  over : α
  over_v : value over = none
  ofInt_v : ∀ n : ℤ, ∃ c, value (Arith.ofInt n) = some c ∧ |c - n| ≤ |(n : ℝ)| / 4
  lit_v : ∀ k e : ℕ, ∃ c, value (Arith.lit k e) = some c ∧ |c - k / (10 : ℝ) ^ e| ≤ k / (10 : ℝ) ^ e / 4
  pi_v : ∃ c, value Trig.pi = some c ∧ |c - Real.pi| ≤ Real.pi / 4
  add_n : ∀ x y, value x = none ∨ value y = none → value (x + y) = none
  add_v : ∀ x y a b, value x = some a → value y = some b → ∃ c, value (x + y) = some c ∧ |c - (a + b)| ≤ (|a| + |b|) / 4
  sub_n : ∀ x y, value x = none ∨ value y = none → value (x - y) = none
  sub_v : ∀ x y a b, value x = some a → value y = some b → ∃ c, value (x - y) = some c ∧ |c - (a - b)| ≤ (|a| + |b|) / 4
  mul_n : ∀ x y, value x = none ∨ value y = none → value (x * y) = none
  mul_v : ∀ x y a b, value x = some a → value y = some b → ∃ c, value (x * y) = some c ∧ |c - a * b| ≤ |a * b| / 4
  div_n : ∀ x y, value x = none ∨ value y = none ∨ value y = some 0 → value (x / y) = none
  div_v : ∀ x y a b, value x = some a → value y = some b → b ≠ 0 → ∃ c, value (x / y) = some c ∧ |c - a / b| ≤ |a / b| / 4
  neg_v : ∀ x, value (-x) = (value x).map (- ·)
  sqrt_n : ∀ x, value x = none → value (Trig.sqrt x) = none
  sqrt_neg : ∀ x a, value x = some a → a < 0 → value (Trig.sqrt x) = none
  sqrt_v : ∀ x a, value x = some a → 0 ≤ a → ∃ c, value (Trig.sqrt x) = some c ∧ |c - √a| ≤ √a / 2
  sin_v : ∀ x c, value (Trig.sin x) = some c → |c| ≤ 2
  cos_v : ∀ x c, value (Trig.cos x) = some c → |c| ≤ 2
  asin_v : ∀ x c, value (Trig.asin x) = some c → |c| ≤ 5
  acos_v : ∀ x c, value (Trig.acos x) = some c → |c| ≤ 5
  toFloating_n : ∀ x, value x = none → value (Trig.toFloating x) = none
  toFloating_v : ∀ x a, value x = some a → ∃ c, value (Trig.toFloating x) = some c ∧ |c - a| ≤ |a| / 4
  toDouble_n : ∀ x, value x = none → value (Trig.toDouble x) = none
  toDouble_v : ∀ x a, value x = some a → ∃ c, value (Trig.toDouble x) = some c ∧ |c - a| ≤ |a| / 4

namespace Approx
variable {α : Type} [Trig α] (m : Approx α)

/-- absolute value of a number; 0 for what is no number -/
noncomputable def mag (x : α) : ℝ := match m.value x with
  | some a => |a|
  | none => 0

theorem mag_some {x : α} {a : ℝ} (h : m.value x = some a) : m.mag x = |a| := by unfold mag; rw [h]
theorem mag_none {x : α} (h : m.value x = none) : m.mag x = 0 := by unfold mag; rw [h]
theorem mag_nonneg (x : α) : 0 ≤ m.mag x := by unfold mag; split <;> positivity

private theorem tri {c a e : ℝ} (h : |c - a| ≤ e) : |c| ≤ |a| + e ∧ |a| - e ≤ |c| := by
  constructor
  · have := abs_add_le a (c - a); rw [add_sub_cancel] at this; linarith
  · have := abs_sub_abs_le_abs_sub a c; rw [abs_sub_comm] at this; linarith

theorem mag_ofInt (n : ℤ) : m.mag (Arith.ofInt n) ≤ 1.25 * |(n : ℝ)| ∧ 0.75 * |(n : ℝ)| ≤ m.mag (Arith.ofInt n) := by
  obtain ⟨c, h, e⟩ := m.ofInt_v n
  rw [m.mag_some h]
  obtain ⟨h1, h2⟩ := tri e
  constructor <;> linarith

theorem mag_lit (k e : ℕ) : m.mag (Arith.lit k e) ≤ 1.25 * (k / (10 : ℝ) ^ e) ∧ 0.75 * (k / (10 : ℝ) ^ e) ≤ m.mag (Arith.lit k e) := by
  obtain ⟨c, h, e'⟩ := m.lit_v k e
  rw [m.mag_some h]
  obtain ⟨h1, h2⟩ := tri e'
  have h0 : 0 ≤ (k : ℝ) / (10 : ℝ) ^ e := by positivity
  rw [abs_of_nonneg h0] at h1 h2
  constructor <;> linarith

theorem mag_pi : m.mag Trig.pi ≤ 4 ∧ 2 ≤ m.mag Trig.pi := by
  obtain ⟨c, h, e⟩ := m.pi_v
  rw [m.mag_some h]
  obtain ⟨h1, h2⟩ := tri e
  rw [abs_of_pos Real.pi_pos] at h1 h2
  have := Real.pi_gt_three
  have := Real.pi_lt_d2
  norm_num at this
  constructor <;> linarith

private theorem cases2 (x y : α) : (m.value x = none ∨ m.value y = none) ∨ ∃ a b, m.value x = some a ∧ m.value y = some b := by
  cases h : m.value x with
  | none => exact Or.inl (Or.inl rfl)
  | some a => cases h' : m.value y with
    | none => exact Or.inl (Or.inr rfl)
    | some b => exact Or.inr ⟨a, b, rfl, rfl⟩

theorem mag_add (x y : α) : m.mag (x + y) ≤ 1.25 * (m.mag x + m.mag y) := by
  rcases m.cases2 x y with h | ⟨a, b, ha, hb⟩
  · rw [m.mag_none (m.add_n x y h)]; have := m.mag_nonneg x; have := m.mag_nonneg y; positivity
  · obtain ⟨c, h, e⟩ := m.add_v x y a b ha hb
    rw [m.mag_some h, m.mag_some ha, m.mag_some hb]
    have := (tri e).1
    have := abs_add_le a b
    linarith

theorem mag_sub (x y : α) : m.mag (x - y) ≤ 1.25 * (m.mag x + m.mag y) := by
  rcases m.cases2 x y with h | ⟨a, b, ha, hb⟩
  · rw [m.mag_none (m.sub_n x y h)]; have := m.mag_nonneg x; have := m.mag_nonneg y; positivity
  · obtain ⟨c, h, e⟩ := m.sub_v x y a b ha hb
    rw [m.mag_some h, m.mag_some ha, m.mag_some hb]
    have := (tri e).1
    have := abs_sub a b
    linarith

theorem mag_mul (x y : α) : m.mag (x * y) ≤ 1.25 * (m.mag x * m.mag y) ∧ 0.75 * (m.mag x * m.mag y) ≤ m.mag (x * y) := by
  rcases m.cases2 x y with h | ⟨a, b, ha, hb⟩
  · have h0 : m.mag x * m.mag y = 0 := by
      rcases h with h | h <;> rw [m.mag_none h] <;> simp
    rw [m.mag_none (m.mul_n x y h), h0]; norm_num
  · obtain ⟨c, h, e⟩ := m.mul_v x y a b ha hb
    rw [m.mag_some h, m.mag_some ha, m.mag_some hb, ← abs_mul]
    have := tri e
    constructor <;> linarith

/-- a quotient, by a lower bound of the denominator -/
theorem mag_div (x y : α) : m.mag (x / y) * m.mag y ≤ 1.25 * m.mag x := by
  have hx := m.mag_nonneg x
  rcases m.cases2 x y with h | ⟨a, b, ha, hb⟩
  · rw [m.mag_none (m.div_n x y (by tauto))]; rw [zero_mul]; positivity
  · by_cases h0 : b = 0
    · rw [m.mag_none (m.div_n x y (Or.inr (Or.inr (by rw [hb, h0]))))]; rw [zero_mul]; positivity
    · obtain ⟨c, h, e⟩ := m.div_v x y a b ha hb h0
      rw [m.mag_some h, m.mag_some ha, m.mag_some hb]
      have h1 := (tri e).1
      have hb' := abs_pos.2 h0
      have : |c| ≤ 1.25 * (|a| / |b|) := by rw [← abs_div]; linarith
      calc |c| * |b| ≤ 1.25 * (|a| / |b|) * |b| := by gcongr
        _ = 1.25 * |a| := by field_simp

theorem mag_neg (x : α) : m.mag (-x) = m.mag x := by
  have h := m.neg_v x
  cases e : m.value x with
  | none => rw [e] at h; rw [m.mag_none h, m.mag_none e]
  | some a => rw [e] at h; rw [m.mag_some h, m.mag_some e, abs_neg]

theorem mag_sqrt (x : α) : m.mag (Trig.sqrt x) ^ 2 ≤ 2.25 * m.mag x := by
  have hx := m.mag_nonneg x
  cases e : m.value x with
  | none => rw [m.mag_none (m.sqrt_n x e)]; norm_num; exact hx
  | some a =>
    rcases lt_or_ge a 0 with h | h
    · rw [m.mag_none (m.sqrt_neg x a e h)]; norm_num; exact hx
    · obtain ⟨c, h1, h2⟩ := m.sqrt_v x a e h
      rw [m.mag_some h1, m.mag_some e, abs_of_nonneg h]
      have h3 := (tri h2).1
      rw [abs_of_nonneg (Real.sqrt_nonneg a)] at h3
      have h4 := Real.sq_sqrt h
      have := pow_le_pow_left₀ (abs_nonneg c) (h3.trans (by linarith : √a + √a / 2 ≤ 1.5 * √a)) 2
      nlinarith

private theorem mag_le_of {x : α} {B : ℝ} (hB : 0 ≤ B) (h : ∀ c, m.value x = some c → |c| ≤ B) : m.mag x ≤ B := by
  cases e : m.value x with
  | none => rw [m.mag_none e]; exact hB
  | some c => rw [m.mag_some e]; exact h c e

theorem mag_sin (x : α) : m.mag (Trig.sin x) ≤ 2 := m.mag_le_of (by norm_num) (m.sin_v x)
theorem mag_cos (x : α) : m.mag (Trig.cos x) ≤ 2 := m.mag_le_of (by norm_num) (m.cos_v x)
theorem mag_asin (x : α) : m.mag (Trig.asin x) ≤ 5 := m.mag_le_of (by norm_num) (m.asin_v x)
theorem mag_acos (x : α) : m.mag (Trig.acos x) ≤ 5 := m.mag_le_of (by norm_num) (m.acos_v x)

private theorem mag_conv {x y : α} (hn : m.value x = none → m.value y = none)
    (hv : ∀ a, m.value x = some a → ∃ c, m.value y = some c ∧ |c - a| ≤ |a| / 4) :
    m.mag y ≤ 1.25 * m.mag x ∧ 0.75 * m.mag x ≤ m.mag y := by
  cases e : m.value x with
  | none => rw [m.mag_none e, m.mag_none (hn e)]; norm_num
  | some a =>
    obtain ⟨c, h1, h2⟩ := hv a e
    rw [m.mag_some e, m.mag_some h1]
    have := tri h2
    constructor <;> linarith

theorem mag_toFloating (x : α) : m.mag (Trig.toFloating x) ≤ 1.25 * m.mag x ∧ 0.75 * m.mag x ≤ m.mag (Trig.toFloating x) :=
  m.mag_conv (m.toFloating_n x) (m.toFloating_v x)
theorem mag_toDouble (x : α) : m.mag (Trig.toDouble x) ≤ 1.25 * m.mag x ∧ 0.75 * m.mag x ≤ m.mag (Trig.toDouble x) :=
  m.mag_conv (m.toDouble_n x) (m.toDouble_v x)

/-- cosine of the longitude as the code computes it -/
theorem mag_unit (x y : α) : m.mag (x / Trig.sqrt (x * x + y * y)) ≤ 4 := by
  rcases m.cases2 x y with h | ⟨a, b, ha, hb⟩
  · have : m.value (x / Trig.sqrt (x * x + y * y)) = none := by
      apply m.div_n
      rcases h with h | h
      · exact Or.inl h
      · exact Or.inr (Or.inl (m.sqrt_n _ (m.add_n _ _ (Or.inr (m.mul_n _ _ (Or.inl h))))))
    rw [m.mag_none this]; norm_num
  · obtain ⟨p, p1, p2⟩ := m.mul_v x x a a ha ha
    obtain ⟨s, s1, s2⟩ := m.mul_v y y b b hb hb
    obtain ⟨t, t1, t2⟩ := m.add_v _ _ p s p1 s1
    rw [abs_of_nonneg (mul_self_nonneg a)] at p2
    rw [abs_of_nonneg (mul_self_nonneg b)] at s2
    have ha2 := mul_self_nonneg a
    have hb2 := mul_self_nonneg b
    have p3 := abs_le.1 p2
    have s3 := abs_le.1 s2
    have hp0 : 0 ≤ p := by linarith
    have hs0 : 0 ≤ s := by linarith
    rw [abs_of_nonneg hp0, abs_of_nonneg hs0] at t2
    have t3 := abs_le.1 t2
    have ht : 0.5 * (a * a) ≤ t := by linarith
    have ht0 : 0 ≤ t := le_trans (by positivity) ht
    obtain ⟨c, c1, c2⟩ := m.sqrt_v _ t t1 ht0
    have c3 := (abs_le.1 c2).1
    by_cases hc : c = 0
    · rw [m.mag_none (m.div_n x _ (Or.inr (Or.inr (by rw [c1, hc]))))]; norm_num
    obtain ⟨d, d1, d2⟩ := m.div_v x _ a c ha c1 hc
    rw [m.mag_some d1]
    have h7 : 0.7 * |a| ≤ √t := by
      apply Real.le_sqrt_of_sq_le
      rw [mul_pow, sq_abs]
      nlinarith
    have hc' : 0.35 * |a| ≤ |c| := le_trans (by linarith) (le_abs_self c)
    have hcp := abs_pos.2 hc
    have : |a / c| ≤ 3 := by
      rw [abs_div, div_le_iff₀ hcp]
      linarith [abs_nonneg a]
    have := (tri d2).1
    linarith

end Approx

/-- Which results can be stored: at least those of absolute value up to `bound`.  (The types of the program may have different
limits: what is of the type `double` can be stored up to `wide`.) -/
structure Limit {α : Type} [Trig α] (m : Approx α) where
  fits : α → Prop
  bound : ℝ
  fits_of_le : ∀ x, m.mag x ≤ bound → fits x
  /-- the values of type `double` -/
  dbl : α → Prop
  wide : ℝ
  fits_of_le_wide : ∀ x, dbl x → m.mag x ≤ wide → fits x
  dbl_toDouble : ∀ x, dbl (Trig.toDouble x)
  dbl_add : ∀ x y, dbl x → dbl y → dbl (x + y)
  dbl_mul : ∀ x y, dbl x → dbl y → dbl (x * y)

/-- `α` with overflow of all results that cannot be stored -/
def Ov {α : Type} [Trig α] {m : Approx α} (_L : Limit m) : Type := α

namespace Ov
variable {α : Type} [Trig α] {m : Approx α} {L : Limit m}

/-- the value as an element of `α` -/
def get (x : Ov L) : α := x
/-- an element of `α` (an input) -/
def mk (x : α) : Ov L := x

open Classical in
/-- overflow -/
noncomputable def clip (x : α) : Ov L := if L.fits x then (x : α) else (m.over : α)

noncomputable instance instArith : Arith (Ov L) where
  ofInt n := clip (Arith.ofInt (α := α) n)
  lit k e := clip (Arith.lit (α := α) k e)
  add x y := clip (Arith.add (α := α) x y)
  sub x y := clip (Arith.sub (α := α) x y)
  mul x y := clip (Arith.mul (α := α) x y)
  div x y := clip (Arith.div (α := α) x y)
  neg x := clip (Arith.neg (α := α) x)
  lt x y := Arith.lt (α := α) x y
  le x y := Arith.le (α := α) x y
  eq x y := Arith.eq (α := α) x y

noncomputable instance instTrig : Trig (Ov L) where
  toArith := instArith
  pi := clip (Trig.pi (α := α))
  sqrt x := clip (Trig.sqrt (α := α) x)
  sin x := clip (Trig.sin (α := α) x)
  cos x := clip (Trig.cos (α := α) x)
  asin x := clip (Trig.asin (α := α) x)
  acos x := clip (Trig.acos (α := α) x)
  toFloating x := clip (Trig.toFloating (α := α) x)
  toDouble x := clip (Trig.toDouble (α := α) x)

/-- `x` and `y` are the same, and at most `B` in absolute value -/
def Same (x : Ov L) (y : α) (B : ℝ) : Prop := x.get = y ∧ m.mag y ≤ B

theorem clip_same {x : α} {B : ℝ} (h : m.mag x ≤ B) (hB : B ≤ L.bound) : Same (clip x : Ov L) x B := by
  refine ⟨?_, h⟩
  exact if_pos (L.fits_of_le x (h.trans hB))

theorem clip_same_wide {x : α} {B : ℝ} (hd : L.dbl x) (h : m.mag x ≤ B) (hB : B ≤ L.wide) : Same (clip x : Ov L) x B :=
  ⟨if_pos (L.fits_of_le_wide x hd (h.trans hB)), h⟩

namespace Same
variable {x y : Ov L} {a b : α} {A B C : ℝ}

theorem nonneg (h : Same x a A) : 0 ≤ A := (m.mag_nonneg a).trans h.2
theorem mono (h : Same x a A) (hC : A ≤ C) : Same x a C := ⟨h.1, h.2.trans hC⟩
theorem eq (h : Same x a A) : x.get = a := h.1
theorem eq' (h : Same x a A) : x = mk a := h.1

theorem input (h : m.mag a ≤ A) : Same (mk a : Ov L) a A := ⟨rfl, h⟩

theorem ofInt (n : ℤ) (h : 1.25 * |(n : ℝ)| ≤ C) (hL : C ≤ L.bound) : Same (Arith.ofInt n : Ov L) (Arith.ofInt n) C :=
  clip_same ((m.mag_ofInt n).1.trans h) hL
theorem ofNat (n : ℕ) (h : 1.25 * (n : ℝ) ≤ C) (hL : C ≤ L.bound) : Same (OfNat.ofNat n : Ov L) (OfNat.ofNat n) C :=
  ofInt (n : ℤ) (by simpa using h) hL
theorem lit (k e : ℕ) (h : 1.25 * (k / (10 : ℝ) ^ e) ≤ C) (hL : C ≤ L.bound) : Same (Arith.lit k e : Ov L) (Arith.lit k e) C :=
  clip_same ((m.mag_lit k e).1.trans h) hL
theorem pi (h : 4 ≤ C) (hL : C ≤ L.bound) : Same (Trig.pi : Ov L) Trig.pi C := clip_same (m.mag_pi.1.trans h) hL

theorem add (hx : Same x a A) (hy : Same y b B) (h : 1.25 * (A + B) ≤ C) (hL : C ≤ L.bound) : Same (x + y) (a + b) C := by
  obtain ⟨rfl, h1⟩ := hx
  obtain ⟨rfl, h2⟩ := hy
  unfold get at *
  exact clip_same ((m.mag_add _ _).trans (by linarith)) hL
theorem sub (hx : Same x a A) (hy : Same y b B) (h : 1.25 * (A + B) ≤ C) (hL : C ≤ L.bound) : Same (x - y) (a - b) C := by
  obtain ⟨rfl, h1⟩ := hx
  obtain ⟨rfl, h2⟩ := hy
  unfold get at *
  exact clip_same ((m.mag_sub _ _).trans (by linarith)) hL
theorem mul (hx : Same x a A) (hy : Same y b B) (h : 1.25 * (A * B) ≤ C) (hL : C ≤ L.bound) : Same (x * y) (a * b) C := by
  have h0 := hx.nonneg
  obtain ⟨rfl, h1⟩ := hx
  obtain ⟨rfl, h2⟩ := hy
  unfold get at *
  refine clip_same ((m.mag_mul _ _).1.trans ?_) hL
  have := mul_le_mul h1 h2 (m.mag_nonneg _) h0
  linarith
/-- sum and product of doubles -/
theorem addD (hx : Same x a A) (hy : Same y b B) (da : L.dbl a) (db : L.dbl b) (h : 1.25 * (A + B) ≤ C) (hL : C ≤ L.wide) :
    Same (x + y) (a + b) C := by
  obtain ⟨rfl, h1⟩ := hx
  obtain ⟨rfl, h2⟩ := hy
  unfold get at *
  exact clip_same_wide (L.dbl_add _ _ da db) ((m.mag_add _ _).trans (by linarith)) hL
theorem mulD (hx : Same x a A) (hy : Same y b B) (da : L.dbl a) (db : L.dbl b) (h : 1.25 * (A * B) ≤ C) (hL : C ≤ L.wide) :
    Same (x * y) (a * b) C := by
  have h0 := hx.nonneg
  obtain ⟨rfl, h1⟩ := hx
  obtain ⟨rfl, h2⟩ := hy
  unfold get at *
  refine clip_same_wide (L.dbl_mul _ _ da db) ((m.mag_mul _ _).1.trans ?_) hL
  have := mul_le_mul h1 h2 (m.mag_nonneg _) h0
  linarith
/-- division, the size of the result given -/
theorem div' (hx : Same x a A) (hy : Same y b B) (h : m.mag (a / b) ≤ C) (hL : C ≤ L.bound) : Same (x / y) (a / b) C := by
  obtain ⟨rfl, h1⟩ := hx
  obtain ⟨rfl, h2⟩ := hy
  unfold get at *
  exact clip_same h hL
/-- division by a number of at least `D` -/
theorem div {D : ℝ} (hx : Same x a A) (hy : Same y b B) (hD : D ≤ m.mag b) (hD0 : 0 < D) (h : 1.25 * A ≤ C * D) (hL : C ≤ L.bound) :
    Same (x / y) (a / b) C := by
  refine hx.div' hy ?_ hL
  have h1 := m.mag_div a b
  have h2 := m.mag_nonneg (a / b)
  have h3 : m.mag (a / b) * D ≤ C * D := by
    calc m.mag (a / b) * D ≤ m.mag (a / b) * m.mag b := mul_le_mul_of_nonneg_left hD h2
      _ ≤ _ := h1
      _ ≤ 1.25 * A := by have := hx.2; linarith
      _ ≤ _ := h
  exact le_of_mul_le_mul_right h3 hD0
theorem neg (hx : Same x a A) (hL : A ≤ L.bound) : Same (-x) (-a) A := by
  obtain ⟨rfl, h1⟩ := hx
  unfold get at *
  refine clip_same ?_ hL
  exact (m.mag_neg _).le.trans h1
theorem sqrt (hx : Same x a A) (h : 2.25 * A ≤ C ^ 2) (hC : 0 ≤ C) (hL : C ≤ L.bound) : Same (Trig.sqrt x) (Trig.sqrt a) C := by
  obtain ⟨rfl, h1⟩ := hx
  unfold get at *
  refine clip_same ?_ hL
  exact le_of_sq_le_sq ((m.mag_sqrt _).trans (by linarith)) hC
theorem sin (hx : Same x a A) (hL : 2 ≤ L.bound) : Same (Trig.sin x) (Trig.sin a) 2 := by
  obtain ⟨rfl, h1⟩ := hx; exact clip_same (m.mag_sin _) hL
theorem cos (hx : Same x a A) (hL : 2 ≤ L.bound) : Same (Trig.cos x) (Trig.cos a) 2 := by
  obtain ⟨rfl, h1⟩ := hx; exact clip_same (m.mag_cos _) hL
theorem asin (hx : Same x a A) (hL : 5 ≤ L.bound) : Same (Trig.asin x) (Trig.asin a) 5 := by
  obtain ⟨rfl, h1⟩ := hx; exact clip_same (m.mag_asin _) hL
theorem acos (hx : Same x a A) (hL : 5 ≤ L.bound) : Same (Trig.acos x) (Trig.acos a) 5 := by
  obtain ⟨rfl, h1⟩ := hx; exact clip_same (m.mag_acos _) hL
theorem toFloating (hx : Same x a A) (h : 1.25 * A ≤ C) (hL : C ≤ L.bound) : Same (Trig.toFloating x) (Trig.toFloating a) C := by
  obtain ⟨rfl, h1⟩ := hx; unfold get at *; exact clip_same ((m.mag_toFloating _).1.trans (by linarith)) hL
theorem toDouble (hx : Same x a A) (h : 1.25 * A ≤ C) (hL : C ≤ L.bound) : Same (Trig.toDouble x) (Trig.toDouble a) C := by
  obtain ⟨rfl, h1⟩ := hx; unfold get at *; exact clip_same ((m.mag_toDouble _).1.trans (by linarith)) hL

theorem lt (hx : Same x a A) (hy : Same y b B) : Arith.lt x y = Arith.lt a b := by
  obtain ⟨rfl, h1⟩ := hx; obtain ⟨rfl, h2⟩ := hy; rfl
theorem le (hx : Same x a A) (hy : Same y b B) : Arith.le x y = Arith.le a b := by
  obtain ⟨rfl, h1⟩ := hx; obtain ⟨rfl, h2⟩ := hy; rfl
theorem eq_ (hx : Same x a A) (hy : Same y b B) : Arith.eq x y = Arith.eq a b := by
  obtain ⟨rfl, h1⟩ := hx; obtain ⟨rfl, h2⟩ := hy; rfl

/-- a choice on equal conditions -/
theorem ite {c : Bool} (hx : Same x a C) (hy : Same y b C) : Same (if c then x else y) (if c then a else b) C := by
  cases c <;> simpa

end Same

theorem same_csign_aux (hL : 2 ≤ L.bound) : Same (1 : Ov L) 1 2 ∧ Same (0 : Ov L) 0 2 ∧ Same (-1 : Ov L) (-1) 2 := by
  have h1 : Same (1 : Ov L) 1 2 := Same.ofNat 1 (by norm_num) hL
  exact ⟨h1, Same.ofNat 0 (by norm_num) hL, h1.neg hL⟩

end Ov
end Verif
