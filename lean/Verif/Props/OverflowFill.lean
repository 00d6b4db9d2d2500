import Verif.Proofs.OvFill
import Verif.Props.OverflowVii

/-!
# C113: no overflow in the extrapolation of borders
-/

namespace Verif.Props
open Verif Verif.Interpolator Verif.Ov Verif.Err Verif.Fl

variable {r : Rounding} {ε : ℝ}

/-- a position: an integer of at most `2^31` -/
def IntPos (x : Fl r) : Prop := ∃ n : ℤ, x = val (n : ℝ) ∧ |n| ≤ 2 ^ 31

private theorem rnd_ge (h : LibRel r ε) (hε : ε ≤ 1 / 100) (x : ℝ) : 0.99 * |x| ≤ |r.rnd x| := by
  have := (rel_rnd h.u x).le_abs
  have h0 := abs_nonneg x
  nlinarith

section
variable (h : LibRel r ε) (hε : ε ≤ 1 / 100) {maxF : ℝ} (hmax : (10 : ℝ) ^ 37 ≤ maxF)
include hmax

private theorem bd {C : ℝ} (hC : C ≤ 10 ^ 37) : C ≤ (flLimit h hε maxF).bound := hC.trans hmax

omit hmax in
private theorem pos_in {x : Fl r} (hx : IntPos x) : Same (mk x : Ov (flLimit h hε maxF)) x (2 ^ 31) := by
  obtain ⟨n, rfl, hn⟩ := hx
  refine Same.input (le_trans (le_of_eq ((Fl.approx h hε).mag_some rfl)) ?_)
  exact_mod_cast hn

private theorem weight_same {p0 p1 x : Fl r} (h0 : IntPos p0) (h1 : IntPos p1) (hx : IntPos x) :
    Same ((mk x - mk p1) / (Arith.lit 10 1 * (mk p0 - mk p1)) : Ov (flLimit h hε maxF)) ((x - p1) / (Arith.lit 10 1 * (p0 - p1))) (1.5 * 10 ^ 10) := by
  have s1 := (pos_in h hε hx).sub (pos_in h hε h1) (C := 6 * 10 ^ 9) (by norm_num) (bd h hε hmax (by norm_num))
  have s2 := (pos_in h hε h0).sub (pos_in h hε h1) (C := 6 * 10 ^ 9) (by norm_num) (bd h hε hmax (by norm_num))
  have s3 : Same (Arith.lit 10 1 : Ov (flLimit h hε maxF)) (Arith.lit 10 1) 2 := Same.lit 10 1 (by norm_num) (bd h hε hmax (by norm_num))
  have s4 := s3.mul s2 (C := 10 ^ 11) (by norm_num) (bd h hε hmax (by norm_num))
  obtain ⟨n0, rfl, -⟩ := h0
  obtain ⟨n1, rfl, -⟩ := h1
  by_cases e : n0 = n1
  · refine s1.div' s4 ?_ (bd h hε hmax (by norm_num))
    subst e
    rw [(Fl.approx h hε).mag_none ?_]
    · norm_num
    · refine (Fl.approx h hε).div_n _ _ (Or.inr (Or.inr ?_))
      obtain ⟨c, hc, -⟩ := (Fl.approx h hε).lit_v 10 1
      obtain ⟨d, hd, hd'⟩ := (Fl.approx h hε).mul_v (Arith.lit 10 1) (val (n0 : ℝ) - val (n0 : ℝ)) c 0 hc
        (by rw [val_sub, sub_self, r.rnd_rep rep_zero]; rfl)
      rw [mul_zero, abs_zero, zero_div, sub_zero, abs_nonpos_iff] at hd'
      rw [hd, hd']
  · have k1 : 0.9 ≤ (Fl.approx h hε).mag (val (n0 : ℝ) - val (n1 : ℝ)) := by
      rw [val_sub, (Fl.approx h hε).mag_some rfl]
      have := rnd_ge h hε ((n0 : ℝ) - n1)
      have k : (1 : ℝ) ≤ |(n0 : ℝ) - n1| := by exact_mod_cast Int.one_le_abs (sub_ne_zero.2 e)
      linarith
    have k2 := ((Fl.approx h hε).mag_lit 10 1).2
    have k3 := ((Fl.approx h hε).mag_mul (Arith.lit 10 1) (val (n0 : ℝ) - val (n1 : ℝ))).2
    refine s1.div s4 (D := 0.5) ?_ (by norm_num) (by norm_num) (bd h hε hmax (by norm_num))
    norm_num at k2
    nlinarith

/-- what `k` extrapolations make of data of at most `10^10` -/
private theorem agree : Agree (α := Fl r) (Ov.instArith : Arith (Ov (flLimit h hε maxF))) inferInstance IntPos
    (fun k x => (Fl.approx h hε).mag x ≤ 10 ^ 10 * (10 ^ 11) ^ k) 2 (2 ^ 31) where
  lt := rfl
  le := rfl
  eq := rfl
  mono k x hx := hx.trans (by
    rw [pow_succ (10 ^ 11 : ℝ) k, ← mul_assoc]
    exact le_mul_of_one_le_right (by positivity) (by norm_num))
  ext k p0 p1 d0 d1 x hk h0 h1 hx q0 q1 := by
    have w := weight_same h hε hmax h0 h1 hx
    have s0 : Same (mk d0 : Ov (flLimit h hε maxF)) d0 _ := Same.input q0
    have s1 : Same (mk d1 : Ov (flLimit h hε maxF)) d1 _ := Same.input q1
    have hD : (0 : ℝ) ≤ 10 ^ 10 * (10 ^ 11) ^ k := by positivity
    have hD' : (10 : ℝ) ^ 10 * (10 ^ 11) ^ k ≤ 10 ^ 21 := by
      have : (10 : ℝ) ^ 11 * 1 ≥ (10 ^ 11) ^ k := by
        rw [mul_one]
        exact le_trans (pow_le_pow_right₀ (by norm_num) (by omega : k ≤ 1)) (by norm_num)
      calc (10 : ℝ) ^ 10 * (10 ^ 11) ^ k ≤ 10 ^ 10 * (10 ^ 11 * 1) := mul_le_mul_of_nonneg_left this (by norm_num)
        _ ≤ _ := by norm_num
    rw [pow_succ (10 ^ 11 : ℝ) k, ← mul_assoc]
    generalize (10 : ℝ) ^ 10 * (10 ^ 11) ^ k = D at *
    have d := s0.sub s1 (C := 2.5 * D) (by linarith) (bd h hε hmax (by linarith))
    have p := w.mul d (C := 5 * 10 ^ 10 * D) (by linarith) (bd h hε hmax (by linarith))
    have t := s1.add p (C := D * 10 ^ 11) (by linarith) (bd h hε hmax (by linarith))
    exact ⟨t.1, t.2⟩
  ratio l k hl hk hl' hk' := by
    have a1 : (l : ℝ) ≤ 2 ^ 31 := by exact_mod_cast hl'
    have a2 : (k : ℝ) ≤ 2 ^ 31 := by exact_mod_cast hk'
    have a3 : (1 : ℝ) ≤ k := by exact_mod_cast hk
    have s1 : Same (Arith.ofInt (l : ℤ) : Ov (flLimit h hε maxF)) (Arith.ofInt (l : ℤ)) (3 * 10 ^ 9) :=
      Same.ofInt _ (by rw [Int.cast_natCast, Nat.abs_cast]; linarith) (bd h hε hmax (by norm_num))
    have s2 : Same (Arith.ofInt (k : ℤ) : Ov (flLimit h hε maxF)) (Arith.ofInt (k : ℤ)) (3 * 10 ^ 9) :=
      Same.ofInt _ (by rw [Int.cast_natCast, Nat.abs_cast]; linarith) (bd h hε hmax (by norm_num))
    have lo := ((Fl.approx h hε).mag_ofInt (k : ℤ)).2
    rw [Int.cast_natCast, Nat.abs_cast] at lo
    exact (s1.div s2 (D := 0.75) (C := 10 ^ 10) (by linarith) (by norm_num) (by norm_num) (bd h hε hmax (by norm_num))).1
  quot n l k hl hk hn hl' hk' := by
    have a0 : (n : ℝ) ≤ 2 * 2 ^ 31 := by exact_mod_cast hn
    have a2 : (k : ℝ) ≤ 2 ^ 31 := by exact_mod_cast hk'
    have a3 : (1 : ℝ) ≤ k := by exact_mod_cast hk
    have a4 : (1 : ℝ) ≤ l := by exact_mod_cast hl
    have s1 : Same (Arith.ofInt (n : ℤ) : Ov (flLimit h hε maxF)) (Arith.ofInt (n : ℤ)) (6 * 10 ^ 9) :=
      Same.ofInt _ (by rw [Int.cast_natCast, Nat.abs_cast]; linarith) (bd h hε hmax (by norm_num))
    obtain ⟨a, ea, ha⟩ := (Fl.approx h hε).ofInt_v (l : ℤ)
    obtain ⟨b, eb, hb⟩ := (Fl.approx h hε).ofInt_v (k : ℤ)
    rw [Int.cast_natCast, Nat.abs_cast] at ha hb
    have ha := abs_le.1 ha
    have hb := abs_le.1 hb
    have hb0 : 0 < b := by linarith
    obtain ⟨c, ec, hc⟩ := (Fl.approx h hε).div_v _ _ a b ea eb hb0.ne'
    have hq : (1 : ℝ) / 2 ^ 32 ≤ a / b := by
      rw [div_le_div_iff₀ (by norm_num) hb0]
      linarith
    have hq0 : 0 ≤ a / b := le_trans (by norm_num) hq
    rw [abs_of_nonneg hq0] at hc
    have hc := abs_le.1 hc
    have hf : (1 : ℝ) / 2 ^ 33 ≤ (Fl.approx h hε).mag (Arith.ofInt (l : ℤ) / Arith.ofInt (k : ℤ)) := by
      rw [(Fl.approx h hε).mag_some ec]
      refine le_trans ?_ (le_abs_self c)
      norm_num at hq ⊢
      linarith
    have s2 : Same (mk (Arith.ofInt (l : ℤ) / Arith.ofInt (k : ℤ)) : Ov (flLimit h hε maxF)) (Arith.ofInt (l : ℤ) / Arith.ofInt (k : ℤ)) _ := Same.input le_rfl
    exact (s1.div s2 (D := 1 / 2 ^ 33) (C := 10 ^ 20) hf (by norm_num) (by norm_num) (bd h hε hmax (by norm_num))).1

end

/-- the attributes of an interpolator in the arithmetic with overflow -/
noncomputable def ovInterp {α : Type} [Trig α] {m : Approx α} (L : Limit m) (st : Interp α) : Interp (Ov L) :=
  ⟨st.rowIdx.map mk, st.colIdx.map mk, st.hrowIdx.map mk, st.hcolIdx.map mk, st.chunk, st.tieData.map (List.map (List.map mk)), st.kx, st.ky⟩

private theorem ovInterp_eq {α : Type} [Trig α] {m : Approx α} (L : Limit m) (st : Interp α) : ovInterp L st = st := by
  have e (l : List α) : l.map (mk : α → Ov L) = l := List.map_id l
  have e2 (d : Mat α) : d.map (List.map (mk : α → Ov L)) = d := by
    rw [show (List.map (mk : α → Ov L) : List α → List (Ov L)) = (id : List α → List α) from funext e]
    exact List.map_id d
  have e3 (d : List (Mat α)) : d.map (List.map (List.map (mk : α → Ov L))) = d := by
    rw [show (List.map (List.map (mk : α → Ov L)) : Mat α → Mat (Ov L)) = (id : Mat α → Mat α) from funext e2]
    exact List.map_id d
  unfold ovInterp
  rw [e, e, e, e, e3]
  rfl

/-- **C113**: `fill_borders` with each dimension at most once (or with unknown ones), any chunk size, at most `2^31` rows, positions that are integers
of at most `2^31` (in any order, also repeated) and data that are NaN or at most `10^10`: the outcome, with the arrays and positions left behind, is
the one of arithmetic without overflow. -/
theorem C113_fill (h : LibRel r ε) (hε : ε ≤ 1 / 100) (maxF : ℝ) (hmax : (10 : ℝ) ^ 37 ≤ maxF) (args : List String) (hnd : args.Nodup)
    (st : Interp (Fl r)) (hpos : ∀ x, x ∈ st.rowIdx ∨ x ∈ st.colIdx ∨ x ∈ st.hrowIdx ∨ x ∈ st.hcolIdx → IntPos x)
    (hdata : ∀ d ∈ st.tieData, ∀ row ∈ d, ∀ x, val x ∈ row → |x| ≤ 10 ^ 10)
    (hr : st.rowIdx.length ≤ 2 ^ 31) (hl : st.hrowIdx.length ≤ 2 ^ 31) (hc : st.chunk ≤ 2 ^ 31) :
    fillBorders args (ovInterp (flLimit h hε maxF) st) = ((fillBorders args st).1, ovInterp _ (fillBorders args st).2) := by
  rw [ovInterp_eq, ovInterp_eq]
  refine fillBorders_same (agree h hε hmax) args hnd (st := st) ⟨fun x hx => hpos x (by simp [hx]), fun x hx => hpos x (by simp [hx]),
    fun x hx => hpos x (by simp [hx]), fun x hx => hpos x (by simp [hx]), ?_⟩ hr hl hc
  intro d hd row hrow x hx
  simp only [pow_zero, mul_one]
  cases x with
  | val a => rw [(Fl.approx h hε).mag_some rfl]; exact hdata d hd row hrow a hx
  | bad => rw [(Fl.approx h hε).mag_none rfl]; norm_num

/-- **C113 (the limit is a limit)**: when the two data are the largest number and minus it, their difference overflows, and the result is no finite
number whatever the positions; without overflow it is one at the second of two different integer positions.  (In the code zero times infinity is NaN,
anything else times infinity is infinite or NaN, and either stays so when a number is added.) -/
theorem C113_limit (h : LibRel r ε) (hε : ε ≤ 1 / 100) (maxF : ℝ) (hmax : (10 : ℝ) ^ 37 ≤ maxF) (n0 n1 : ℤ) (hn : n0 ≠ n1) :
    (∃ v, extrap1 (val (n0 : ℝ) : Fl r) (val n1) (val maxF) (val (-maxF)) (val n1) = val v) ∧
    ∀ p0 p1 x : Fl r, extrap1 (mk p0 : Ov (flLimit h hε maxF)) (mk p1) (mk (val maxF)) (mk (val (-maxF))) (mk x) = mk .bad := by
  have hM : 0 < maxF := lt_of_lt_of_le (by positivity) hmax
  constructor
  · have k1 : 0.9 ≤ (Fl.approx h hε).mag (val (n0 : ℝ) - val (n1 : ℝ)) := by
      rw [val_sub, (Fl.approx h hε).mag_some rfl]
      have := rnd_ge h hε ((n0 : ℝ) - n1)
      have k : (1 : ℝ) ≤ |(n0 : ℝ) - n1| := by exact_mod_cast Int.one_le_abs (sub_ne_zero.2 hn)
      linarith
    have k2 := ((Fl.approx h hε).mag_lit 10 1).2
    have k3 := ((Fl.approx h hε).mag_mul (Arith.lit 10 1) (val (n0 : ℝ) - val (n1 : ℝ))).2
    have k4 : 0 < (Fl.approx h hε).mag (Arith.lit 10 1 * (val (n0 : ℝ) - val (n1 : ℝ))) := by
      norm_num at k2
      nlinarith
    obtain ⟨c, ec⟩ : ∃ c, (Fl.approx h hε).value (Arith.lit 10 1 * (val (n0 : ℝ) - val (n1 : ℝ))) = some c := by
      cases e : (Fl.approx h hε).value (Arith.lit 10 1 * (val (n0 : ℝ) - val (n1 : ℝ))) with
      | none => rw [(Fl.approx h hε).mag_none e] at k4; exact absurd k4 (lt_irrefl _)
      | some c => exact ⟨c, rfl⟩
    have c0 : c ≠ 0 := by
      rw [(Fl.approx h hε).mag_some ec] at k4
      exact abs_pos.1 k4
    obtain ⟨w, ew, -⟩ := (Fl.approx h hε).div_v (val (n1 : ℝ) - val (n1 : ℝ)) _ _ c (by rw [val_sub]; rfl) ec c0
    obtain ⟨m, em, -⟩ := (Fl.approx h hε).mul_v _ (val maxF - val (-maxF)) w _ ew (by rw [val_sub]; rfl)
    obtain ⟨v, ev, -⟩ := (Fl.approx h hε).add_v (val (-maxF)) _ _ m rfl em
    have fin (y : Fl r) (hy : (Fl.approx h hε).value y = some v) : ∃ v, y = val v := by
      cases y with
      | val a => exact ⟨a, rfl⟩
      | bad => cases hy
    exact fin _ ev
  · intro p0 p1 x
    have cb : (clip .bad : Ov (flLimit h hε maxF)) = mk .bad := if_pos trivial
    have hsub : (mk (.val maxF) - mk (.val (-maxF)) : Ov (flLimit h hε maxF)) = mk .bad := by
      refine if_neg ?_
      show ¬ |r.rnd (maxF - -maxF)| ≤ maxF
      have h1 := rnd_ge h hε (maxF - -maxF)
      rw [show maxF - -maxF = 2 * maxF by ring, abs_of_pos (by linarith : 0 < 2 * maxF)] at h1
      rw [show maxF - -maxF = 2 * maxF by ring, not_le]
      linarith
    have mulb (y : Ov (flLimit h hε maxF)) : (y * mk .bad : Ov (flLimit h hε maxF)) = mk .bad :=
      (congrArg clip (show Arith.mul y.get (Fl.bad : Fl r) = .bad by cases y.get <;> rfl)).trans cb
    have addb (y : Ov (flLimit h hε maxF)) : (y + mk .bad : Ov (flLimit h hε maxF)) = mk .bad :=
      (congrArg clip (show Arith.add y.get (Fl.bad : Fl r) = .bad by cases y.get <;> rfl)).trans cb
    unfold extrap1
    rw [hsub, mulb, addb]

/-! ### examples -/

/-- two arrays, one with a NaN, two scans of two rows, all four borders missing -/
example := C113_fill (libRel_correct 53 (by norm_num)) double_u maxFloat64 maxFloat64_ge ["x", "y"] (by decide)
  ⟨[1, 3, 6, 8].map (fun n : ℤ => val (n : ℝ)), [2, 5, 7].map (fun n : ℤ => val (n : ℝ)), (List.range 10).map (fun n : ℕ => val ((n : ℤ) : ℝ)),
    (List.range 10).map (fun n : ℕ => val ((n : ℤ) : ℝ)), 5,
    [List.replicate 4 [val 6371000, bad, val (-6371000)], List.replicate 4 [val 1, val 2, val (10 ^ 10)]], 1, 1⟩ (by
    intro x hx
    simp only [List.mem_map, List.mem_range] at hx
    rcases hx with ⟨n, hn, rfl⟩ | ⟨n, hn, rfl⟩ | ⟨n, hn, rfl⟩ | ⟨n, hn, rfl⟩
    · refine ⟨n, rfl, ?_⟩
      simp at hn
      rcases hn with rfl | rfl | rfl | rfl <;> norm_num
    · refine ⟨n, rfl, ?_⟩
      simp at hn
      rcases hn with rfl | rfl | rfl <;> norm_num
    · refine ⟨n, rfl, ?_⟩
      rw [abs_of_nonneg (by omega)]
      norm_num
      omega
    · refine ⟨n, rfl, ?_⟩
      rw [abs_of_nonneg (by omega)]
      norm_num
      omega) (by
    intro d hd row hrow x hx
    simp only [List.mem_cons, List.not_mem_nil, or_false] at hd
    rcases hd with rfl | rfl <;> obtain rfl := List.eq_of_mem_replicate hrow <;>
      simp only [List.mem_cons, List.not_mem_nil, or_false, Fl.val.injEq, reduceCtorEq, false_or] at hx
    · rcases hx with rfl | rfl <;> norm_num [abs_le]
    · rcases hx with rfl | rfl | rfl <;> norm_num [abs_le]) (by simp) (by simp) (by norm_num)

example := C113_limit (libRel_correct 53 (by norm_num)) double_u maxFloat64 maxFloat64_ge 3 8 (by norm_num)

end Verif.Props
