import Verif.Proofs.OvGeo
import Verif.Proofs.OvInst
import Verif.Proofs.FlVii

/-!
# The VII interpolation under overflow
-/

namespace Verif.Ov
open Verif Verif.Geo Verif.Vii Verif.Interpolator Verif.Err

variable {r : Rounding} {ε : ℝ} {h : LibRel r ε} {hε : ε ≤ 1 / 100} {L : Limit (Fl.approx h hε)}

/-- positions are the same -/
theorem pos_same (hL : (10 : ℝ) ^ 37 ≤ L.bound) (hp : r.p ≤ 100) {n : Nat} (hn : n ≤ 2 ^ r.p) :
    (Arith.ofInt (n : Int) : Ov L) = (Arith.ofInt (n : Int) : Fl r) := by
  refine (Same.ofInt (L := L) (n : Int) (C := 10 ^ 37) ?_ hL).1
  have h1 : (2 : ℝ) ^ r.p ≤ 2 ^ 100 := pow_le_pow_right₀ (by norm_num) hp
  have h2 : (n : ℝ) ≤ 2 ^ r.p := by exact_mod_cast hn
  rw [Int.cast_natCast, abs_of_nonneg (by positivity)]
  norm_num at h1 ⊢
  linarith

theorem nums_same (hL : (10 : ℝ) ^ 37 ≤ L.bound) (hp : r.p ≤ 100) {l : List Nat} (hl : ∀ n ∈ l, n ≤ 2 ^ r.p) :
    (nums l : List (Ov L)) = (nums l : List (Fl r)) :=
  List.map_congr_left (fun n hn => pos_same hL hp (hl n hn))

theorem tieGrid_le {n F : Nat} {B : Nat} (hb : (n - 1) * F ≤ B) : ∀ k ∈ tieGrid n F, k ≤ B := by
  intro k hk
  simp only [tieGrid, List.mem_map, List.mem_range] at hk
  obtain ⟨i, hi, rfl⟩ := hk
  exact le_trans (Nat.mul_le_mul_right _ (by omega)) hb

theorem zero_same (hL : (10 : ℝ) ^ 37 ≤ L.bound) : Same (0 : Ov L) (0 : Fl r) 0 :=
  Same.ofInt (L := L) 0 (by norm_num) (le_trans (by norm_num) hL)

/-- a point of the line through two values -/
theorem line_same {y0 y1 : Fl r} {M : ℝ} (h0 : (Fl.approx h hε).mag y0 ≤ M) (h1 : (Fl.approx h hε).mag y1 ≤ M) (hM : 7 * M ≤ L.bound)
    {a b x : ℝ} {F k : Nat} (hF : 0 < F) (hk : k ≤ F) (hFL : (F : ℝ) ≤ L.bound) (ea : r.rnd (a - b) = F) (ex : r.rnd (x - b) = k) :
    Same ((mk y1 - mk y0) / (mk (Fl.val a) - mk (Fl.val b)) * (mk (Fl.val x) - mk (Fl.val b)) + mk y0 : Ov L)
      ((y1 - y0) / (Fl.val a - Fl.val b) * (Fl.val x - Fl.val b) + y0) (7 * M) := by
  have hM0 : 0 ≤ M := ((Fl.approx h hε).mag_nonneg _).trans h0
  have hF' : (0 : ℝ) < F := by exact_mod_cast hF
  have hk' : (k : ℝ) ≤ F := by exact_mod_cast hk
  have m1 : (Fl.approx h hε).mag (Fl.val a - Fl.val b) = F := by
    rw [Fl.val_sub, ea, (Fl.approx h hε).mag_some rfl, abs_of_pos hF']
  have m2 : (Fl.approx h hε).mag (Fl.val x - Fl.val b) = k := by
    rw [Fl.val_sub, ex, (Fl.approx h hε).mag_some rfl, abs_of_nonneg (by positivity)]
  have d1 : Same (mk (Fl.val a) - mk (Fl.val b) : Ov L) (Fl.val a - Fl.val b) F := clip_same m1.le hFL
  have d2 : Same (mk (Fl.val x) - mk (Fl.val b) : Ov L) (Fl.val x - Fl.val b) k := clip_same m2.le (hk'.trans hFL)
  have dy : Same (mk y1 - mk y0 : Ov L) (y1 - y0) (2.5 * M) :=
    (Same.input h1).sub (Same.input h0) (by linarith) (by linarith)
  have hF1 : (1 : ℝ) ≤ F := by exact_mod_cast hF
  have sl : Same ((mk y1 - mk y0) / (mk (Fl.val a) - mk (Fl.val b)) : Ov L) ((y1 - y0) / (Fl.val a - Fl.val b)) (3.125 * M / F) :=
    dy.div d1 (D := F) m1.ge hF' (by rw [div_mul_cancel₀ _ hF'.ne']; linarith)
      (le_trans (div_le_self (by positivity) hF1) (by linarith))
  have pr : Same ((mk y1 - mk y0) / (mk (Fl.val a) - mk (Fl.val b)) * (mk (Fl.val x) - mk (Fl.val b)) : Ov L)
      ((y1 - y0) / (Fl.val a - Fl.val b) * (Fl.val x - Fl.val b)) (4 * M) := by
    refine sl.mul d2 ?_ (by linarith)
    have : 3.125 * M / F * k ≤ 3.125 * M := by
      rw [div_mul_eq_mul_div, div_le_iff₀ hF']
      exact mul_le_mul_of_nonneg_left hk' (by positivity)
    linarith
  exact pr.add (Same.input h0) (by linarith) hM

theorem getD_mag {ys : List (Fl r)} {M : ℝ} (hM : 0 ≤ M) (hys : ∀ y ∈ ys, (Fl.approx h hε).mag y ≤ M) (i : Nat) :
    (Fl.approx h hε).mag (ys.getD i 0) ≤ M := by
  by_cases hi : i < ys.length
  · rw [List.getD_eq_getElem?_getD, List.getElem?_eq_getElem hi, Option.getD_some]; exact hys _ (List.getElem_mem hi)
  · rw [List.getD_eq_getElem?_getD, List.getElem?_eq_none (by omega), Option.getD_none]
    have := ((Fl.approx h hε).mag_ofInt 0).1
    norm_num at this
    exact le_trans this hM

/-- the formula of the interpolation -/
theorem interp1_form {β : Type} [Arith β] {xs ys : List β} {x a b c d y0 y1 : β} {s l : Nat} (h1 : xs.head? = some a) (h2 : xs.getLast? = some b)
    (h3 : (Arith.lt x a || Arith.lt b x) = false) (h4 : searchsorted xs x = s) (h5 : min (max s 1) (xs.length - 1) = l + 1)
    (h6 : xs[l + 1]? = some c) (h7 : xs[l]? = some d) (h8 : ys.getD (l + 1) 0 = y1)
    (h9 : ys.getD l 0 = y0) : interp1 xs ys x = (y1 - y0) / (c - d) * (x - d) + y0 := by
  subst h8 h9
  unfold interp1
  rw [h1, h2]
  simp only [h3, Bool.false_eq_true, if_false, h4, h5, Nat.add_sub_cancel]
  rw [List.getD_eq_getElem?_getD (l := xs), List.getD_eq_getElem?_getD (l := xs), h6, h7]
  rfl

/-- one value of the linear interpolation between tie points -/
theorem interp1_same (hL : (10 : ℝ) ^ 37 ≤ L.bound) (hp : r.p ≤ 100) (n F m u : Nat) (hb : (n - 1) * F ≤ 2 ^ r.p) (ys : List (Fl r)) {M : ℝ}
    (hM0 : 0 ≤ M) (hys : ∀ y ∈ ys, (Fl.approx h hε).mag y ≤ M) (hM : 7 * M ≤ L.bound) (hm : m + 1 < n) (hu : u < F) :
    Same (interp1 (α := Ov L) (nums (tieGrid n F)) ys (Arith.ofInt ((m * F + u : Nat) : Int)))
      (interp1 (nums (tieGrid n F)) ys (Arith.ofInt ((m * F + u : Nat) : Int))) (7 * M) := by
  have hle := pixel_le hm hu
  have e1 := nums_same (L := L) hL hp (tieGrid_le hb)
  have e2 := pos_same (L := L) hL hp (hle.trans hb)
  have hlen : (nums (tieGrid n F) : List (Fl r)).length = n := by simp [nums, tieGrid]
  have hget := grid_fl (r := r) n F hb
  have hhead : (nums (tieGrid n F) : List (Fl r)).head? = some (Fl.val 0) := by
    rw [List.head?_eq_getElem?, hget 0 (by omega)]; simp
  have hlast : (nums (tieGrid n F) : List (Fl r)).getLast? = some (Fl.val (((n - 1) * F : Nat) : ℝ)) := by
    rw [List.getLast?_eq_getElem?, hlen, hget (n - 1) (by omega)]
  have hss := searchsorted_fl (r := r) n F m u hb hm hu
  have hss' : searchsorted (α := Ov L) (nums (tieGrid n F) : List (Fl r)) (Arith.ofInt ((m * F + u : Nat) : Int) : Fl r)
      = if u = 0 then m else m + 1 := hss
  have hbb : (Arith.lt (Fl.val ((m * F + u : Nat) : ℝ) : Fl r) (Fl.val 0) ||
      Arith.lt (Fl.val (((n - 1) * F : Nat) : ℝ)) (Fl.val ((m * F + u : Nat) : ℝ) : Fl r)) = false := by
    simp only [Fl.lt_val, Bool.or_eq_false_iff, decide_eq_false_iff_not, not_lt]
    exact ⟨Nat.cast_nonneg _, by exact_mod_cast hle⟩
  have hi : min (max (if u = 0 then m else m + 1) 1) ((nums (tieGrid n F) : List (Fl r)).length - 1) = below m u + 1 := by
    rw [hlen]; unfold below; split <;> omega
  have hbl : below m u + 1 < n := by unfold below; split <;> omega
  have hrepF : ∀ k : Nat, k ≤ F → r.rnd (k : ℝ) = k := by
    intro k hk
    have h1 : F ≤ (n - 1) * F := Nat.le_mul_of_pos_left _ (by omega)
    have := pos_fl (r := r) ((hk.trans h1).trans hb)
    rw [Fl.ofInt_eq, Fl.val.injEq] at this
    simpa using this
  have q1 : ((((below m u + 1) * F : Nat) : ℝ) - ((below m u * F : Nat) : ℝ)) = (F : ℝ) := by push_cast; ring
  have q2 : (((m * F + u : Nat) : ℝ) - ((below m u * F : Nat) : ℝ)) = (above F u m : ℝ) := by
    unfold below above
    by_cases h : u = 0
    · rcases Nat.eq_zero_or_pos m with rfl | hpos
      · simp [h]
      · obtain ⟨k, rfl⟩ : ∃ k, m = k + 1 := ⟨m - 1, by omega⟩
        simp [h]; ring
    · simp [h]
  have q3 : above F u m ≤ F := by unfold above; split <;> omega
  have hFL : (F : ℝ) ≤ L.bound := by
    have h1 : F ≤ (n - 1) * F := Nat.le_mul_of_pos_left _ (by omega)
    have h2 : (F : ℝ) ≤ 2 ^ r.p := by exact_mod_cast h1.trans hb
    have h3 : (2 : ℝ) ^ r.p ≤ 2 ^ 100 := pow_le_pow_right₀ (by norm_num) hp
    exact h2.trans (h3.trans (le_trans (by norm_num) hL))
  have key := line_same (L := L) (getD_mag hM0 hys (below m u)) (getD_mag hM0 hys (below m u + 1)) hM (F := F) (by omega) q3 hFL
    (by rw [q1, hrepF F le_rfl]) (by rw [q2, hrepF _ q3] : r.rnd (((m * F + u : Nat) : ℝ) - ((below m u * F : Nat) : ℝ)) = _)
  rw [e1, e2]
  rw [pos_fl (hle.trans hb)] at hss hss' ⊢
  have z (i : Nat) : (ys.getD i (0 : Ov L) : Fl r) = ys.getD i (0 : Fl r) := congrArg (ys.getD i) (zero_same hL).1
  have k2 := @interp1_form (Ov L) instArith (nums (tieGrid n F) : List (Fl r)) ys (Fl.val ((m * F + u : Nat) : ℝ)) (Fl.val 0)
    (Fl.val (((n - 1) * F : Nat) : ℝ)) (Fl.val (((below m u + 1) * F : Nat) : ℝ)) (Fl.val ((below m u * F : Nat) : ℝ)) (ys.getD (below m u) (0 : Fl r))
    (ys.getD (below m u + 1) (0 : Fl r)) _ (below m u)
    hhead hlast hbb hss' hi (hget _ hbl) (hget _ (by omega)) (z _) (z _)
  rw [interp1_form hhead hlast hbb hss hi (hget _ hbl) (hget _ (by omega)) rfl rfl]
  exact Eq.mpr (congrArg (fun t => Same (L := L) t _ _) k2) key

/-! ### arrays -/

/-- the array, as one of the arithmetic with overflow -/
noncomputable def ovData (L : Limit (Fl.approx h hε)) (d : DataArray (Fl r)) : DataArray (Ov L) := ⟨d.dims, d.cols, d.rows.map (·.map mk)⟩

/-- all numbers of the array are at most `M` -/
def Upto (h : LibRel r ε) (hε : ε ≤ 1 / 100) (M : ℝ) (d : DataArray (Fl r)) : Prop := ∀ row ∈ d.rows, ∀ x ∈ row, (Fl.approx h hε).mag x ≤ M

theorem mk_list (l : List (Fl r)) : (l.map mk : List (Ov L)) = l := List.map_id l

theorem mk_getD (hL : (10 : ℝ) ^ 37 ≤ L.bound) (l : List (Fl r)) (c : Nat) : (l.map mk : List (Ov L)).getD c 0 = mk (l.getD c 0) := by
  rw [List.getD_eq_getElem?_getD, List.getD_eq_getElem?_getD, List.getElem?_map]
  cases l[c]? with
  | none => exact (zero_same hL).1
  | some x => rfl

theorem row_pos {N T F p : Nat} (hp : p ∈ pixelRows N T F) : ∃ m u, p = m * F + u ∧ m + 1 < N * T ∧ u < F := by
  simp only [pixelRows, List.mem_flatMap, List.mem_range, List.mem_map] at hp
  obtain ⟨j, hj, i, hi, rfl⟩ := hp
  have hF : 0 < F := Nat.pos_of_ne_zero (by rintro rfl; simp at hi)
  have hd : i / F < T - 1 := by rw [Nat.div_lt_iff_lt_mul hF]; exact hi
  refine ⟨j * T + i / F, i % F, ?_, ?_, Nat.mod_lt _ hF⟩
  · have := Nat.div_add_mod i F
    rw [add_mul, Nat.mul_comm (i / F) F]
    omega
  · have : (j + 1) * T ≤ N * T := Nat.mul_le_mul_right _ hj
    rw [Nat.succ_mul] at this
    generalize i / F = k at *
    omega

theorem col_pos {c F q : Nat} (hq : q ∈ List.range ((c - 1) * F)) : ∃ m u, q = m * F + u ∧ m + 1 < c ∧ u < F := by
  rw [List.mem_range] at hq
  have hF : 0 < F := Nat.pos_of_ne_zero (by rintro rfl; simp at hq)
  have hd : q / F < c - 1 := by rw [Nat.div_lt_iff_lt_mul hF]; exact hq
  refine ⟨q / F, q % F, ?_, by generalize q / F = k at *; omega, Nat.mod_lt _ hF⟩
  have := Nat.div_add_mod q F
  rw [Nat.mul_comm (q / F) F]
  omega

section
variable (hL : (10 : ℝ) ^ 37 ≤ L.bound) (hp : r.p ≤ 100)
include hL hp

theorem interp1_same' (n F m u : Nat) (hb : (n - 1) * F ≤ 2 ^ r.p) (ys : List (Fl r)) {M : ℝ}
    (hM0 : 0 ≤ M) (hys : ∀ y ∈ ys, (Fl.approx h hε).mag y ≤ M) (hM : 7 * M ≤ L.bound) (hm : m + 1 < n) (hu : u < F) :
    Same (interp1 (α := Ov L) (nums (tieGrid n F)) (ys.map mk) (Arith.ofInt ((m * F + u : Nat) : Int)))
      (interp1 (nums (tieGrid n F)) ys (Arith.ofInt ((m * F + u : Nat) : Int))) (7 * M) :=
  Eq.mpr (congrArg (fun t => Same (interp1 (α := Ov L) (nums (tieGrid n F)) t (Arith.ofInt ((m * F + u : Nat) : Int))) _ _) (mk_list ys))
    (interp1_same hL hp n F m u hb ys hM0 hys hM hm hu)

/-- interpolation of the rows -/
theorem interpAlt_same {N T F : Nat} {d : DataArray (Fl r)} {M : ℝ} (hM0 : 0 ≤ M) (hM : 7 * M ≤ L.bound)
    (hd : Upto h hε M d) (hb : (N * T - 1) * F ≤ 2 ^ r.p) :
    (interpAlt (tieGrid (N * T) F) (pixelRows N T F) (ovData L d) = (interpAlt (tieGrid (N * T) F) (pixelRows N T F) d).map (ovData L)) ∧
    ∀ o, interpAlt (tieGrid (N * T) F) (pixelRows N T F) d = .ok o → Upto h hε (7 * M) o ∧ o.cols = d.cols := by
  have key (c p : Nat) (hpos : p ∈ pixelRows N T F) :
      Same (interp1 (α := Ov L) (nums (tieGrid (N * T) F)) ((ovData L d).rows.map (fun row => row.getD c 0)) (Arith.ofInt (p : Int)))
        (interp1 (nums (tieGrid (N * T) F)) (d.rows.map (fun row => row.getD c 0)) (Arith.ofInt (p : Int))) (7 * M) := by
    obtain ⟨m, u, rfl, hm, hu⟩ := row_pos hpos
    have e : (ovData L d).rows.map (fun row => row.getD c 0) = (d.rows.map (fun row => row.getD c 0)).map mk := by
      simp only [ovData, List.map_map]
      exact List.map_congr_left (fun row _ => mk_getD hL row c)
    rw [e]
    refine interp1_same' hL hp _ _ _ _ hb _ hM0 ?_ hM hm hu
    intro y hy
    obtain ⟨row, hrow, rfl⟩ := List.mem_map.1 hy
    exact getD_mag hM0 (hd row hrow) c
  unfold interpAlt
  by_cases he : (pixelRows N T F).isEmpty = true
  · simp only [he, if_true]
    exact ⟨rfl, fun o ho => by cases ho⟩
  · simp only [he, Bool.false_eq_true, if_false, Except.map]
    refine ⟨?_, ?_⟩
    · simp only [ovData, nums, List.map_map]
      congr 2
      refine List.map_congr_left (fun p hpos => ?_)
      simp only [Function.comp, List.map_map]
      refine List.map_congr_left (fun c _ => ?_)
      have := (key c p hpos).eq'
      simp only [ovData, List.map_map] at this
      exact this
    · intro o ho
      cases ho
      refine ⟨?_, rfl⟩
      intro row hrow x hx
      simp only [nums, List.map_map, List.mem_map] at hrow
      obtain ⟨p, hpos, rfl⟩ := hrow
      simp only [Function.comp, List.mem_map] at hx
      obtain ⟨c, -, rfl⟩ := hx
      exact (key c p hpos).2

/-- interpolation of the columns -/
theorem interpAct_same {C F : Nat} {d : DataArray (Fl r)} {M : ℝ} (hM0 : 0 ≤ M) (hM : 7 * M ≤ L.bound)
    (hd : Upto h hε M d) (hb : (C - 1) * F ≤ 2 ^ r.p) :
    (interpAct (tieGrid C F) (List.range ((C - 1) * F)) (ovData L d) = (interpAct (tieGrid C F) (List.range ((C - 1) * F)) d).map (ovData L)) ∧
    ∀ o, interpAct (tieGrid C F) (List.range ((C - 1) * F)) d = .ok o → Upto h hε (7 * M) o := by
  have key (row : List (Fl r)) (hrow : row ∈ d.rows) (q : Nat) (hq : q ∈ List.range ((C - 1) * F)) :
      Same (interp1 (α := Ov L) (nums (tieGrid C F)) (row.map mk) (Arith.ofInt (q : Int)))
        (interp1 (nums (tieGrid C F)) row (Arith.ofInt (q : Int))) (7 * M) := by
    obtain ⟨m, u, rfl, hm, hu⟩ := col_pos hq
    exact interp1_same' hL hp _ _ _ _ hb _ hM0 (hd row hrow) hM hm hu
  unfold interpAct
  by_cases he : (List.range ((C - 1) * F)).isEmpty = true
  · simp only [he, if_true]
    exact ⟨rfl, fun o ho => by cases ho⟩
  · simp only [he, Bool.false_eq_true, if_false, Except.map]
    refine ⟨?_, ?_⟩
    · simp only [ovData, nums, List.map_map]
      congr 2
      refine List.map_congr_left (fun row hrow => ?_)
      simp only [Function.comp, List.map_map]
      exact List.map_congr_left (fun q hq => (key row hrow q hq).eq')
    · intro o ho
      cases ho
      intro row' hrow x hx
      simp only [nums, List.map_map, List.mem_map] at hrow
      obtain ⟨row, hrow, rfl⟩ := hrow
      simp only [List.mem_map, Function.comp] at hx
      obtain ⟨q, hq, rfl⟩ := hx
      exact (key row hrow q hq).2

/-- the loop body -/
theorem interpOne_same {dims : String × String} {shape : Nat × Nat} {T F : Nat} {d : DataArray (Fl r)} {M : ℝ} (hM0 : 0 ≤ M)
    (hM : 49 * M ≤ L.bound) (hd : Upto h hε M d) (hdiv : shape.1 % T = 0) (hb1 : (shape.1 - 1) * F ≤ 2 ^ r.p)
    (hb2 : (shape.2 - 1) * F ≤ 2 ^ r.p) :
    interpOne dims shape T F (ovData L d) = (interpOne dims shape T F d).map (ovData L) ∧
    ∀ o, interpOne dims shape T F d = .ok o → Upto h hε (49 * M) o := by
  have hs : (ovData L d).shape = d.shape := by simp [DataArray.shape, ovData]
  have hT : shape.1 / T * T = shape.1 := Nat.div_mul_cancel (Nat.dvd_of_mod_eq_zero hdiv)
  unfold interpOne
  rw [hs, show (ovData L d).dims = d.dims from rfl]
  by_cases hc : d.shape ≠ shape ∨ d.dims ≠ dims
  · rw [if_pos hc, if_pos hc]
    exact ⟨rfl, fun o ho => by cases ho⟩
  · rw [if_neg hc, if_neg hc]
    obtain ⟨a1, a2⟩ := interpAlt_same (N := shape.1 / T) (T := T) (F := F) hL hp hM0 (by linarith) hd (by rw [hT]; exact hb1)
    rw [hT] at a1 a2
    rw [a1]
    cases ea : interpAlt (tieGrid shape.1 F) (pixelRows (shape.1 / T) T F) d with
    | error e => exact ⟨rfl, fun o ho => by cases ho⟩
    | ok a =>
      obtain ⟨u1, -⟩ := a2 a ea
      obtain ⟨b1, b2⟩ := interpAct_same (C := shape.2) (F := F) hL hp (d := a) (M := 7 * M) (by linarith) (by linarith) u1 hb2
      refine ⟨b1, fun o ho => ?_⟩
      have := b2 o ho
      rwa [show 7 * (7 * M) = 49 * M by ring] at this

omit hL hp in
theorem mapM_same {β γ β' γ' : Type} {f : β → Except Err γ} {g : β' → Except Err γ'} {u : β → β'} {v : γ → γ'} (l : List β)
    (hf : ∀ x ∈ l, g (u x) = (f x).map v) : (l.map u).mapM g = (l.mapM f).map (List.map v) := by
  induction l with
  | nil => rfl
  | cons a l ih =>
    rw [List.map_cons, List.mapM_cons, List.mapM_cons, hf a (by simp), ih (fun x hx => hf x (by simp [hx]))]
    cases f a with
    | error e => rfl
    | ok y =>
      cases l.mapM f with
      | error e => rfl
      | ok ys => rfl

omit hL hp in
theorem mapM_all {β γ : Type} {f : β → Except Err γ} {P : γ → Prop} (l : List β) (hf : ∀ x ∈ l, ∀ o, f x = .ok o → P o) :
    ∀ os, l.mapM f = .ok os → ∀ o ∈ os, P o := by
  induction l with
  | nil => intro os h; cases h; simp
  | cons a l ih =>
    intro os h
    rw [List.mapM_cons] at h
    cases ha : f a with
    | error e => rw [ha] at h; cases h
    | ok y =>
      cases hl : l.mapM f with
      | error e => rw [ha, hl] at h; cases h
      | ok ys =>
        rw [ha, hl] at h
        cases h
        intro o ho
        rcases List.mem_cons.1 ho with rfl | ho
        · exact hf a (by simp) _ ha
        · exact ih (fun x hx => hf x (by simp [hx])) ys hl o ho

/-- the interpolation of several arrays -/
theorem tiePoints_same {data : List (DataArray (Fl r))} {T F : Nat} {M : ℝ} (hM0 : 0 ≤ M) (hM : 49 * M ≤ L.bound)
    (hd : ∀ d ∈ data, Upto h hε M d) (hb1 : ∀ d ∈ data, (d.rows.length - 1) * F ≤ 2 ^ r.p) (hb2 : ∀ d ∈ data, (d.cols - 1) * F ≤ 2 ^ r.p) :
    tiePointsInterpolation (data.map (ovData L)) T F = (tiePointsInterpolation data T F).map (List.map (ovData L)) ∧
    ∀ os, tiePointsInterpolation data T F = .ok os → ∀ o ∈ os, Upto h hε (49 * M) o := by
  cases data with
  | nil => exact ⟨rfl, fun os ho => by cases ho⟩
  | cons d ds =>
    have hs : (ovData L d).shape = d.shape := by simp [DataArray.shape, ovData]
    unfold tiePointsInterpolation
    simp only [List.map_cons]
    rw [hs]
    by_cases h1 : T = 0
    · rw [if_pos h1, if_pos h1]; exact ⟨rfl, fun os ho => by cases ho⟩
    rw [if_neg h1, if_neg h1]
    by_cases h2 : d.shape.1 % T ≠ 0
    · rw [if_pos h2, if_pos h2]; exact ⟨rfl, fun os ho => by cases ho⟩
    rw [if_neg h2, if_neg h2]
    by_cases h3 : F = 0
    · rw [if_pos h3, if_pos h3]; exact ⟨rfl, fun os ho => by cases ho⟩
    rw [if_neg h3, if_neg h3]
    by_cases h4 : d.shape.1 / T = 0
    · rw [if_pos h4, if_pos h4]; exact ⟨rfl, fun os ho => by cases ho⟩
    rw [if_neg h4, if_neg h4]
    have key (x : DataArray (Fl r)) (hx : x ∈ d :: ds) := interpOne_same (dims := d.dims) (shape := d.shape) (T := T) (F := F) hL hp hM0 hM
      (hd x hx) (by simpa using h2) (hb1 d (by simp)) (hb2 d (by simp))
    rw [← List.map_cons]
    exact ⟨mapM_same _ (fun x hx => (key x hx).1), mapM_all _ (fun x hx => (key x hx).2)⟩

omit hL hp in
theorem zip_same {β β' γ γ' δ δ' : Type} {f : β → γ → δ} {g : β' → γ' → δ'} {u : β → β'} {u' : γ → γ'} {v : δ → δ'} (l : List β) (k : List γ)
    (hf : ∀ a ∈ l, ∀ b ∈ k, g (u a) (u' b) = v (f a b)) : List.zipWith g (l.map u) (k.map u') = (List.zipWith f l k).map v := by
  induction l generalizing k with
  | nil => rfl
  | cons a l ih =>
    cases k with
    | nil => rfl
    | cons b k =>
      simp only [List.map_cons, List.zipWith_cons_cons]
      rw [hf a (by simp) b (by simp), ih k (fun a' ha b' hb => hf a' (by simp [ha]) b' (by simp [hb]))]

omit hL hp in
theorem mem_zip {β γ δ : Type} {f : β → γ → δ} {l : List β} {k : List γ} {x : δ} (hx : x ∈ List.zipWith f l k) :
    ∃ a ∈ l, ∃ b ∈ k, x = f a b := by
  induction l generalizing k with
  | nil => simp at hx
  | cons a l ih =>
    cases k with
    | nil => simp at hx
    | cons b k =>
      rw [List.zipWith_cons_cons, List.mem_cons] at hx
      rcases hx with rfl | hx
      · exact ⟨a, by simp, b, by simp, rfl⟩
      · obtain ⟨a', ha, b', hb, e⟩ := ih hx
        exact ⟨a', by simp [ha], b', by simp [hb], e⟩

omit hp in
/-- the cartesian coordinates: `f` and `f'` take the same component -/
theorem cartesian_same {lon lat : DataArray (Fl r)} (h1 : Upto h hε (10 ^ 10) lon) (h2 : Upto h hε (10 ^ 10) lat)
    {f : Fl r × Fl r × Fl r → Fl r} {f' : Ov L × Ov L × Ov L → Ov L} (hf : ∀ p v, Same3 (L := L) p v (10 ^ 8) → Same (f' p) (f v) (10 ^ 8)) :
    cartesian f' (ovData L lon) (ovData L lat) = ovData L (cartesian f lon lat) ∧ Upto h hε (10 ^ 8) (cartesian f lon lat) := by
  have key {row row' : List (Fl r)} (hr : row ∈ lon.rows) (hr' : row' ∈ lat.rows) {a b : Fl r} (ha : a ∈ row) (hb : b ∈ row') :
      Same (f' (lonlat2xyz (meanEarthRadius : Ov L) (mk a) (mk b))) (f (lonlat2xyz meanEarthRadius a b)) (10 ^ 8) :=
    hf _ _ (lonlat2xyz_same hL (meanRadius_same hL) (Same.input (h1 _ hr _ ha)) (Same.input (h2 _ hr' _ hb)))
  constructor
  · unfold cartesian ovData
    simp only [DataArray.mk.injEq, true_and]
    refine zip_same (v := List.map mk) _ _ (fun row hr row' hr' => ?_)
    exact zip_same _ _ (fun a ha b hb => (key hr hr' ha hb).eq')
  · intro row hrow x hx
    obtain ⟨r1, hr1, r2, hr2, rfl⟩ := mem_zip hrow
    obtain ⟨a, ha, b, hb, rfl⟩ := mem_zip hx
    exact (key hr1 hr2 ha hb).2

omit hp in
/-- back to longitudes and latitudes -/
theorem geodetic_same {x y z : DataArray (Fl r)} (h1 : Upto h hε (10 ^ 18) x) (h2 : Upto h hε (10 ^ 18) y) (h3 : Upto h hε (10 ^ 18) z)
    {t : Fl r} (ht : (Fl.approx h hε).mag t ≤ 2)
    {f : Fl r × Fl r → Fl r} {f' : Ov L × Ov L → Ov L} (hf : ∀ p v, Same2 (L := L) p v (10 ^ 22) → f' p = mk (f v)) :
    geodetic f' (mk t) (ovData L x) (ovData L y) (ovData L z) = ovData L (geodetic f t x y z) := by
  have e : List.zipWith List.zip ((y.rows.map (·.map mk) : List (List (Ov L)))) (z.rows.map (·.map mk))
      = (List.zipWith List.zip y.rows z.rows).map (List.map (fun p => ((mk p.1 : Ov L), (mk p.2 : Ov L)))) := by
    refine zip_same (v := List.map (fun p : Fl r × Fl r => ((mk p.1 : Ov L), (mk p.2 : Ov L)))) _ _ (fun row hr row' hr' => ?_)
    exact zip_same (v := fun p : Fl r × Fl r => ((mk p.1 : Ov L), (mk p.2 : Ov L))) (f := Prod.mk) _ _ (fun a ha b hb => rfl)
  unfold geodetic ovData
  simp only [DataArray.mk.injEq, true_and]
  rw [e]
  refine zip_same (v := List.map mk) _ _ (fun row hr row' hr' => ?_)
  refine zip_same _ _ (fun a ha p hp => ?_)
  obtain ⟨ry, hry, rz, hrz, rfl⟩ := mem_zip hr'
  have hp' : p ∈ List.zipWith Prod.mk ry rz := hp
  obtain ⟨b, hb, c, hc, rfl⟩ := mem_zip hp'
  exact hf _ _ (viiXyz2lonlat_same hL (meanRadius_same hL) meanRadius_ge (Same.input ht) (Same.input (h1 _ hr _ ha))
    (Same.input (h2 _ hry _ hb)) (Same.input (h3 _ hrz _ hc)))

/-! ### the choice of cartesian coordinates -/

omit hp in
theorem nan_same : Same (0 / 0 : Ov L) (0 / 0 : Fl r) 0 := by
  refine (zero_same hL).div' (zero_same hL) ?_ (le_trans (by norm_num) hL)
  have hv : (Fl.approx h hε).value (0 / 0 : Fl r) = none := by
    refine (Fl.approx h hε).div_n _ _ (Or.inr (Or.inr ?_))
    obtain ⟨c, hc, he⟩ := (Fl.approx h hε).ofInt_v 0
    rw [Int.cast_zero, sub_zero, abs_zero, zero_div, abs_nonpos_iff] at he
    rw [he] at hc
    exact hc
  rw [(Fl.approx h hε).mag_none hv]

omit hL hp in
theorem fold_mem {β : Type} (f : β → β → β) (hf : ∀ a b, f a b = a ∨ f a b = b) (l : List β) (a : β) : l.foldl f a = a ∨ l.foldl f a ∈ l := by
  induction l generalizing a with
  | nil => exact Or.inl rfl
  | cons b l ih =>
    rw [List.foldl_cons]
    rcases ih (f a b) with e | e
    · rw [e]
      rcases hf a b with e' | e' <;> rw [e'] <;> simp
    · exact Or.inr (by simp [e])

omit hL hp in
theorem nan_nil {β : Type} [Arith β] {l : List β} (hl : l.filter (fun x => Arith.eq x x) = []) : nanMax l = 0 / 0 ∧ nanMin l = 0 / 0 := by
  unfold nanMax nanMin
  rw [hl]
  exact ⟨rfl, rfl⟩

omit hL hp in
theorem nan_cons {β : Type} [Arith β] {l : List β} {a : β} {k : List β} (hl : l.filter (fun x => Arith.eq x x) = a :: k) :
    nanMax l = k.foldl amax a ∧ nanMin l = k.foldl amin a := by
  unfold nanMax nanMin
  rw [hl]
  exact ⟨rfl, rfl⟩

omit hp in
theorem nanMax_same {l : List (Fl r)} {M : ℝ} (hM : 0 ≤ M) (hl : ∀ x ∈ l, (Fl.approx h hε).mag x ≤ M) :
    Same (nanMax (α := Ov L) (l.map mk)) (nanMax l) M ∧ Same (nanMin (α := Ov L) (l.map mk)) (nanMin l) M := by
  have e : (l.map mk : List (Ov L)) = l := mk_list l
  have hmem (x : Fl r) (hx : x ∈ l.filter (fun x => Arith.eq x x)) : (Fl.approx h hε).mag x ≤ M := hl x (List.mem_filter.1 hx).1
  cases hf : l.filter (fun x => Arith.eq x x) with
  | nil =>
    have a1 := @nan_nil (Ov L) instArith l hf
    have a2 := nan_nil hf
    constructor
    · refine Eq.mpr (congrArg (fun t => Same (nanMax (α := Ov L) t) _ _) e) ?_
      refine Eq.mpr (congrArg (fun t => Same (L := L) t _ _) a1.1) ?_
      rw [a2.1]; exact (nan_same hL).mono hM
    · refine Eq.mpr (congrArg (fun t => Same (nanMin (α := Ov L) t) _ _) e) ?_
      refine Eq.mpr (congrArg (fun t => Same (L := L) t _ _) a1.2) ?_
      rw [a2.2]; exact (nan_same hL).mono hM
  | cons a k =>
    have a1 := @nan_cons (Ov L) instArith l a k hf
    have a2 := nan_cons hf
    rw [hf] at hmem
    constructor
    · refine Eq.mpr (congrArg (fun t => Same (nanMax (α := Ov L) t) _ _) e) ?_
      refine Eq.mpr (congrArg (fun t => Same (L := L) t _ _) a1.1) ?_
      rw [a2.1]
      refine ⟨rfl, ?_⟩
      rcases fold_mem amax (fun a b => by unfold amax; split <;> simp) k a with e' | e'
      · rw [e']; exact hmem a (by simp)
      · exact hmem _ (List.mem_cons_of_mem _ e')
    · refine Eq.mpr (congrArg (fun t => Same (nanMin (α := Ov L) t) _ _) e) ?_
      refine Eq.mpr (congrArg (fun t => Same (L := L) t _ _) a1.2) ?_
      rw [a2.2]
      refine ⟨rfl, ?_⟩
      rcases fold_mem amin (fun a b => by unfold amin; split <;> simp) k a with e' | e'
      · rw [e']; exact hmem a (by simp)
      · exact hmem _ (List.mem_cons_of_mem _ e')

omit hp in
theorem toCart_same {lon lat : DataArray (Fl r)} (h1 : Upto h hε (10 ^ 10) lon) (h2 : Upto h hε (10 ^ 10) lat) (t : Fl r) :
    toCart (ovData L lon) (ovData L lat) (mk t) = toCart lon lat t := by
  have el (d : DataArray (Fl r)) : (ovData L d).elems = d.elems.map mk := by
    simp only [DataArray.elems, ovData, List.map_flatten]
  have hel {d : DataArray (Fl r)} (hd : Upto h hε (10 ^ 10) d) (x : Fl r) (hx : x ∈ d.elems) : (Fl.approx h hε).mag x ≤ 10 ^ 10 := by
    obtain ⟨row, hrow, hx⟩ := List.mem_flatten.1 hx
    exact hd row hrow x hx
  have ab : ((lat.elems.map mk).map aabs : List (Ov L)) = (lat.elems.map aabs).map mk := by
    rw [List.map_map, List.map_map]
    exact List.map_congr_left (fun x hx => (aabs_same hL (Same.input (hel h2 x hx)) (leL hL (by norm_num))).eq')
  have b1 := (nanMax_same (L := L) hL (M := 10 ^ 10) (l := lat.elems.map aabs) (by norm_num) (fun x hx => by
    obtain ⟨y, hy, rfl⟩ := List.mem_map.1 hx
    exact (aabs_same (L := L) hL (Same.input (hel h2 y hy)) (leL hL (by norm_num))).2)).1
  obtain ⟨b2, b3⟩ := nanMax_same (L := L) hL (M := 10 ^ 10) (l := lon.elems) (by norm_num) (hel h1)
  have c : Same (Arith.lit 1800 1 : Ov L) (Arith.lit 1800 1) 1000 := Same.lit _ _ (by norm_num) (leL hL (by norm_num))
  have d := b2.sub b3 (C := 10 ^ 11) (by norm_num) (leL hL (by norm_num))
  unfold toCart
  rw [el, el, ab, c.lt d]
  have : Arith.lt (mk t : Ov L) (nanMax ((lat.elems.map aabs).map mk)) = Arith.lt t (nanMax (lat.elems.map aabs)) :=
    congrArg (Arith.lt (α := Fl r) t) b1.1
  rw [this]

/-- the whole interpolation -/
theorem tiePointsGeo_same {lon lat : DataArray (Fl r)} {T F : Nat} (h1 : Upto h hε (10 ^ 10) lon) (h2 : Upto h hε (10 ^ 10) lat)
    (hrow : (lon.rows.length - 1) * F ≤ 2 ^ r.p) (hcol : (lon.cols - 1) * F ≤ 2 ^ r.p) (latThr zThr : Fl r) (hz : (Fl.approx h hε).mag zThr ≤ 2) :
    tiePointsGeoInterpolation (ovData L lon) (ovData L lat) T F (mk latThr) (mk zThr) =
      (tiePointsGeoInterpolation lon lat T F latThr zThr).map (fun p => (ovData L p.1, ovData L p.2)) := by
  have hs (d : DataArray (Fl r)) : (ovData L d).shape = d.shape := by simp [DataArray.shape, ovData]
  unfold tiePointsGeoInterpolation
  rw [hs, hs, toCart_same hL h1 h2]
  by_cases c1 : lon.shape ≠ lat.shape
  · rw [if_pos c1, if_pos c1]; rfl
  rw [if_neg c1, if_neg c1]
  rw [ne_eq, not_not] at c1
  have s1 : lat.rows.length = lon.rows.length := (congrArg Prod.fst c1).symm
  have s2 : lat.cols = lon.cols := (congrArg Prod.snd c1).symm
  by_cases c2 : toCart lon lat latThr = true
  · rw [if_pos c2, if_pos c2]
    obtain ⟨x1, x2⟩ := cartesian_same (L := L) hL h1 h2 (f := (·.1)) (f' := (·.1)) (fun p v hs => hs.1)
    obtain ⟨y1, y2⟩ := cartesian_same (L := L) hL h1 h2 (f := (·.2.1)) (f' := (·.2.1)) (fun p v hs => hs.2.1)
    obtain ⟨z1, z2⟩ := cartesian_same (L := L) hL h1 h2 (f := (·.2.2)) (f' := (·.2.2)) (fun p v hs => hs.2.2)
    rw [x1, y1, z1]
    have hl (f : Fl r × Fl r × Fl r → Fl r) : (cartesian f lon lat).rows.length = lon.rows.length := by
      simp [cartesian, s1]
    obtain ⟨t1, t2⟩ := tiePoints_same (data := [cartesian (·.1) lon lat, cartesian (·.2.1) lon lat, cartesian (·.2.2) lon lat]) (T := T) (F := F)
      hL hp (M := 10 ^ 8) (by norm_num) (leL hL (by norm_num)) (by simp [x2, y2, z2]) (by simp [hl, hrow])
      (by simp [cartesian, hcol])
    simp only [List.map_cons, List.map_nil] at t1
    rw [t1]
    cases e : tiePointsInterpolation [cartesian (·.1) lon lat, cartesian (·.2.1) lon lat, cartesian (·.2.2) lon lat] T F with
    | error _ => rfl
    | ok os =>
      have hu := t2 os e
      match os with
      | [] => rfl
      | [_] => rfl
      | [_, _] => rfl
      | [x, y, z] =>
        have w {o : DataArray (Fl r)} (ho : o ∈ [x, y, z]) : Upto h hε (10 ^ 18) o :=
          fun row hr v hv => (hu o ho row hr v hv).trans (by norm_num)
        have g1 := geodetic_same (L := L) hL (w (o := x) (by simp)) (w (o := y) (by simp)) (w (o := z) (by simp)) hz (f := (·.1)) (f' := (·.1))
          (fun p v hs => hs.1.1)
        have g2 := geodetic_same (L := L) hL (w (o := x) (by simp)) (w (o := y) (by simp)) (w (o := z) (by simp)) hz (f := (·.2)) (f' := (·.2))
          (fun p v hs => hs.2.1)
        simp only [Except.map, List.map_cons, List.map_nil]
        rw [g1, g2]
      | _ :: _ :: _ :: _ :: _ => rfl
  · rw [if_neg c2, if_neg c2]
    obtain ⟨t1, -⟩ := tiePoints_same (data := [lon, lat]) (T := T) (F := F) hL hp (M := 10 ^ 10) (by norm_num) (leL hL (by norm_num))
      (by simp [h1, h2]) (by simp [s1, hrow]) (by simp [s2, hcol])
    simp only [List.map_cons, List.map_nil] at t1
    rw [t1]
    cases e : tiePointsInterpolation [lon, lat] T F with
    | error _ => rfl
    | ok os =>
      match os with
      | [] => rfl
      | [_] => rfl
      | [_, _] => rfl
      | _ :: _ :: _ :: _ => rfl

end

end Verif.Ov
