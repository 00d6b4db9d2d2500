import Verif.Proofs.PresetsGeo
import Verif.Base.Fl

/-!
# Grids of whole scans with rounded positions
-/

set_option linter.unusedSectionVars false

namespace Verif.Presets
open Verif Verif.Interpolator Verif.Spec Verif.Props

variable {r : Rounding}

/-! ### lists of floating point numbers -/

theorem strictInc_fl (ks : List ℝ) : strictInc (ks.map (Fl.val : ℝ → Fl r)) = true ↔ ks.Pairwise (· < ·) := by
  rw [← List.isChain_iff_pairwise]
  induction ks with
  | nil => simp [strictInc]
  | cons a l ih =>
    cases l with
    | nil => simp [strictInc]
    | cons b l =>
      have : 0 < r.rnd (b - a) ↔ a < b := by
        constructor
        · intro h
          by_contra hc
          have := r.rnd_nonpos (show b - a ≤ 0 by linarith)
          linarith
        · intro h; exact r.rnd_pos (by linarith)
      simp only [List.map_cons, strictInc, Fl.val_sub, Fl.zero_eq, Fl.lt_val, this, Bool.and_eq_true, decide_eq_true_eq,
        List.isChain_cons_cons]
      rw [← ih]; rfl

theorem weakInc_fl (ks : List ℝ) : weakInc (ks.map (Fl.val : ℝ → Fl r)) = true ↔ ks.Pairwise (· ≤ ·) := by
  rw [← List.isChain_iff_pairwise]
  induction ks with
  | nil => simp [weakInc]
  | cons a l ih =>
    cases l with
    | nil => simp [weakInc]
    | cons b l =>
      have : 0 ≤ r.rnd (b - a) ↔ a ≤ b := by
        constructor
        · intro h
          by_contra hc
          have := r.rnd_neg' (show b - a < 0 by linarith)
          linarith
        · intro h; exact r.rnd_nonneg (by linarith)
      simp only [List.map_cons, weakInc, Fl.val_sub, Fl.zero_eq, Fl.le_val, this, Bool.and_eq_true, decide_eq_true_eq,
        List.isChain_cons_cons]
      rw [← ih]; rfl

/-! ### rounded positions -/

/-- `x` is a multiple of `1 / m` -/
def OnGrid (m : Nat) (x : ℝ) : Prop := ∃ a : ℤ, x = a / m

/-- different multiples of `1 / m` stay different and ordered when rounded -/
theorem rnd_lt_grid {m : Nat} (hm : 1 ≤ m) {B x y : ℝ} (hB : 2 * r.u * B * m < 1) (hx : OnGrid m x) (hy : OnGrid m y)
    (bx : |x| ≤ B) (hyB : |y| ≤ B) (h : x < y) : r.rnd x < r.rnd y := by
  obtain ⟨a, rfl⟩ := hx
  obtain ⟨b, rfl⟩ := hy
  have hm' : (0 : ℝ) < m := by exact_mod_cast hm
  have hab : a < b := by
    have := (div_lt_div_iff_of_pos_right hm').1 h
    exact_mod_cast this
  have h1 : (a : ℝ) + 1 ≤ b := by exact_mod_cast hab
  have h2 : (a : ℝ) / m + 1 / m ≤ b / m := by
    rw [← add_div]
    exact div_le_div_of_nonneg_right h1 hm'.le
  have h3 : 2 * r.u * B < 1 / m := by
    rw [lt_div_iff₀ hm']; exact hB
  have e1 := abs_le.1 (r.abs_rnd_sub_le_u ((a : ℝ) / m))
  have e2 := abs_le.1 (r.abs_rnd_sub_le_u ((b : ℝ) / m))
  have f1 := mul_le_mul_of_nonneg_left bx r.u_pos.le
  have f2 := mul_le_mul_of_nonneg_left hyB r.u_pos.le
  linarith [e1.2, e2.1]

/-- rounded positions as a list -/
noncomputable def fpos (r : Rounding) (f : Nat → ℝ) (n : Nat) : List (Fl r) := (poss f n).map (fun x => .val (r.rnd x))

theorem fpos_length (f : Nat → ℝ) (n : Nat) : (fpos r f n).length = n := by simp [fpos, poss]

theorem fpos_el (f : Nat → ℝ) {n i : Nat} (h : i < n) : el (fpos r f n) i = .val (r.rnd (f i)) := by
  simp [fpos, poss, el, h]

/-- the interpolator of `s` scans with rounded positions and tie data `D` -/
noncomputable def ScanGrid.fl (G : ScanGrid ℝ) (r : Rounding) (s : Nat) (D : List (Mat (Fl r))) : Interp (Fl r) :=
  ⟨fpos r G.p (s * G.t), fpos r G.q G.n, fpos r G.h (s * G.k), fpos r G.g G.N, G.k, D, 1, 3⟩

/-- Conditions under which rounding keeps the order of the positions and the chunk borders are exact: all positions are
multiples of `1 / m`, at most `B`; there is a whole number of fine rows per tie row. -/
structure FlGrid (G : ScanGrid ℝ) (r : Rounding) (s : Nat) where
  m : Nat
  f : Nat
  B : ℝ
  hs : 1 ≤ s
  hm : 1 ≤ m
  hB : 2 * r.u * B * m < 1
  hf : G.k = f * G.t
  gp : ∀ i, OnGrid m (G.p i)
  gh : ∀ i, OnGrid m (G.h i)
  gq : ∀ i, OnGrid m (G.q i)
  gg : ∀ i, OnGrid m (G.g i)
  bt : ((s * G.t : Nat) : ℝ) ≤ B
  bh : ∀ i < s * G.k, |G.h i| ≤ B
  bg : ∀ i < G.N, |G.g i| ≤ B
  bk : s * G.k ≤ 2 ^ r.p

variable {G : ScanGrid ℝ} {s : Nat} (F : FlGrid G r s)
include F

theorem FlGrid.hf1 : 1 ≤ F.f := by
  have h := G.hk
  rw [F.hf] at h
  rcases Nat.eq_zero_or_pos F.f with e | e
  · rw [e] at h; omega
  · exact e

theorem FlGrid.rep {n : Nat} (h : n ≤ s * G.k) : Rep r.p (n : ℝ) := by
  have h2 : |((n : Nat) : ℤ)| ≤ 2 ^ r.p := by
    have := F.bk
    rw [abs_of_nonneg (by positivity)]
    have h3 : n ≤ 2 ^ r.p := h.trans this
    exact_mod_cast h3
  have := rep_int r.hp1 h2
  simpa using this

theorem FlGrid.st_le : s * G.t ≤ s * G.k := by
  refine Nat.mul_le_mul_left _ ?_
  rw [F.hf]
  exact Nat.le_mul_of_pos_left _ F.hf1

theorem FlGrid.onInt (n : Nat) : OnGrid F.m (n : ℝ) := by
  have hm' : (0 : ℝ) < F.m := by exact_mod_cast F.hm
  exact ⟨n * F.m, by push_cast; field_simp⟩

theorem FlGrid.bp {i : Nat} (h : i < s * G.t) : |G.p i| ≤ F.B := by
  obtain ⟨h1, h2⟩ := G.hp i
  have h3 : (i : ℝ) + 1 ≤ (s * G.t : Nat) := by exact_mod_cast h
  have h4 : (0 : ℝ) ≤ i := by positivity
  rw [abs_of_nonneg (by linarith)]
  linarith [F.bt]

theorem chunkTies_fl {c : Nat} (hc : c < s) (D : List (Mat (Fl r))) :
    chunkTies (G.fl r s D) c = (List.range G.t).map (fun j => c * G.t + j) := by
  have hk := G.hk
  have ht := G.ht
  have hs : 1 ≤ s := F.hs
  have hf := F.hf1
  have hsK : (s : ℝ) ≠ 0 := by exact_mod_cast (show s ≠ 0 by omega)
  have htK : (G.t : ℝ) ≠ 0 := by exact_mod_cast (show G.t ≠ 0 by omega)
  have hfK : (F.f : ℝ) ≠ 0 := by exact_mod_cast (show F.f ≠ 0 by omega)
  have hlen1 : (G.fl r s D).hrowIdx.length = s * G.k := fpos_length _ _
  have hlen2 : (G.fl r s D).rowIdx.length = s * G.t := fpos_length _ _
  have heff : effChunk (G.fl r s D) = G.k := by
    unfold effChunk ScanGrid.fl
    rw [if_neg (by show ¬ G.k = 0; omega)]
  have hle := F.st_le
  have hkK : (G.k : ℝ) = F.f * G.t := by rw [F.hf]; push_cast; ring
  have hfr : Rep r.p (F.f : ℝ) := F.rep (by
    have h1 : F.f * 1 ≤ F.f * G.t := Nat.mul_le_mul_left _ (by omega)
    have h2 : 1 * G.k ≤ s * G.k := Nat.mul_le_mul_right _ hs
    have := F.hf
    omega)
  unfold chunkTies
  rw [heff, hlen1, hlen2]
  have hfac : (Arith.ofInt (s * G.k : Nat) / Arith.ofInt (s * G.t : Nat) : Fl r) = .val (F.f : ℝ) := by
    simp only [Fl.ofInt_eq]
    have e1 : r.rnd (((s * G.k : Nat) : ℤ) : ℝ) = (s * G.k : Nat) := by
      rw [Int.cast_natCast]; exact r.rnd_rep (F.rep le_rfl)
    have e2 : r.rnd (((s * G.t : Nat) : ℤ) : ℝ) = (s * G.t : Nat) := by
      rw [Int.cast_natCast]; exact r.rnd_rep (F.rep hle)
    have hne : ((s * G.t : Nat) : ℝ) ≠ 0 := by push_cast; exact mul_ne_zero hsK htK
    rw [e1, e2, Fl.val_div_of_ne _ hne]
    have : ((s * G.k : Nat) : ℝ) / (s * G.t : Nat) = F.f := by
      push_cast
      rw [hkK]
      field_simp
    rw [this, r.rnd_rep hfr]
  have hb : ∀ x ≤ s, (Arith.ofInt (x * G.k : Nat) / (Arith.ofInt (s * G.k : Nat) / Arith.ofInt (s * G.t : Nat)) : Fl r)
      = .val ((x * G.t : Nat) : ℝ) := by
    intro x hx
    have e1 : r.rnd (((x * G.k : Nat) : ℤ) : ℝ) = (x * G.k : Nat) := by
      rw [Int.cast_natCast]; exact r.rnd_rep (F.rep (Nat.mul_le_mul_right _ hx))
    rw [hfac, Fl.ofInt_eq, e1, Fl.val_div_of_ne _ hfK]
    have : ((x * G.k : Nat) : ℝ) / F.f = (x * G.t : Nat) := by
      push_cast
      rw [hkK]
      field_simp
    rw [this, r.rnd_rep (F.rep ((Nat.mul_le_mul_right _ hx).trans hle))]
  rw [show c * G.k + G.k = (c + 1) * G.k by ring, hb c (by omega), hb (c + 1) (by omega)]
  unfold tieRowsIn
  rw [hlen2]
  have hcmp : ∀ i < s * G.t, ∀ x ≤ s, ((x * G.t : Nat) : ℝ) ≤ r.rnd (G.p i) ↔ x * G.t ≤ i := by
    intro i hi x hx
    have hx' : x * G.t ≤ s * G.t := Nat.mul_le_mul_right _ hx
    have hrep := F.rep (hx'.trans hle)
    obtain ⟨h1, h2⟩ := G.hp i
    constructor
    · intro h
      by_contra hc
      have h3 : (i : ℝ) + 1 ≤ (x * G.t : Nat) := by exact_mod_cast (show i + 1 ≤ x * G.t by omega)
      have h4 := rnd_lt_grid F.hm F.hB (F.gp i) (F.onInt (x * G.t)) (F.bp hi) (by
        rw [abs_of_nonneg (by positivity)]
        have : ((x * G.t : Nat) : ℝ) ≤ (s * G.t : Nat) := by exact_mod_cast hx'
        linarith [F.bt]) (show G.p i < ((x * G.t : Nat) : ℝ) by linarith)
      rw [r.rnd_rep hrep] at h4
      linarith
    · intro h
      refine r.le_rnd hrep ?_
      have : ((x * G.t : Nat) : ℝ) ≤ i := by exact_mod_cast h
      linarith
  have hfil : ∀ i ∈ List.range (s * G.t), (Arith.le (.val ((c * G.t : Nat) : ℝ)) (el (G.fl r s D).rowIdx i) &&
      Arith.lt (el (G.fl r s D).rowIdx i) (.val (((c + 1) * G.t : Nat) : ℝ)))
        = decide (c * G.t ≤ i ∧ i < (c + 1) * G.t) := by
    intro i hi
    have hi' := List.mem_range.mp hi
    have e : el (G.fl r s D).rowIdx i = .val (r.rnd (G.p i)) := fpos_el G.p hi'
    rw [e, Fl.le_val, Fl.lt_val, ← Bool.decide_and]
    refine decide_eq_decide.mpr ?_
    rw [hcmp i hi' c (by omega), ← not_le, hcmp i hi' (c + 1) (by omega), not_le]
  rw [List.filter_congr hfil]
  have hsplit : s * G.t = c * G.t + G.t + (s - (c + 1)) * G.t := by
    obtain ⟨r, rfl⟩ : ∃ r, s = c + 1 + r := ⟨s - (c + 1), by omega⟩
    rw [Nat.add_sub_cancel_left]; ring
  rw [hsplit, List.range_add, List.range_add, List.filter_append, List.filter_append]
  rw [List.filter_eq_nil_iff.mpr, List.filter_eq_self.mpr, List.filter_eq_nil_iff.mpr, List.nil_append, List.append_nil]
  · intro i hi
    obtain ⟨j, _, rfl⟩ := List.mem_map.mp hi
    rw [Nat.add_mul]
    simp
  · intro i hi
    obtain ⟨j, hj, rfl⟩ := List.mem_map.mp hi
    have := List.mem_range.mp hj
    rw [Nat.add_mul]
    simp; omega
  · intro i hi
    have := List.mem_range.mp hi
    simp; omega

/-! ### filling -/

omit F in
theorem effChunk_fl (D : List (Mat (Fl r))) : effChunk (G.fl r s D) = G.k := by
  have := G.hk
  unfold effChunk ScanGrid.fl
  rw [if_neg (by show ¬ G.k = 0; omega)]

/-- one array of tie data after the row fill -/
noncomputable def flScan (G : ScanGrid ℝ) (r : Rounding) (s : Nat) (d : Mat (Fl r)) : Mat (Fl r) :=
  (List.range s).flatMap (fun c => bracketed (fpos r G.p (s * G.t)) d ((List.range G.t).map (fun j => c * G.t + j))
    (el (fpos r G.h (s * G.k)) (c * G.k)) (el (fpos r G.h (s * G.k)) ((c + 1) * G.k - 1)))

theorem fillRows_fl (D : List (Mat (Fl r))) (hD : ∀ d ∈ D, d.length = s * G.t) :
    fillRows (G.fl r s D) = .ok { G.fl r s [] with
      rowIdx := (G.rows s).map (fun x => .val (r.rnd x)), tieData := D.map (flScan G r s) } := by
  have ht := G.ht
  have hk := G.hk
  set st := G.fl r s D with hst
  have he : effChunk st = G.k := effChunk_fl D
  obtain ⟨st', h1, h2, h3, _, _⟩ := C10_fill_rows st s F.hs (by rw [he]; exact hk)
    (by rw [he, hst]; exact fpos_length _ _) (by
      intro d hd
      rw [hD d hd]; exact (fpos_length _ _).symm)
    (by
      intro c hc
      rw [hst, chunkTies_fl F hc]; simp; exact ht)
  obtain ⟨r1, r2, r3, r4, r5, r6⟩ := fillRows_rest h1
  rw [h1]
  have h2' : st'.rowIdx = (G.rows s).map (fun x => .val (r.rnd x)) := by
    rw [h2, ScanGrid.rows, List.map_flatMap]
    refine List.flatMap_congr (fun c hc => ?_)
    have hc' := List.mem_range.mp hc
    have hcs : (c + 1) * G.t ≤ s * G.t := Nat.mul_le_mul_right _ hc'
    have hck : (c + 1) * G.k ≤ s * G.k := Nat.mul_le_mul_right _ hc'
    rw [Nat.add_mul] at hcs hck
    rw [he, hst, chunkTies_fl F hc']
    have hh0 : el (G.fl r s D).hrowIdx (c * G.k) = .val (r.rnd ((c * G.t : Nat) + G.h 0)) := by
      rw [← G.hhs]; exact fpos_el G.h (by omega)
    have hh1 : el (G.fl r s D).hrowIdx ((c + 1) * G.k - 1) = .val (r.rnd ((c * G.t : Nat) + G.h (G.k - 1))) := by
      have e : (c + 1) * G.k - 1 = c * G.k + (G.k - 1) := by rw [Nat.add_mul]; omega
      rw [← G.hhs, e]; exact fpos_el G.h (by omega)
    rw [hh0, hh1]
    simp only [ScanGrid.block, List.map_append, List.map_cons, List.map_nil, List.map_map, poss]
    congr 2
    refine List.map_congr_left (fun j hj => ?_)
    have hj' := List.mem_range.mp hj
    simp only [Function.comp]
    rw [← G.hps]; exact fpos_el G.p (by omega)
  have h3' : st'.tieData = D.map (flScan G r s) := by
    rw [h3, hst]
    refine List.map_congr_left (fun d _ => ?_)
    unfold flScan
    refine List.flatMap_congr (fun c hc => ?_)
    rw [chunkTies_fl F (List.mem_range.mp hc), effChunk_fl]
    rfl
  cases st'
  simp only at h2' h3' r1 r2 r3 r4 r5 r6
  subst h2' h3' r1 r2 r3 r4 r5 r6
  rfl

omit F in
theorem flScan_length (d : Mat (Fl r)) : (flScan G r s d).length = s * (G.t + 2) := by
  unfold flScan
  rw [List.length_flatMap]
  simp [bracketed]

omit F in
theorem flScan_width {d : Mat (Fl r)} (hd : d.length = s * G.t) (hw : ∀ x ∈ d, x.length = G.n) :
    ∀ x ∈ flScan G r s d, x.length = G.n := by
  have ht := G.ht
  have hrow : ∀ j < s * G.t, (row d j).length = G.n := by
    intro j hj
    have : row d j = d[j]'(by omega) := by simp [row, hd, hj]
    rw [this]; exact hw _ (List.getElem_mem _)
  intro x hx
  obtain ⟨c, hc, hx⟩ := List.mem_flatMap.mp hx
  have hc' := List.mem_range.mp hc
  have hcs : (c + 1) * G.t ≤ s * G.t := Nat.mul_le_mul_right _ hc'
  rw [Nat.add_mul] at hcs
  have hsel : ∀ j < G.t, ((List.range G.t).map (fun j => c * G.t + j)).getD j 0 = c * G.t + j := by
    intro j hj; simp [hj]
  unfold bracketed at hx
  simp only [List.length_map, List.length_range, hsel 0 (by omega), hsel 1 (by omega), hsel (G.t - 2) (by omega),
    hsel (G.t - 1) (by omega), List.mem_append, List.mem_singleton, List.map_map] at hx
  rcases hx with (rfl | hx) | rfl
  · rw [List.length_zipWith, hrow _ (by omega), hrow _ (by omega), Nat.min_self]
  · obtain ⟨j, hj, rfl⟩ := List.mem_map.mp hx
    exact hrow _ (by have := List.mem_range.mp hj; show c * G.t + j < _; omega)
  · rw [List.length_zipWith, hrow _ (by omega), hrow _ (by omega), Nat.min_self]

/-- one row of data after the column fill -/
noncomputable def flCol (G : ScanGrid ℝ) (r : Rounding) (x : List (Fl r)) : List (Fl r) := fillRow (G.fl r 0 []) x

omit F in
theorem q_ge (i : Nat) : G.q 0 ≤ G.q i := by
  rcases Nat.eq_zero_or_pos i with rfl | h
  · exact le_rfl
  · exact (G.hqm _ _ h).le

theorem FlGrid.bq {i : Nat} (h : i < G.n) : |G.q i| ≤ F.B := by
  have hN := G.hN
  have hq : G.q i ≤ G.q (G.n - 1) := by
    rcases Nat.lt_or_ge i (G.n - 1) with h' | h'
    · exact (G.hqm _ _ h').le
    · rw [show i = G.n - 1 by omega]
  have b0 := abs_le.1 (F.bg 0 (by omega))
  have b1 := abs_le.1 (F.bg (G.N - 1) (by omega))
  rw [abs_le]
  constructor
  · linarith [q_ge (G := G) i, G.hq0, b0.1]
  · linarith [G.hq1, b1.2]

omit F in
theorem elEnd_fpos (f : Nat → ℝ) {n k : Nat} (h : k ≤ n) (hk : 1 ≤ k) :
    elEnd (fpos r f n) k = .val (r.rnd (f (n - k))) := by
  have := fpos_el (r := r) f (show n - k < n by omega)
  unfold elEnd
  rw [fpos_length]
  exact this

/-- two positions that are rounded to the same number are equal -/
theorem FlGrid.inj {x y : ℝ} (hx : OnGrid F.m x) (hy : OnGrid F.m y) (bx : |x| ≤ F.B) (hyB : |y| ≤ F.B) :
    r.rnd x = r.rnd y ↔ x = y := by
  constructor
  · intro h
    rcases lt_trichotomy x y with h' | h' | h'
    · exact absurd h (rnd_lt_grid F.hm F.hB hx hy bx hyB h').ne
    · exact h'
    · exact absurd h (rnd_lt_grid F.hm F.hB hy hx hyB bx h').ne'
  · intro h; rw [h]

theorem cols_fl (s' : Nat) (D : List (Mat (Fl r))) :
    (colsFilled (G.fl r s' D)).colIdx = G.cols.map (fun x => .val (r.rnd x)) := by
  have hn := G.hn
  have hN := G.hN
  unfold colsFilled needFirst needLast
  have e0 : el (G.fl r s' D).colIdx 0 = .val (r.rnd (G.q 0)) := fpos_el G.q (by omega)
  have e1 : el (G.fl r s' D).hcolIdx 0 = .val (r.rnd (G.g 0)) := fpos_el G.g (by omega)
  have e2 : elEnd (G.fl r s' D).colIdx 1 = .val (r.rnd (G.q (G.n - 1))) := elEnd_fpos G.q (by omega) le_rfl
  have e3 : elEnd (G.fl r s' D).hcolIdx 1 = .val (r.rnd (G.g (G.N - 1))) := elEnd_fpos G.g (by omega) le_rfl
  simp only [e0, e1, e2, e3, Fl.eq_val]
  have d0 : decide (r.rnd (G.q 0) = r.rnd (G.g 0)) = decide (G.q 0 = G.g 0) := decide_eq_decide.mpr
    (F.inj (F.gq _) (F.gg _) (F.bq (by omega)) (F.bg _ (by omega)))
  have d1 : decide (r.rnd (G.q (G.n - 1)) = r.rnd (G.g (G.N - 1))) = decide (G.q (G.n - 1) = G.g (G.N - 1)) :=
    decide_eq_decide.mpr (F.inj (F.gq _) (F.gg _) (F.bq (by omega)) (F.bg _ (by omega)))
  rw [d0, d1]
  unfold ScanGrid.cols edgeCols withEdges
  rw [poss_length, poss_length, poss_getD G.q (by omega), poss_getD G.g (by omega), poss_getD G.q (by omega),
    poss_getD G.g (by omega), List.map_append, List.map_append]
  by_cases a : G.q 0 = G.g 0 <;> by_cases b : G.q (G.n - 1) = G.g (G.N - 1) <;> simp [a, b] <;> rfl

theorem flCol_width {x : List (Fl r)} (hx : x.length = G.n) : (flCol G r x).length = G.cols.length := by
  have := congrArg List.length (cols_fl F 0 [])
  rw [List.length_map] at this
  rw [← this]
  unfold flCol fillRow colsFilled withEdges
  cases needFirst (G.fl r 0 []) <;> cases needLast (G.fl r 0 []) <;> simp [ScanGrid.fl, fpos, poss, hx]

/-- the filled interpolator -/
noncomputable def flFilled (G : ScanGrid ℝ) (r : Rounding) (s : Nat) (D : List (Mat (Fl r))) : Interp (Fl r) :=
  { G.fl r s [] with
    rowIdx := (G.rows s).map (fun x => .val (r.rnd x))
    colIdx := G.cols.map (fun x => .val (r.rnd x))
    tieData := D.map (fun d => (flScan G r s d).map (flCol G r)) }

theorem fill_fl (D : List (Mat (Fl r))) (hD : ∀ d ∈ D, d.length = s * G.t) (hw : ∀ d ∈ D, ∀ x ∈ d, x.length = G.n) :
    fillBorders ["y", "x"] (G.fl r s D) = (.ok (), flFilled G r s D) := by
  have hn := G.hn
  have hN := G.hN
  unfold fillBorders
  rw [show ["y", "x"].mapM (fillCase (α := Fl r)) = .ok [fillRows, fillCols] from rfl]
  simp only [runFills, fillRows_fl F D hD]
  rw [fillCols_ok]
  · simp only
    congr 1
    have hc := cols_fl F s (D.map (flScan G r s))
    unfold colsFilled at hc ⊢
    unfold flFilled
    rw [← hc]
    simp only [List.map_map]
    rfl
  · refine ⟨by simp [ScanGrid.fl, fpos, poss]; omega, by simp [ScanGrid.fl, fpos, poss]; omega, ?_⟩
    intro d hd x hx
    obtain ⟨d', hd', rfl⟩ := List.mem_map.mp hd
    rw [flScan_width (hD d' hd') (hw d' hd') x hx]
    simp [ScanGrid.fl, fpos, poss]

/-! ### sortedness -/

theorem map_rnd_sorted {l : List ℝ} (h : l.Pairwise (· < ·)) (hg : ∀ x ∈ l, OnGrid F.m x) (hb : ∀ x ∈ l, |x| ≤ F.B) :
    (l.map r.rnd).Pairwise (· < ·) := by
  rw [List.pairwise_map]
  exact h.imp_of_mem (fun hx hy hlt => rnd_lt_grid F.hm F.hB (hg _ hx) (hg _ hy) (hb _ hx) (hb _ hy) hlt)

theorem rows_on : ∀ x ∈ G.rows s, OnGrid F.m x ∧ |x| ≤ F.B := by
  have hk := G.hk
  intro x hx
  obtain ⟨c, hc, hx⟩ := List.mem_flatMap.mp hx
  have hc' := List.mem_range.mp hc
  have hcs : (c + 1) * G.t ≤ s * G.t := Nat.mul_le_mul_right _ hc'
  have hck : (c + 1) * G.k ≤ s * G.k := Nat.mul_le_mul_right _ hc'
  rw [Nat.add_mul] at hcs hck
  obtain ⟨y, hy, rfl⟩ := List.mem_map.mp hx
  unfold ScanGrid.block at hy
  rcases List.mem_append.mp hy with hy | hy
  · rcases List.mem_append.mp hy with hy | hy
    · rw [List.mem_singleton.mp hy, ← G.hhs]
      exact ⟨F.gh _, F.bh _ (by omega)⟩
    · obtain ⟨j, hj, rfl⟩ := List.mem_map.mp hy
      have := List.mem_range.mp hj
      rw [← G.hps]
      exact ⟨F.gp _, F.bp (by omega)⟩
  · rw [List.mem_singleton.mp hy, ← G.hhs]
    exact ⟨F.gh _, F.bh _ (by omega)⟩

theorem cols_on : ∀ x ∈ G.cols, OnGrid F.m x ∧ |x| ≤ F.B := by
  have hn := G.hn
  have hN := G.hN
  intro x hx
  unfold ScanGrid.cols edgeCols at hx
  rw [poss_length, poss_length, poss_getD G.q (by omega), poss_getD G.g (by omega), poss_getD G.q (by omega),
    poss_getD G.g (by omega)] at hx
  rcases List.mem_append.mp hx with hx | hx
  · rcases List.mem_append.mp hx with hx | hx
    · split at hx
      · simp at hx
      · rw [List.mem_singleton.mp hx]; exact ⟨F.gg _, F.bg _ (by omega)⟩
    · obtain ⟨j, hj, rfl⟩ := List.mem_map.mp hx
      exact ⟨F.gq _, F.bq (List.mem_range.mp hj)⟩
  · split at hx
    · simp at hx
    · rw [List.mem_singleton.mp hx]; exact ⟨F.gg _, F.bg _ (by omega)⟩

theorem rows_fl_sorted : ((G.rows s).map r.rnd).Pairwise (· < ·) :=
  map_rnd_sorted F (rows_sorted G s) (fun x hx => (rows_on F x hx).1) (fun x hx => (rows_on F x hx).2)

theorem cols_fl_sorted : (G.cols.map r.rnd).Pairwise (· < ·) :=
  map_rnd_sorted F (cols_sorted G) (fun x hx => (cols_on F x hx).1) (fun x hx => (cols_on F x hx).2)

theorem interpolate_fl (S : SplLib (Fl r)) (D : List (Mat (Fl r))) (hD : ∀ d ∈ D, d.length = s * G.t)
    (hw : ∀ d ∈ D, ∀ x ∈ d, x.length = G.n) :
    interpolate S (flFilled G r s D) = .ok ((flFilled G r s D).tieData.map (rectVal S (flFilled G r s D))) := by
  have hn := G.hn
  have ht := G.ht
  have hs := F.hs
  have hkt := G.hkt
  have hcl := cols_length G
  have comp : ∀ l : List ℝ, l.map (fun x => (Fl.val (r.rnd x) : Fl r)) = (l.map r.rnd).map Fl.val := by
    intro l; rw [List.map_map]; rfl
  unfold interpolate
  rw [if_neg]
  · refine mapM_ok (fun d hd => ?_)
    obtain ⟨d', hd', rfl⟩ := List.mem_map.mp hd
    refine rectBivariate_ok S _ _ ?_ ?_ ?_ ?_ ?_ ?_ ?_ ?_
    · show strictInc ((G.rows s).map (fun x => (Fl.val (r.rnd x) : Fl r))) = true
      rw [comp]; exact (strictInc_fl _).mpr (rows_fl_sorted F)
    · show strictInc (G.cols.map (fun x => (Fl.val (r.rnd x) : Fl r))) = true
      rw [comp]; exact (strictInc_fl _).mpr (cols_fl_sorted F)
    · show _ = ((G.rows s).map (fun x => (Fl.val (r.rnd x) : Fl r))).length
      rw [List.length_map, List.length_map, rows_length, flScan_length]
    · intro x hx
      obtain ⟨x', hx', rfl⟩ := List.mem_map.mp hx
      show _ = (G.cols.map (fun x => (Fl.val (r.rnd x) : Fl r))).length
      rw [flCol_width F (flScan_width (hD d' hd') (hw d' hd') x' hx'), List.length_map]
    · show 1 < ((G.rows s).map (fun x => (Fl.val (r.rnd x) : Fl r))).length
      rw [List.length_map, rows_length]
      have : 1 * (G.t + 2) ≤ s * (G.t + 2) := Nat.mul_le_mul_right _ hs
      omega
    · show 3 < (G.cols.map (fun x => (Fl.val (r.rnd x) : Fl r))).length
      rw [List.length_map]; omega
    · show weakInc (fpos r G.h (s * G.k)) = true
      unfold fpos
      rw [comp]
      refine (weakInc_fl _).mpr ?_
      rw [List.pairwise_map]
      exact (poss_sorted G.hhm _).imp (fun h => r.mono (le_of_lt h))
    · show weakInc (fpos r G.g G.N) = true
      unfold fpos
      rw [comp]
      refine (weakInc_fl _).mpr ?_
      rw [List.pairwise_map]
      exact (poss_sorted G.hgm _).imp (fun h => r.mono (le_of_lt h))
  · intro he
    unfold arrayEqual at he
    rw [Bool.and_eq_true, beq_iff_eq] at he
    have h1 : (flFilled G r s D).hrowIdx.length = s * G.k := fpos_length _ _
    have h2 : (flFilled G r s D).rowIdx.length = s * (G.t + 2) := by
      show ((G.rows s).map (fun x => (Fl.val (r.rnd x) : Fl r))).length = _
      rw [List.length_map, rows_length]
    rw [h1, h2] at he
    exact hkt (Nat.eq_of_mul_eq_mul_left (by omega) he.1)

omit F in
theorem geoTies_shape {α : Type} [Trig α] {a b : Nat} {lons lats : Mat α} (h1 : lons.length = a) (h2 : lats.length = a)
    (h3 : ∀ x ∈ lons, x.length = b) (h4 : ∀ x ∈ lats, x.length = b) :
    (geoTies lons lats).length = 3 ∧ (∀ d ∈ geoTies lons lats, d.length = a) ∧
      ∀ d ∈ geoTies lons lats, ∀ x ∈ d, x.length = b := by
  refine ⟨rfl, ?_, ?_⟩
  · intro d hd
    unfold geoTies at hd
    simp only [List.mem_cons, List.not_mem_nil, or_false] at hd
    rcases hd with rfl | rfl | rfl <;> simp [h1, h2]
  · intro d hd x hx
    unfold geoTies at hd
    simp only [List.mem_cons, List.not_mem_nil, or_false] at hd
    rcases hd with rfl | rfl | rfl <;>
    · obtain ⟨u, hu, v, hv, rfl⟩ := mem_zipWith hx
      rw [List.length_zipWith, h3 u hu, h4 v hv, Nat.min_self]

/-- the arrays of the result, for any content and any spline library -/
theorem geo_fl (S : SplLib (Fl r)) {lons lats : Mat (Fl r)} (h1 : lons.length = s * G.t) (h2 : lats.length = s * G.t)
    (h3 : ∀ x ∈ lons, x.length = G.n) (h4 : ∀ x ∈ lats, x.length = G.n) :
    geoInterpXyz S ["y", "x"] (G.fl r s (geoTies lons lats))
      = toLonLat ((geoTies lons lats).map (fun d => rectVal S (flFilled G r s (geoTies lons lats))
          ((flScan G r s d).map (flCol G r)))) := by
  obtain ⟨_, g1, g2⟩ := geoTies_shape h1 h2 h3 h4
  unfold geoInterpXyz
  rw [fill_fl F _ g1 g2]
  simp only
  rw [interpolate_fl F S _ g1 g2]
  simp only [flFilled, List.map_map]
  rfl

/-- the shape of the result, for any content and any spline library -/
theorem geo_fl_shape (S : SplLib (Fl r)) {lons lats : Mat (Fl r)} (h1 : lons.length = s * G.t) (h2 : lats.length = s * G.t)
    (h3 : ∀ x ∈ lons, x.length = G.n) (h4 : ∀ x ∈ lats, x.length = G.n) :
    ∃ lo la, geoInterpXyz S ["y", "x"] (G.fl r s (geoTies lons lats)) = .ok (lo, la) ∧
      lo.length = s * G.k ∧ la.length = s * G.k ∧ (∀ x ∈ lo, x.length = G.N) ∧ ∀ x ∈ la, x.length = G.N := by
  rw [geo_fl F S h1 h2 h3 h4]
  refine toLonLat_shape (by simp [geoTies]) ?_ ?_
  · intro d hd
    obtain ⟨d', _, rfl⟩ := List.mem_map.mp hd
    simp [rectVal, flFilled, ScanGrid.fl, fpos, poss]
  · intro d hd x hx
    obtain ⟨d', _, rfl⟩ := List.mem_map.mp hd
    obtain ⟨y, _, rfl⟩ := List.mem_map.mp hx
    simp [flFilled, ScanGrid.fl, fpos, poss]

end Verif.Presets
