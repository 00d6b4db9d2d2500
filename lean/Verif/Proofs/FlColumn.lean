import Verif.Proofs.FlPresetsAcc

/-!
# The presets along the tie columns, with rounding and an inexact spline library
-/

set_option linter.unusedSectionVars false

namespace Verif.Presets
open Verif Verif.Interpolator Verif.Spec Verif.Props Verif.Err Verif.Grid

variable {r : Rounding} {G : ScanGrid ℝ} {s : Nat} {η ρ M : ℝ} {V : List (List ℝ)} {S : SplLib (Fl r)}

/-- What is assumed of the spline library on the row positions `R` and the column positions `C`: for values of at most `M`
the first-order spline along the rows is within `ρ M` of the straight line between neighbours, and the cubic spline along the
columns is within `ρ M` of the given values at the positions where values are given. -/
structure SplAcc (S : SplLib (Fl r)) (R C : List ℝ) (ρ : ℝ) : Prop where
  line : ∀ (ys : List ℝ) (M x : ℝ) (i : Nat), ys.length = R.length → i + 1 < R.length → (∀ y ∈ ys, Rep r.p y ∧ |y| ≤ M) →
    Rep r.p x → R.getD i 0 ≤ x → x ≤ R.getD (i + 1) 0 →
    ∃ v, S 1 (R.map .val) (ys.map .val) (.val x) = .val v ∧ Rep r.p v ∧
      |v - lineThrough (R.getD i 0) (ys.getD i 0) (R.getD (i + 1) 0) (ys.getD (i + 1) 0) x| ≤ ρ * M
  node : ∀ (ys : List ℝ) (M : ℝ) (i : Nat), ys.length = C.length → i < C.length → (∀ y ∈ ys, Rep r.p y ∧ |y| ≤ M) →
    ∃ v, S 3 (C.map .val) (ys.map .val) (.val (C.getD i 0)) = .val v ∧ Rep r.p v ∧ |v - ys.getD i 0| ≤ ρ * M

theorem clamp_between {ks : List ℝ} (h : ks.Pairwise (· < ·)) {a b x : ℝ} (ha : a ∈ ks) (hb : b ∈ ks) (h1 : a ≤ x) (h2 : x ≤ b) :
    clamp (ks.map (Fl.val : ℝ → Fl r)) (.val x) = .val x := by
  have hne : ks ≠ [] := by intro e; rw [e] at ha; cases ha
  obtain ⟨a', ha'⟩ : ∃ a, ks.head? = some a := ⟨_, List.head?_eq_some_head hne⟩
  obtain ⟨b', hb'⟩ : ∃ b, ks.getLast? = some b := ⟨_, List.getLast?_eq_some_getLast hne⟩
  have g1 := (head_le h ha' ha).trans h1
  have g2 := h2.trans (le_last h hb' hb)
  unfold clamp
  rw [List.head?_map, List.getLast?_map, ha', hb']
  simp [not_lt.mpr g1, not_lt.mpr g2]

theorem comp_rnd (l : List ℝ) : l.map (fun x => (Fl.val (r.rnd x) : Fl r)) = (l.map r.rnd).map Fl.val := by
  rw [List.map_map]; rfl

/-- column `b` of the tie points after the column fill -/
theorem cols_get {s' : Nat} (F : FlGrid G r s') {b : Nat} (hb : b < G.n) :
    (if needFirst (G.fl r 0 []) then 1 else 0) + b < (G.cols.map r.rnd).length ∧
    (G.cols.map r.rnd).getD ((if needFirst (G.fl r 0 []) then 1 else 0) + b) 0 = r.rnd (G.q b) := by
  have e := cols_fl F 0 []
  rw [comp_rnd] at e
  unfold colsFilled at e
  simp only at e
  have hl : (G.fl r 0 []).colIdx.length = G.n := fpos_length _ _
  have h1 := withEdges_length (needFirst (G.fl r 0 [])) (needLast (G.fl r 0 [])) (el (G.fl r 0 []).hcolIdx 0)
    (elEnd (G.fl r 0 []).hcolIdx 1) (G.fl r 0 []).colIdx
  have h2 := withEdges_getD (needFirst (G.fl r 0 [])) (needLast (G.fl r 0 [])) (el (G.fl r 0 []).hcolIdx 0)
    (elEnd (G.fl r 0 []).hcolIdx 1) 0 (G.fl r 0 []).colIdx (i := b) (by omega)
  rw [e, List.length_map, hl] at h1
  have hlt : (if needFirst (G.fl r 0 []) then 1 else 0) + b < (G.cols.map r.rnd).length := by omega
  refine ⟨hlt, ?_⟩
  rw [e] at h2
  have h3 : (G.fl r 0 []).colIdx.getD b 0 = .val (r.rnd (G.q b)) := fpos_el G.q hb
  rw [h3, getD_map_lt _ hlt 0 0] at h2
  injection h2

theorem rCol_get {x : List ℝ} {b : Nat} (hb : b < x.length) :
    (rCol G r x).getD ((if needFirst (G.fl r 0 []) then 1 else 0) + b) 0 = x.getD b 0 := by
  unfold rCol
  exact withEdges_getD _ _ _ _ _ _ hb

/-- at a fine column on a tie column the cubic spline along the row gives back the tie value up to its error -/
theorem col_value_fl {s' : Nat} (F : FlGrid G r s') (H : Unit1 G r s η) {R : List ℝ} (A : SplAcc S R (G.cols.map r.rnd) ρ)
    {x : List ℝ} (hx : x.length = G.n) (hR : ∀ y ∈ x, Rep r.p y ∧ |y| ≤ M) {b u : Nat} (hb : b < G.n) (hu : G.g u = G.q b) :
    ∃ v, S 3 (G.cols.map (fun x => .val (r.rnd x))) (flCol G r (x.map .val))
        (clamp (G.cols.map (fun x => .val (r.rnd x))) (.val (r.rnd (G.g u)))) = .val v ∧ Rep r.p v ∧
      |v - x.getD b 0| ≤ ρ * (2.61 * M) := by
  obtain ⟨c1, c2⟩ := cols_get F hb
  have hlen : (rCol G r x).length = (G.cols.map r.rnd).length := by
    have := flCol_width F (x := x.map (Fl.val : ℝ → Fl r)) (by rw [List.length_map]; exact hx)
    rw [flCol_real H hx, List.length_map] at this
    rw [this, List.length_map]
  have hmem : r.rnd (G.q b) ∈ G.cols.map r.rnd := by rw [← c2]; exact mem_el c1
  rw [comp_rnd, flCol_real H hx, hu, clamp_between (cols_fl_sorted F) hmem hmem le_rfl le_rfl, ← c2]
  obtain ⟨v, v1, v2, v3⟩ := A.node (rCol G r x) (2.61 * M) _ hlen c1
    (rCol_mem H hx (fun y hy => (hR y hy).1) (fun y hy => (hR y hy).2))
  rw [rCol_get (by omega)] at v3
  exact ⟨v, v1, v2, v3⟩

/-- the rows after the row fill -/
theorem rows_get {c i : Nat} (hc : c < s) (hi : i < G.t + 2) :
    c * (G.t + 2) + i < ((G.rows s).map r.rnd).length ∧
    ((G.rows s).map r.rnd).getD (c * (G.t + 2) + i) 0 = r.rnd (((c * G.t : Nat) : ℝ) + G.block.getD i 0) := by
  have hcs : (c + 1) * (G.t + 2) ≤ s * (G.t + 2) := Nat.mul_le_mul_right _ hc
  rw [Nat.add_mul] at hcs
  have hlt : c * (G.t + 2) + i < (G.rows s).length := by rw [rows_length]; omega
  refine ⟨by rw [List.length_map]; exact hlt, ?_⟩
  rw [getD_map_lt _ hlt 0 0]
  congr 1
  unfold ScanGrid.rows
  rw [List.flatMap_def, getD_flatten (t := G.t + 2) (by
    intro m hm
    obtain ⟨c', _, rfl⟩ := List.mem_map.mp hm
    rw [List.length_map, block_length]) 0 (by simpa using hc) hi, getD_map_lt _ (by simpa using hc) [] 0,
    getD_map_lt _ (by rw [block_length]; exact hi) 0 0]
  simp [hc]

theorem block_mid {i : Nat} (hi : i < G.t) : G.block.getD (i + 1) 0 = G.p i := by
  unfold ScanGrid.block
  rw [getD_mid _ _ _ _ (by rw [poss_length]; exact hi), poss_getD _ hi]

theorem block_last : G.block.getD (G.t + 1) 0 = G.h (G.k - 1) := by
  unfold ScanGrid.block
  have := getD_end (G.h 0) (G.h (G.k - 1)) 0 (poss G.p G.t)
  rwa [poss_length] at this

/-- the pixel in row `c k + a` and column `u` on a tie column -/
theorem column_fl (F : FlGrid G r s) (H : Unit1 G r s η) (A : SplAcc S ((G.rows s).map r.rnd) (G.cols.map r.rnd) ρ)
    (hρ : ρ ≤ 1 / 100) (hV : Shape (s * G.t) G.n V) (hR : ∀ x ∈ V, ∀ y ∈ x, Rep r.p y)
    (hM : ∀ x ∈ V, ∀ y ∈ x, |y| ≤ M) (Ds : List (Mat (Fl r))) {c a b u j : Nat} (hc : c < s) (ha : a < G.k) (hb : b < G.n)
    (huN : u < G.N) (hu : G.g u = G.q b) (hj : j + 1 < G.t) (h1 : j = 0 ∨ G.p j ≤ G.h a) (h2 : j + 2 = G.t ∨ G.h a ≤ G.p (j + 1)) :
    ∃ v, el (row (rectVal S (flFilled G r s Ds) ((flScan G r s (flvals V)).map (flCol G r))) (c * G.k + a)) u = .val v ∧
      Rep r.p v ∧
      |v - lineThrough (G.p j) ((V.getD (c * G.t + j) []).getD b 0) (G.p (j + 1)) ((V.getD (c * G.t + (j + 1)) []).getD b 0) (G.h a)|
        ≤ (10 * ρ + 21 * r.u) * M
          + 6 * η * |(V.getD (c * G.t + (j + 1)) []).getD b 0 - (V.getD (c * G.t + j) []).getD b 0| := by
  have ht := G.ht
  have hk := G.hk
  have hcs : (c + 1) * G.t ≤ s * G.t := Nat.mul_le_mul_right _ hc
  have hck : (c + 1) * G.k ≤ s * G.k := Nat.mul_le_mul_right _ hc
  rw [Nat.add_mul] at hcs hck
  have hm : ∀ i < s * G.t, |(V.getD i []).getD b 0| ≤ M := fun i hi =>
    hM _ (mem_row hV hi) _ (mem_el (by rw [row_len hV hi]; exact hb))
  have hM0 : 0 ≤ M := (abs_nonneg _).trans (hm 0 (by omega))
  have hmem := rScan_mem H hV hR hM
  -- the values along the column
  have ex : ∀ x ∈ rScan G r s V, ∃ v, S 3 (G.cols.map (fun x => .val (r.rnd x))) (flCol G r (x.map .val))
        (clamp (G.cols.map (fun x => .val (r.rnd x))) (.val (r.rnd (G.g u)))) = .val v ∧ Rep r.p v ∧
      |v - x.getD b 0| ≤ ρ * (2.61 * (2.61 * M)) := fun x hx => col_value_fl F H A (hmem x hx).1 (hmem x hx).2 hb hu
  choose! f f1 f2 f3 using ex
  have hent : el (row (rectVal S (flFilled G r s Ds) ((flScan G r s (flvals V)).map (flCol G r))) (c * G.k + a)) u
      = S 1 (((G.rows s).map r.rnd).map .val) (((rScan G r s V).map f).map .val)
          (clamp (((G.rows s).map r.rnd).map .val) (.val (r.rnd (G.h (c * G.k + a))))) := by
    have e1 : (fpos r G.h (s * G.k))[c * G.k + a]? = some (.val (r.rnd (G.h (c * G.k + a)))) := by
      have : c * G.k + a < s * G.k := by omega
      simp [fpos, poss, this]
    have e2 : (fpos r G.g G.N)[u]? = some (.val (r.rnd (G.g u))) := by simp [fpos, poss, huN]
    unfold el row rectVal
    rw [List.getD_eq_getElem?_getD, List.getD_eq_getElem?_getD, List.getElem?_map]
    show ((Option.map _ (fpos r G.h (s * G.k))[c * G.k + a]?).getD [])[u]?.getD 0 = _
    rw [e1, Option.map_some, Option.getD_some, List.getElem?_map]
    show (Option.map _ (fpos r G.g G.N)[u]?).getD 0 = _
    rw [e2, Option.map_some, Option.getD_some, flScan_real H]
    show S 1 ((G.rows s).map (fun x => (Fl.val (r.rnd x) : Fl r))) _ (clamp ((G.rows s).map (fun x => (Fl.val (r.rnd x) : Fl r))) _) = _
    rw [comp_rnd]
    congr 1
    unfold flvals
    rw [List.map_map, List.map_map, List.map_map]
    refine List.map_congr_left (fun x hx => ?_)
    exact f1 x hx
  obtain ⟨ys, eys⟩ : ∃ ys, ys = (rScan G r s V).map f := ⟨_, rfl⟩
  rw [hent, ← eys]
  have hyl : ys.length = ((G.rows s).map r.rnd).length := by
    rw [eys, List.length_map, List.length_map, rScan_length, rows_length]
  have hyget : ∀ i < G.t + 2, |ys.getD (c * (G.t + 2) + i) 0 - ((rBlock G r V c).getD i []).getD b 0| ≤ 7 * ρ * M := by
    intro i hi
    have hcs' : (c + 1) * (G.t + 2) ≤ s * (G.t + 2) := Nat.mul_le_mul_right _ hc
    rw [Nat.add_mul] at hcs'
    have hlt : c * (G.t + 2) + i < (rScan G r s V).length := by rw [rScan_length]; omega
    rw [eys, getD_map_lt f hlt 0 [], ← rScan_get (s := s) hc hi]
    have hin : (rScan G r s V).getD (c * (G.t + 2) + i) [] ∈ rScan G r s V := by
      rw [getD_of_lt _ _ hlt]; exact List.getElem_mem _
    refine (f3 _ hin).trans ?_
    have h0 : 0 ≤ ρ * (2.61 * (2.61 * M)) := (abs_nonneg _).trans (f3 _ hin)
    have : ρ * M * 6.8121 = ρ * (2.61 * (2.61 * M)) := by ring
    nlinarith
  have hyM : ∀ y ∈ ys, Rep r.p y ∧ |y| ≤ 3 * M := by
    intro y hy
    rw [eys] at hy
    obtain ⟨x, hx, rfl⟩ := List.mem_map.mp hy
    refine ⟨f2 x hx, ?_⟩
    have g1 := f3 x hx
    have g2 := ((hmem x hx).2 _ (mem_el (b := b) (by rw [(hmem x hx).1]; exact hb))).2
    have g3 : ρ * (2.61 * (2.61 * M)) ≤ 1 / 100 * (2.61 * (2.61 * M)) := mul_le_mul_of_nonneg_right hρ (by positivity)
    have e : f x = (f x - x.getD b 0) + x.getD b 0 := by ring
    rw [e]
    refine (abs_add_le _ _).trans ?_
    linarith
  have hrow0 : ∀ i < G.t + 2, _ := fun i hi => rows_get (r := r) (G := G) hc hi
  -- a segment
  have seg : ∀ i, i + 1 < G.t + 2 → G.block.getD i 0 ≤ G.h a → G.h a ≤ G.block.getD (i + 1) 0 →
      ∀ (c0 σ D e : ℝ), |σ| ≤ D →
        |r.rnd (((c * G.t : Nat) : ℝ) + G.block.getD i 0) - (((c * G.t : Nat) : ℝ) + G.block.getD i 0)| ≤ η →
        |r.rnd (((c * G.t : Nat) : ℝ) + G.block.getD (i + 1) 0) - (((c * G.t : Nat) : ℝ) + G.block.getD (i + 1) 0)| ≤ η →
        |((rBlock G r V c).getD i []).getD b 0 - (c0 + σ * (((c * G.t : Nat) : ℝ) + G.block.getD i 0))| ≤ e →
        |((rBlock G r V c).getD (i + 1) []).getD b 0 - (c0 + σ * (((c * G.t : Nat) : ℝ) + G.block.getD (i + 1) 0))| ≤ e →
        ∃ v, S 1 (((G.rows s).map r.rnd).map .val) (ys.map .val)
          (clamp (((G.rows s).map r.rnd).map .val) (.val (r.rnd (G.h (c * G.k + a))))) = .val v ∧ Rep r.p v ∧
          |v - (c0 + σ * G.h (c * G.k + a))| ≤ 10 * ρ * M + e + 2 * η * D := by
    intro i hi b1 b2 c0 σ D e hσ ea eb va vb
    obtain ⟨l1, p1⟩ := hrow0 i (by omega)
    obtain ⟨l2, p2⟩ := hrow0 (i + 1) hi
    rw [← Nat.add_assoc] at l2 p2
    have hlt : ((G.rows s).map r.rnd).getD (c * (G.t + 2) + i) 0 < ((G.rows s).map r.rnd).getD (c * (G.t + 2) + i + 1) 0 := by
      rw [getD_of_lt _ _ l1, getD_of_lt _ _ l2]
      exact List.pairwise_iff_getElem.mp (rows_fl_sorted F) _ _ l1 l2 (by omega)
    have m1 := mem_el l1
    have m2 := mem_el l2
    have x1 : ((G.rows s).map r.rnd).getD (c * (G.t + 2) + i) 0 ≤ r.rnd (G.h (c * G.k + a)) := by
      rw [p1, G.hhs]; exact r.mono (by linarith)
    have x2 : r.rnd (G.h (c * G.k + a)) ≤ ((G.rows s).map r.rnd).getD (c * (G.t + 2) + i + 1) 0 := by
      rw [p2, G.hhs]; exact r.mono (by linarith)
    rw [clamp_between (rows_fl_sorted F) m1 m2 x1 x2]
    obtain ⟨v, v1, v2, v3⟩ := A.line ys (3 * M) (r.rnd (G.h (c * G.k + a))) (c * (G.t + 2) + i) hyl l2 hyM (r.rep _) x1 x2
    refine ⟨v, v1, v2, ?_⟩
    have ya := hyget i (by omega)
    have yb := hyget (i + 1) hi
    rw [← Nat.add_assoc] at yb
    have ka : |ys.getD (c * (G.t + 2) + i) 0 - (c0 + σ * (((c * G.t : Nat) : ℝ) + G.block.getD i 0))| ≤ 7 * ρ * M + e := by
      refine (abs_sub_le _ (((rBlock G r V c).getD i []).getD b 0) _).trans (add_le_add ya va)
    have kb : |ys.getD (c * (G.t + 2) + i + 1) 0 - (c0 + σ * (((c * G.t : Nat) : ℝ) + G.block.getD (i + 1) 0))| ≤ 7 * ρ * M + e := by
      refine (abs_sub_le _ (((rBlock G r V c).getD (i + 1) []).getD b 0) _).trans (add_le_add yb vb)
    have sg := segment_near (η := η) hlt x1 x2 (by rw [p1]; exact ea) (by rw [p2]; exact eb) (H.eh (c * G.k + a) (by omega)) hσ ka kb
    refine (abs_sub_le _ _ _).trans ((add_le_add v3 sg).trans ?_)
    linarith
  -- the line
  obtain ⟨d0, ed0⟩ : ∃ d, d = (V.getD (c * G.t + j) []).getD b 0 := ⟨_, rfl⟩
  obtain ⟨d1, ed1⟩ : ∃ d, d = (V.getD (c * G.t + (j + 1)) []).getD b 0 := ⟨_, rfl⟩
  rw [← ed0, ← ed1]
  have hpj : G.p (j + 1) = G.p j + 1 := H.p1 j
  have line : ∀ x, lineThrough (G.p j) d0 (G.p (j + 1)) d1 x
      = (d0 - (d1 - d0) * (((c * G.t : Nat) : ℝ) + G.p j)) + (d1 - d0) * (((c * G.t : Nat) : ℝ) + x) := by
    intro x
    rw [hpj]
    unfold lineThrough
    rw [show G.p j + 1 - G.p j = 1 by ring]
    ring
  have line2 : ∀ x, lineThrough (G.p (c * G.t + j)) d0 (G.p (c * G.t + (j + 1))) d1 x
      = (d0 - (d1 - d0) * (((c * G.t : Nat) : ℝ) + G.p j)) + (d1 - d0) * x := by
    intro x
    rw [G.hps, G.hps, hpj]
    unfold lineThrough
    rw [show ((c * G.t : Nat) : ℝ) + (G.p j + 1) - (((c * G.t : Nat) : ℝ) + G.p j) = 1 by ring]
    ring
  have huM : 0 ≤ 21 * r.u * M := by have := r.u_pos; positivity
  have hη0 : 0 ≤ η := (abs_nonneg _).trans (H.eh 0 (by omega))
  have hηD : 0 ≤ η * |d1 - d0| := mul_nonneg hη0 (abs_nonneg _)
  have epm : ∀ i < G.t, |r.rnd (((c * G.t : Nat) : ℝ) + G.p i) - (((c * G.t : Nat) : ℝ) + G.p i)| ≤ η := by
    intro i hi
    rw [← G.hps]; exact H.ep _ (by omega)
  have eh0 : |r.rnd (((c * G.t : Nat) : ℝ) + G.h 0) - (((c * G.t : Nat) : ℝ) + G.h 0)| ≤ η := by
    rw [← G.hhs]; exact H.eh _ (by omega)
  have ehl : |r.rnd (((c * G.t : Nat) : ℝ) + G.h (G.k - 1)) - (((c * G.t : Nat) : ℝ) + G.h (G.k - 1))| ≤ η := by
    rw [← G.hhs]; exact H.eh _ (by omega)
  obtain ⟨E1, E2⟩ := rBlock_ends H hV hM hc hb
  simp only at E1 E2
  have tie0 : |d0 - ((d0 - (d1 - d0) * (((c * G.t : Nat) : ℝ) + G.p j)) + (d1 - d0) * (((c * G.t : Nat) : ℝ) + G.p j))|
      ≤ 21 * r.u * M + 4 * η * |d1 - d0| := by
    rw [show d0 - ((d0 - (d1 - d0) * (((c * G.t : Nat) : ℝ) + G.p j)) + (d1 - d0) * (((c * G.t : Nat) : ℝ) + G.p j)) = 0 by ring,
      abs_zero]
    linarith
  have tie1 : |d1 - ((d0 - (d1 - d0) * (((c * G.t : Nat) : ℝ) + G.p j)) + (d1 - d0) * (((c * G.t : Nat) : ℝ) + G.p (j + 1)))|
      ≤ 21 * r.u * M + 4 * η * |d1 - d0| := by
    rw [hpj, show d1 - ((d0 - (d1 - d0) * (((c * G.t : Nat) : ℝ) + G.p j)) + (d1 - d0) * (((c * G.t : Nat) : ℝ) + (G.p j + 1))) = 0
      by ring, abs_zero]
    linarith
  have fin : (∃ v, S 1 (((G.rows s).map r.rnd).map .val) (ys.map .val)
          (clamp (((G.rows s).map r.rnd).map .val) (.val (r.rnd (G.h (c * G.k + a))))) = .val v ∧ Rep r.p v ∧
          |v - ((d0 - (d1 - d0) * (((c * G.t : Nat) : ℝ) + G.p j)) + (d1 - d0) * G.h (c * G.k + a))|
            ≤ 10 * ρ * M + (21 * r.u * M + 4 * η * |d1 - d0|) + 2 * η * |d1 - d0|) →
      ∃ v, S 1 (((G.rows s).map r.rnd).map .val) (ys.map .val)
          (clamp (((G.rows s).map r.rnd).map .val) (.val (r.rnd (G.h (c * G.k + a))))) = .val v ∧ Rep r.p v ∧
          |v - lineThrough (G.p j) d0 (G.p (j + 1)) d1 (G.h a)| ≤ (10 * ρ + 21 * r.u) * M + 6 * η * |d1 - d0| := by
    rintro ⟨v, v1, v2, v3⟩
    refine ⟨v, v1, v2, ?_⟩
    rw [line, ← G.hhs]
    linarith
  apply fin
  rcases lt_or_ge (G.h a) (G.p 0) with hx | hx
  · have hj0 : j = 0 := by
      rcases h1 with h1 | h1
      · exact h1
      · by_contra hne
        exact absurd (lt_of_lt_of_le hx (G.pmono (show 0 < j by omega)).le) (not_lt.mpr h1)
    subst hj0
    rw [← ed0, show c * G.t + 1 = c * G.t + (0 + 1) from rfl, ← ed1, line2] at E1
    have hk0 := G.hhs c 0
    rw [Nat.add_zero] at hk0
    rw [hk0] at E1
    refine seg 0 (by omega) ?_ ?_ _ _ _ _ le_rfl eh0 ?_ E1 ?_
    · show G.h 0 ≤ G.h a
      rcases Nat.eq_zero_or_pos a with rfl | h
      · exact le_rfl
      · exact (G.hhm _ _ h).le
    · rw [block_mid (by omega)]; exact hx.le
    · rw [block_mid (by omega)]; exact epm 0 (by omega)
    · rw [block_mid (by omega), rBlock_mid _ (by omega), ← ed0]; exact tie0
  · rcases lt_or_ge (G.p (G.t - 1)) (G.h a) with hy | hy
    · have hj0 : j + 2 = G.t := by
        rcases h2 with h2 | h2
        · exact h2
        · by_contra hne
          exact absurd (lt_of_le_of_lt (G.pmono (show j + 1 < G.t - 1 by omega)).le hy) (not_lt.mpr h2)
      have q1 : G.t - 2 = j := by omega
      have q2 : G.t - 1 = j + 1 := by omega
      rw [q1, q2, ← ed0, ← ed1, line2, last_row hk, G.hhs] at E2
      have bm := block_mid (G := G) (i := j + 1) (by omega)
      have rm := rBlock_mid (G := G) (r := r) (V := V) c (i := j + 1) (by omega)
      rw [show j + 1 + 1 = G.t by omega] at bm rm
      refine seg G.t (by omega) ?_ ?_ _ _ _ _ le_rfl ?_ ?_ ?_ ?_
      · rw [bm, ← q2]; exact hy.le
      · rw [block_last]
        rcases Nat.lt_or_ge a (G.k - 1) with h | h
        · exact (G.hhm _ _ h).le
        · rw [show a = G.k - 1 by omega]
      · rw [bm]; exact epm _ (by omega)
      · rw [block_last]; exact ehl
      · rw [bm, rm, ← ed1]; exact tie1
      · rw [block_last]; exact E2
    · refine seg (j + 1) (by omega) ?_ ?_ _ _ _ _ le_rfl ?_ ?_ ?_ ?_
      · rw [block_mid (by omega)]
        rcases h1 with h1 | h1
        · rw [h1]; exact hx
        · exact h1
      · rw [block_mid (by omega)]
        rcases h2 with h2 | h2
        · rw [show j + 1 = G.t - 1 by omega]; exact hy
        · exact h2
      · rw [block_mid (by omega)]; exact epm _ (by omega)
      · rw [block_mid (by omega)]; exact epm _ (by omega)
      · rw [block_mid (by omega), rBlock_mid _ (by omega), ← ed0]; exact tie0
      · rw [block_mid (by omega), rBlock_mid _ (by omega), ← ed1]; exact tie1

end Verif.Presets
