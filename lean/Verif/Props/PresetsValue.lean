import Verif.Props.Presets
import Verif.Props.PresetsMore

/-!
# C52: what the MODIS presets compute along the tie columns
-/

set_option linter.unusedSectionVars false

namespace Verif.Presets
open Verif Verif.Interpolator Verif.Spec Verif.Props FP

variable {K : Type} [Field K] [LinearOrder K] [IsStrictOrderedRing K]

/-- the first-order spline on a segment -/
theorem linSeg_segment (ks : List K) (h : ks.Pairwise (· < ·)) (ys : List K) (hy : ys.length = ks.length) (i : Nat)
    (hi : i + 1 < ks.length) (x : K) (h1 : i = 0 ∨ ks.getD i 0 ≤ x) (h2 : i + 2 = ks.length ∨ x ≤ ks.getD (i + 1) 0) :
    linSeg (ks.map val) (ys.map val) (val x)
      = val (lineThrough (ks.getD i 0) (ys.getD i 0) (ks.getD (i + 1) 0) (ys.getD (i + 1) 0) x) := by
  induction ks generalizing ys i with
  | nil => simp at hi
  | cons k0 l ih =>
    match l, ys, h, ih, hy, hi, h1, h2 with
    | k1 :: l, y0 :: y1 :: ys, h, ih, hy, hi, h1, h2 =>
      have hp := List.pairwise_cons.mp h
      have hlt : k0 < k1 := hp.1 k1 (List.mem_cons_self ..)
      have hne : k1 - k0 ≠ 0 := sub_ne_zero.mpr (ne_of_gt hlt)
      have first : (l = [] ∨ x < k1) → linSeg ((k0 :: k1 :: l).map val) ((y0 :: y1 :: ys).map val) (val x)
          = val (lineThrough k0 y0 k1 y1 x) := by
        intro hc
        simp only [List.map_cons, linSeg]
        rw [if_pos (by rcases hc with hc | hc <;> simp [hc])]
        simp only [val_sub, val_div_of_ne _ hne, val_mul, val_add]
        congr 1
        unfold lineThrough
        field_simp
        ring
      match i with
      | 0 =>
        simp only [List.getD_cons_zero, List.getD_cons_succ] at h2 ⊢
        rcases h2 with h2 | h2
        · refine first (Or.inl ?_)
          simp at h2; exact h2
        · rcases lt_or_eq_of_le h2 with h3 | h3
          · exact first (Or.inr h3)
          · rw [h3]
            have := linSeg_node (k0 :: k1 :: l) h (y0 :: y1 :: ys) hy (by simp) 1 (by simp)
            simp only [List.getElem_cons_succ, List.getElem_cons_zero] at this
            rw [this]
            unfold lineThrough
            congr 1
            field_simp
            ring
      | i + 1 =>
        simp only [List.getD_cons_succ] at h1 h2 ⊢
        have hl : l ≠ [] := by intro e; rw [e] at hi; simp at hi
        have hx : k1 ≤ x := by
          rcases h1 with h1 | h1
          · omega
          · have hm : (k1 :: l).getD i 0 ∈ k1 :: l := by
              rw [getD_of_lt _ _ (by simp at hi ⊢; omega)]; exact List.getElem_mem _
            exact le_trans (head_le hp.2 rfl hm) h1
        have st := linSeg_ge_head_step (k0 := k0) (k1 := k1) (l := l) (y0 := val y0) (y1 := val y1) (ys := ys.map val)
          (x := x) hl hx
        simp only [List.map_cons] at st ih ⊢
        rw [st]
        have := ih hp.2 (y1 :: ys) (by simpa using hy) i (by simp at hi ⊢; omega)
          (by rcases h1 with h1 | h1
              · omega
              · right; exact h1)
          (by rcases h2 with h2 | h2
              · left; simp at h2 ⊢; omega
              · right; exact h2)
        simpa using this

theorem lineThrough_right {p0 p1 : K} (h : p0 ≠ p1) (d0 d1 : K) : lineThrough p0 d0 p1 d1 p1 = d1 := by
  have : p1 - p0 ≠ 0 := sub_ne_zero.mpr (Ne.symm h)
  unfold lineThrough
  field_simp
  ring

theorem lineThrough_left (p0 p1 d0 d1 : K) : lineThrough p0 d0 p1 d1 p0 = d0 := by
  unfold lineThrough
  simp

/-- two points of a line give the line -/
theorem lineThrough_two {p0 p1 a b : K} (h : p0 ≠ p1) (hab : a ≠ b) (d0 d1 x : K) :
    lineThrough a (lineThrough p0 d0 p1 d1 a) b (lineThrough p0 d0 p1 d1 b) x = lineThrough p0 d0 p1 d1 x := by
  have h1 : p1 - p0 ≠ 0 := sub_ne_zero.mpr (Ne.symm h)
  have h2 : b - a ≠ 0 := sub_ne_zero.mpr (Ne.symm hab)
  unfold lineThrough
  field_simp
  ring

variable (G : ScanGrid K)

theorem getD_mid {β : Type} (a b d : β) (l : List β) {i : Nat} (h : i < l.length) :
    ([a] ++ l ++ [b]).getD (i + 1) d = l.getD i d := by
  simp [List.getElem?_append_left, h]

theorem getD_end {β : Type} (a b d : β) (l : List β) : ([a] ++ l ++ [b]).getD (l.length + 1) d = b := by
  simp

/-- one scan along one column: straight lines between tie rows, and beyond the first and the last -/
theorem scan_line (v : Nat → K) (a : Nat) (ha : a < G.k) (j : Nat) (hj : j + 1 < G.t) (h1 : j = 0 ∨ G.p j ≤ G.h a)
    (h2 : j + 2 = G.t ∨ G.h a ≤ G.p (j + 1)) :
    linSeg (G.block.map val) (([lineThrough (G.p 0) (v 0) (G.p 1) (v 1) (G.h 0)] ++ poss v G.t
        ++ [lineThrough (G.p (G.t - 2)) (v (G.t - 2)) (G.p (G.t - 1)) (v (G.t - 1)) (G.h (G.k - 1))]).map val)
        (val (G.h a))
      = val (lineThrough (G.p j) (v j) (G.p (j + 1)) (v (j + 1)) (G.h a)) := by
  have ht := G.ht
  have hf := G.hfirst
  have hlt := G.hlast
  have hsort : G.block.Pairwise (· < ·) := by
    have := rows_sorted G 1
    simpa [ScanGrid.rows] using this
  have hlen : G.block.length = G.t + 2 := block_length G
  have hmid : ∀ i < G.t, G.block.getD (i + 1) 0 = G.p i := by
    intro i hi
    unfold ScanGrid.block
    rw [getD_mid _ _ _ _ (by rw [poss_length]; exact hi), poss_getD _ hi]
  have hlast : G.block.getD (G.t + 1) 0 = G.h (G.k - 1) := by
    unfold ScanGrid.block
    have := getD_end (G.h 0) (G.h (G.k - 1)) 0 (poss G.p G.t)
    rwa [poss_length] at this
  have hfirst : G.block.getD 0 0 = G.h 0 := rfl
  set e0 := lineThrough (G.p 0) (v 0) (G.p 1) (v 1) (G.h 0) with he0
  set e1 := lineThrough (G.p (G.t - 2)) (v (G.t - 2)) (G.p (G.t - 1)) (v (G.t - 1)) (G.h (G.k - 1)) with he1
  set ys := [e0] ++ poss v G.t ++ [e1] with hys
  have yl : ys.length = G.block.length := by rw [hlen]; simp [hys, poss_length]
  have ymid : ∀ i < G.t, ys.getD (i + 1) 0 = v i := by
    intro i hi
    rw [hys, getD_mid _ _ _ _ (by rw [poss_length]; exact hi), poss_getD _ hi]
  have ylast : ys.getD (G.t + 1) 0 = e1 := by
    have := getD_end e0 e1 0 (poss v G.t)
    rwa [poss_length] at this
  have yfirst : ys.getD 0 0 = e0 := rfl
  rcases lt_or_ge (G.h a) (G.p 0) with hx | hx
  · have hj0 : j = 0 := by
      rcases h1 with h1 | h1
      · exact h1
      · by_contra hne
        exact absurd (lt_of_lt_of_le hx (G.pmono (show 0 < j by omega)).le) (not_lt.mpr h1)
    subst hj0
    rw [linSeg_segment G.block hsort ys yl 0 (by omega) _ (Or.inl rfl) (Or.inr (by rw [hmid 0 (by omega)]; exact hx.le)),
      hfirst, hmid 0 (by omega), yfirst, ymid 0 (by omega)]
    have := lineThrough_two (ne_of_lt (G.pmono (show 0 < 1 by omega))) (ne_of_lt hf) (v 0) (v 1) (G.h a)
    rw [lineThrough_left, ← he0] at this
    rw [this]
  · rcases lt_or_ge (G.p (G.t - 1)) (G.h a) with hy | hy
    · have hj0 : j + 2 = G.t := by
        rcases h2 with h2 | h2
        · exact h2
        · by_contra hne
          exact absurd (lt_of_le_of_lt (G.pmono (show j + 1 < G.t - 1 by omega)).le hy) (not_lt.mpr h2)
      rw [linSeg_segment G.block hsort ys yl G.t (by omega) _ (Or.inr (by
          have := hmid (G.t - 1) (by omega)
          rw [show G.t - 1 + 1 = G.t by omega] at this
          rw [this]; exact hy.le)) (Or.inl (by omega))]
      have m1 := hmid (G.t - 1) (by omega)
      have m2 := ymid (G.t - 1) (by omega)
      rw [show G.t - 1 + 1 = G.t by omega] at m1 m2
      rw [m1, m2, hlast, ylast]
      have := lineThrough_two (ne_of_lt (G.pmono (show G.t - 2 < G.t - 1 by omega))) (ne_of_lt hlt) (v (G.t - 2)) (v (G.t - 1))
        (G.h a)
      rw [lineThrough_right (ne_of_lt (G.pmono (show G.t - 2 < G.t - 1 by omega))), ← he1] at this
      rw [this, show G.t - 2 = j by omega, show G.t - 1 = j + 1 by omega]
    · rw [linSeg_segment G.block hsort ys yl (j + 1) (by omega) _ (Or.inr (by
          rw [hmid j (by omega)]
          rcases h1 with h1 | h1
          · rw [h1]; exact hx
          · exact h1)) (Or.inr (by
          rw [hmid (j + 1) (by omega)]
          rcases h2 with h2 | h2
          · rw [show j + 1 = G.t - 1 by omega]; exact hy
          · exact h2)),
        hmid j (by omega), hmid (j + 1) (by omega), ymid j (by omega), ymid (j + 1) (by omega)]

theorem withEdges_getD {β : Type} (f l : Bool) (a b d : β) (r : List β) {i : Nat} (h : i < r.length) :
    (withEdges f l a b r).getD ((if f then 1 else 0) + i) d = r.getD i d := by
  unfold withEdges
  cases f <;> cases l <;> simp [List.getElem?_append_left, h, Nat.add_comm 1 i]

theorem withEdges_length {β : Type} (f l : Bool) (a b : β) (r : List β) :
    (if f then 1 else 0) + r.length ≤ (withEdges f l a b r).length := by
  unfold withEdges
  cases f <;> cases l <;> simp <;> omega

/-- at a fine column on a tie column the cubic spline along the row gives back the tie value -/
theorem col_value (S : SplLib (FP K)) (hS : Interpolating S 3) {r : List (FP K)} (hl : r.length = G.n)
    (hr : ∀ v ∈ r, IsNum v) {b u : Nat} (hb : b < G.n) (hu : G.g u = G.q b) :
    S 3 (G.cols.map val) (G.colFill r) (clamp (G.cols.map val) (val (G.g u))) = el r b := by
  have hn := G.hn
  have hnum := colFill_num G hl hr
  have hcl := cols_length G
  set off : Nat := if needFirst (G.state 0 []) then 1 else 0 with hoff
  have hc1 : off + G.n ≤ G.cols.length := by
    have h1 := congrArg List.length (cols_filled G)
    have h2 := withEdges_length (needFirst (G.state 0 [])) (needLast (G.state 0 [])) (el (G.state 0 []).hcolIdx 0)
      (elEnd (G.state 0 []).hcolIdx 1) (G.state 0 []).colIdx
    have h3 : (G.state 0 []).colIdx.length = G.n := by simp [ScanGrid.state, poss]
    rw [List.length_map] at h1
    rw [← h1, ← h3]
    exact h2
  have hc2 : G.cols.getD (off + b) 0 = G.q b := by
    have h1 := congrArg (fun l => List.getD l (off + b) bad) (cols_filled G)
    simp only [colsFilled] at h1
    rw [withEdges_getD _ _ _ _ _ _ (by simp [ScanGrid.state, poss]; exact hb)] at h1
    have h2 : (G.state 0 []).colIdx.getD b bad = val (G.q b) := by simp [ScanGrid.state, poss, hb]
    rw [h2] at h1
    rw [List.getD_eq_getElem?_getD, List.getElem?_map, List.getElem?_eq_getElem (by omega)] at h1
    rw [getD_of_lt _ _ (by omega)]
    simp only [Option.map_some, Option.getD_some] at h1
    injection h1 with h1
    exact h1.symm
  have hmem : G.q b ∈ G.cols := by
    rw [← hc2, getD_of_lt _ _ (by omega)]; exact List.getElem_mem _
  rw [hu, clamp_node (cols_sorted G) hmem, ← map_val_num hnum]
  have hw := colFill_width G hl
  have h := hS G.cols ((G.colFill r).map num) (cols_sorted G) (by rw [List.length_map, hw]) (by omega) (off + b) (by omega)
    (by rw [List.length_map, hw]; omega)
  rw [← getD_of_lt _ 0 (by omega), hc2] at h
  rw [h, List.getElem_map, val_num (hnum _ (List.getElem_mem _))]
  have e := withEdges_getD (needFirst (G.state 0 [])) (needLast (G.state 0 []))
    (extrapolated (el (G.state 0 []).colIdx 0) (el (G.state 0 []).colIdx 1) (el r 0) (el r 1) (el (G.state 0 []).hcolIdx 0))
    (extrapolated (elEnd (G.state 0 []).colIdx 2) (elEnd (G.state 0 []).colIdx 1) (elEnd r 2) (elEnd r 1)
      (elEnd (G.state 0 []).hcolIdx 1)) (Arith.ofInt 0) r (i := b) (by omega)
  have hlt : off + b < (G.colFill r).length := by rw [hw]; omega
  rw [← getD_of_lt _ (Arith.ofInt 0) hlt]
  exact e

theorem el_map_val {r : List K} {b : Nat} (h : b < r.length) : el (r.map (val : K → FP K)) b = val (r.getD b 0) := by
  simp [el, h]

theorem el_zipWith {x y : List (FP K)} {b : Nat} (h : b < x.length) (h' : b < y.length) (f : FP K → FP K → FP K) :
    el (List.zipWith f x y) b = f (el x b) (el y b) := by
  simp [el, h, h']

/-- one scan of numbers at a fine column on a tie column: straight lines along the tie column -/
theorem scan_column (S : SplLib (FP K)) (hS : Interpolating S 3) (M : List (List K)) (hM : M.length = G.t)
    (hw : ∀ r ∈ M, r.length = G.n) {a b u : Nat} (ha : a < G.k) (hb : b < G.n) (huN : u < G.N) (hu : G.g u = G.q b)
    {j : Nat} (hj : j + 1 < G.t) (h1 : j = 0 ∨ G.p j ≤ G.h a) (h2 : j + 2 = G.t ∨ G.h a ≤ G.p (j + 1)) :
    el (row (G.scanOut S (numMat M)) a) u
      = val (lineThrough (G.p j) ((M.getD j []).getD b 0) (G.p (j + 1)) ((M.getD (j + 1) []).getD b 0) (G.h a)) := by
  have ht := G.ht
  have hnm : NumMat (numMat M) := by
    intro r hr v hv
    obtain ⟨r', _, rfl⟩ := List.mem_map.mp hr
    obtain ⟨x, _, rfl⟩ := List.mem_map.mp hv
    exact isNum_val _
  have hml : (numMat M).length = G.t := by rw [numMat, List.length_map, hM]
  have hmw : ∀ r ∈ numMat M, r.length = G.n := by
    intro r hr
    obtain ⟨r', hr', rfl⟩ := List.mem_map.mp hr
    rw [List.length_map]; exact hw r' hr'
  have e1 : el (row (G.scanOut S (numMat M)) a) u = linSeg (G.block.map val) (((G.scanFill (numMat M)).map G.colFill).map
      (fun r => S 3 (G.cols.map val) r (clamp (G.cols.map val) (val (G.g u))))) (val (G.h a)) := by
    simp [row, el, ScanGrid.scanOut, poss, ha, huN]
  rw [e1, List.map_map]
  have e2 : (G.scanFill (numMat M)).map ((fun r => S 3 (G.cols.map val) r (clamp (G.cols.map val) (val (G.g u)))) ∘ G.colFill)
      = (G.scanFill (numMat M)).map (fun r => el r b) := by
    refine List.map_congr_left (fun r hr => ?_)
    exact col_value G S hS (scanFill_width G hmw hml r hr) (scanFill_num G hml hnm r hr) hb hu
  rw [e2]
  have hrow : ∀ i < G.t, row (numMat M) i = (M.getD i []).map val := by
    intro i hi
    simp [row, numMat, hM, hi]
  have hrl : ∀ i < G.t, (M.getD i []).length = G.n := by
    intro i hi
    rw [getD_of_lt _ _ (by omega)]; exact hw _ (List.getElem_mem _)
  have hel : ∀ i < G.t, el ((M.getD i []).map (val : K → FP K)) b = val ((M.getD i []).getD b 0) := by
    intro i hi
    exact el_map_val (by rw [hrl i hi]; exact hb)
  have hzip : ∀ i i', i < G.t → i' < G.t → ∀ f : FP K → FP K → FP K, el (List.zipWith f (row (numMat M) i) (row (numMat M) i')) b
      = f (val ((M.getD i []).getD b 0)) (val ((M.getD i' []).getD b 0)) := by
    intro i i' hi hi' f
    rw [hrow i hi, hrow i' hi']
    rw [el_zipWith (by rw [List.length_map, hrl i hi]; exact hb) (by rw [List.length_map, hrl i' hi']; exact hb),
      hel i hi, hel i' hi']
  have hsel0 : ∀ j < G.t, (List.range G.t).getD j 0 = j := by
    intro j hj; simp [hj]
  have e3 : (G.scanFill (numMat M)).map (fun r => el r b)
      = ([lineThrough (G.p 0) ((M.getD 0 []).getD b 0) (G.p 1) ((M.getD 1 []).getD b 0) (G.h 0)]
        ++ poss (fun i => (M.getD i []).getD b 0) G.t ++ [lineThrough (G.p (G.t - 2)) ((M.getD (G.t - 2) []).getD b 0)
          (G.p (G.t - 1)) ((M.getD (G.t - 1) []).getD b 0) (G.h (G.k - 1))]).map val := by
    unfold ScanGrid.scanFill bracketed
    simp only [List.length_range, hsel0 0 (by omega), hsel0 1 (by omega), hsel0 (G.t - 2) (by omega),
      hsel0 (G.t - 1) (by omega), List.map_append, List.map_cons, List.map_nil,
      poss_el G.p (show 0 < G.t by omega), poss_el G.p (show 1 < G.t by omega),
      poss_el G.p (show G.t - 2 < G.t by omega), poss_el G.p (show G.t - 1 < G.t by omega)]
    rw [hzip 0 1 (by omega) (by omega), hzip (G.t - 2) (G.t - 1) (by omega) (by omega),
      extrapolated_val (ne_of_lt (G.pmono (by omega))), extrapolated_val (ne_of_lt (G.pmono (by omega)))]
    congr 2
    unfold poss
    rw [List.map_map, List.map_map]
    refine List.map_congr_left (fun i hi => ?_)
    have hi' := List.mem_range.mp hi
    simp only [Function.comp]
    rw [hrow i hi', hel i hi']
  rw [e3]
  exact scan_line G (fun i => (M.getD i []).getD b 0) a ha j hj h1 h2

end Verif.Presets

namespace Verif.Props
open Verif Verif.Interpolator Verif.Spec Verif.Presets FP

/-! ### from scans to the whole swath -/

theorem getD_flatten {β : Type} {scs : List (List β)} {t : Nat} (hrows : ∀ m ∈ scs, m.length = t) {c j : Nat} (d : β)
    (hc : c < scs.length) (hj : j < t) : scs.flatten.getD (c * t + j) d = (scs.getD c []).getD j d := by
  induction scs generalizing c with
  | nil => simp at hc
  | cons m scs ih =>
    have hm : m.length = t := hrows m (List.mem_cons_self ..)
    cases c with
    | zero =>
      simp only [List.flatten_cons, Nat.zero_mul, Nat.zero_add, List.getD_eq_getElem?_getD]
      rw [List.getElem?_append_left (by omega)]
      rfl
    | succ c =>
      have := ih (fun m' h => hrows m' (List.mem_cons_of_mem _ h)) (c := c) (by simpa using hc)
      rw [List.getD_cons_succ, ← this]
      simp only [List.flatten_cons, List.getD_eq_getElem?_getD]
      rw [List.getElem?_append_right (by rw [hm, Nat.add_mul]; omega), hm]
      congr 2
      rw [Nat.add_mul]; omega

theorem getD_zipWith {β γ δ : Type} (f : β → γ → δ) {l : List β} {l' : List γ} {i : Nat} (h : i < l.length) (h' : i < l'.length)
    (d : δ) (d1 : β) (d2 : γ) : (List.zipWith f l l').getD i d = f (l.getD i d1) (l'.getD i d2) := by
  simp [h, h']

theorem getD_map_lt {β γ : Type} (f : β → γ) {l : List β} {i : Nat} (h : i < l.length) (d : γ) (d1 : β) :
    (l.map f).getD i d = f (l.getD i d1) := by
  simp [h]

/-- one pixel of the conversion back -/
theorem toLonLat_pixel {a b : Nat} {x y z : Mat (FP ℝ)} (hx : Shape a b x) (hy : Shape a b y) (hz : Shape a b z) :
    ∃ lo la, toLonLat [x, y, z] = .ok (lo, la) ∧ ∀ i < a, ∀ u < b,
      (el (row lo i) u, el (row la i) u)
        = Geo.xyz2lonlat Geo.earthRadius Geo.defaultThr true (el (row x i) u, el (row y i) u, el (row z i) u) := by
  refine ⟨_, _, rfl, ?_⟩
  intro i hi u hu
  have wd : ∀ m : Mat (FP ℝ), Shape a b m → (m.getD i []).length = b := by
    intro m hm
    rw [getD_of_lt _ _ (by rw [hm.1]; exact hi)]; exact hm.2 _ (List.getElem_mem _)
  have key : ∀ g : FP ℝ × FP ℝ → FP ℝ, el (row (List.zipWith (fun rx r => List.zipWith (fun a b => g (Geo.xyz2lonlat
      Geo.earthRadius Geo.defaultThr true (a, b))) rx r) x (List.zipWith List.zip y z)) i) u
      = g (Geo.xyz2lonlat Geo.earthRadius Geo.defaultThr true (el (row x i) u, el (row y i) u, el (row z i) u)) := by
    intro g
    unfold row el
    rw [getD_zipWith _ (by rw [hx.1]; exact hi) (by rw [List.length_zipWith, hy.1, hz.1]; omega) _ [] [],
      getD_zipWith _ (by rw [wd x hx]; exact hu) (by
        rw [getD_zipWith _ (by rw [hy.1]; exact hi) (by rw [hz.1]; exact hi) _ [] [], List.length_zip, wd y hy, wd z hz]
        omega) _ 0 (0, 0),
      getD_zipWith _ (by rw [hy.1]; exact hi) (by rw [hz.1]; exact hi) _ [] [], List.zip,
      getD_zipWith _ (by rw [wd y hy]; exact hu) (by rw [wd z hz]; exact hu) _ 0 0]
  rw [key (·.1), key (·.2)]

/-- the tie point in row `i` and column `b`, on the sphere of 6370997 m -/
noncomputable def tieXyz (lons lats : List (List ℝ)) (i b : Nat) : ℝ × ℝ × ℝ :=
  Spec.spherePoint 6370997 ((lons.getD i []).getD b 0) ((lats.getD i []).getD b 0)

/-- the point of the straight line through `P` (at `p`) and `Q` (at `q`) at `x` -/
noncomputable def chord (p : ℝ) (P : ℝ × ℝ × ℝ) (q : ℝ) (Q : ℝ × ℝ × ℝ) (x : ℝ) : ℝ × ℝ × ℝ :=
  (lineThrough p P.1 q Q.1 x, lineThrough p P.2.1 q Q.2.1 x, lineThrough p P.2.2 q Q.2.2 x)

/-- longitude and latitude of a point, as the library computes them -/
noncomputable def geoOf (P : ℝ × ℝ × ℝ) : FP ℝ × FP ℝ :=
  Geo.xyz2lonlat Geo.earthRadius Geo.defaultThr true (val P.1, val P.2.1, val P.2.2)

theorem preset_column {G : ScanGrid ℝ} {S : SplLib (FP ℝ)} {F} (hF : IsPreset G S F)
    (hS1 : ∀ xs ys x, S 1 xs ys x = linSeg xs ys x) (hS3 : SplNum S) (hSi : Interpolating S 3) {s : Nat} (hs : 1 ≤ s)
    (lons lats : List (List ℝ)) (h1 : Shape (s * G.t) G.n lons) (h2 : Shape (s * G.t) G.n lats) :
    ∃ lo la, F (numMat lons) (numMat lats) = .ok (lo, la) ∧
      ∀ c < s, ∀ a < G.k, ∀ b < G.n, ∀ u < G.N, G.g u = G.q b → ∀ j, j + 1 < G.t → (j = 0 ∨ G.p j ≤ G.h a) →
        (j + 2 = G.t ∨ G.h a ≤ G.p (j + 1)) →
        (el (row lo (c * G.k + a)) u, el (row la (c * G.k + a)) u)
          = geoOf (chord (G.p j) (tieXyz lons lats (c * G.t + j) b) (G.p (j + 1)) (tieXyz lons lats (c * G.t + (j + 1)) b)
              (G.h a)) := by
  have hR : (Geo.earthRadius : FP ℝ) = val 6370997 := by
    simp only [Geo.earthRadius, lit_eq]; norm_num
  rw [hF.eq s hs _ _ (by rw [numMat, List.length_map]; exact h1.1)]
  obtain ⟨lonS, a1, a2, a3⟩ := exists_scans G.t s lons h1.1
  obtain ⟨latS, b1, b2, b3⟩ := exists_scans G.t s lats h2.1
  have hfl : ∀ m : List (List (List ℝ)), numMat m.flatten = (m.map numMat).flatten := by
    intro m
    unfold numMat
    rw [List.map_flatten]
  have w1 : ∀ m ∈ lonS, ∀ r ∈ m, r.length = G.n := fun m hm r hr => h1.2 r (by
    rw [← a3]; exact List.mem_flatten.mpr ⟨m, hm, hr⟩)
  have w2 : ∀ m ∈ latS, ∀ r ∈ m, r.length = G.n := fun m hm r hr => h2.2 r (by
    rw [← b3]; exact List.mem_flatten.mpr ⟨m, hm, hr⟩)
  have hnum : ∀ l : List (List (List ℝ)), ∀ m ∈ l.map numMat, NumMat (K := ℝ) m := by
    intro l m hm r hr v hv
    obtain ⟨m', _, rfl⟩ := List.mem_map.mp hm
    obtain ⟨r', _, rfl⟩ := List.mem_map.mp hr
    obtain ⟨x, _, rfl⟩ := List.mem_map.mp hv
    exact isNum_val _
  have hshape : SameShape G.t G.n (lonS.map numMat) (latS.map numMat) := by
    refine ⟨by simp [a1, b1], ?_, ?_⟩
    · intro m hm
      rcases List.mem_append.mp hm with hm | hm <;> obtain ⟨m', hm', rfl⟩ := List.mem_map.mp hm
      · rw [numMat, List.length_map]; exact a2 m' hm'
      · rw [numMat, List.length_map]; exact b2 m' hm'
    · intro m hm r hr
      rcases List.mem_append.mp hm with hm | hm <;> obtain ⟨m', hm', rfl⟩ := List.mem_map.mp hm <;>
        obtain ⟨r', hr', rfl⟩ := List.mem_map.mp hr
      · rw [List.length_map]; exact w1 m' hm' r' hr'
      · rw [List.length_map]; exact w2 m' hm' r' hr'
  rw [← a3, ← b3, hfl, hfl, geo_core G S hS1 hS3 s _ _ hs (by simp [a1]) hshape (hnum _) (hnum _)]
  -- the three arrays of numbers, scan by scan
  let D (f : ℝ × ℝ × ℝ → ℝ) : List (List (List ℝ)) := List.zipWith (List.zipWith (List.zipWith (fun x y =>
    f (Spec.spherePoint 6370997 x y)))) lonS latS
  have hD : ∀ (g : FP ℝ × FP ℝ × FP ℝ → FP ℝ) (f : ℝ × ℝ × ℝ → ℝ),
      (∀ x y, g (Geo.lonlat2xyz Geo.earthRadius (val x) (val y)) = val (f (Spec.spherePoint 6370997 x y))) →
      List.zipWith (fun lo la => List.zipWith (List.zipWith (fun lon lat => g (Geo.lonlat2xyz Geo.earthRadius lon lat))) lo la)
        (lonS.map numMat) (latS.map numMat) = (D f).map numMat := by
    intro g f hgf
    show _ = (List.zipWith _ lonS latS).map numMat
    rw [List.zipWith_map, List.map_zipWith]
    congr 1
    funext A B
    unfold numMat
    rw [List.zipWith_map, List.map_zipWith]
    congr 1
    funext r r'
    rw [List.zipWith_map, List.map_zipWith]
    congr 1
    funext x y
    exact hgf x y
  have hv : ∀ x y : ℝ, Geo.lonlat2xyz (Geo.earthRadius : FP ℝ) (val x) (val y)
      = (val (Spec.spherePoint 6370997 x y).1, val (Spec.spherePoint 6370997 x y).2.1,
          val (Spec.spherePoint 6370997 x y).2.2) := by
    intro x y
    rw [hR]; exact Geo.lonlat2xyz_val 6370997 x y
  have hT : tieScans (lonS.map numMat) (latS.map numMat) = [(D (·.1)).map numMat, (D (·.2.1)).map numMat,
      (D (·.2.2)).map numMat] := by
    rw [← hD (·.1) (·.1) (fun x y => by rw [hv]), ← hD (·.2.1) (·.2.1) (fun x y => by rw [hv]),
      ← hD (·.2.2) (·.2.2) (fun x y => by rw [hv])]
    rfl
  rw [hT]
  have hDl : ∀ f, (D f).length = s := by intro f; simp [D, a1, b1]
  have hDm : ∀ f, ∀ c < s, (D f).getD c [] = List.zipWith (List.zipWith (fun x y => f (Spec.spherePoint 6370997 x y)))
      (lonS.getD c []) (latS.getD c []) := by
    intro f c hc
    exact getD_zipWith _ (by rw [a1]; exact hc) (by rw [b1]; exact hc) _ [] []
  have la : ∀ c < s, (lonS.getD c []).length = G.t ∧ ∀ r ∈ lonS.getD c [], r.length = G.n := by
    intro c hc
    rw [getD_of_lt _ _ (by omega)]
    exact ⟨a2 _ (List.getElem_mem _), w1 _ (List.getElem_mem _)⟩
  have lb : ∀ c < s, (latS.getD c []).length = G.t ∧ ∀ r ∈ latS.getD c [], r.length = G.n := by
    intro c hc
    rw [getD_of_lt _ _ (by omega)]
    exact ⟨b2 _ (List.getElem_mem _), w2 _ (List.getElem_mem _)⟩
  have hso : ∀ m : Mat (FP ℝ), Shape G.k G.N (G.scanOut S m) := by
    intro m
    refine ⟨by simp [ScanGrid.scanOut, poss], ?_⟩
    intro r hr
    obtain ⟨x, _, rfl⟩ := List.mem_map.mp hr
    simp [poss]
  have hsh : ∀ f, Shape (s * G.k) G.N (((D f).map numMat).flatMap (G.scanOut S)) := by
    intro f
    constructor
    · rw [List.length_flatMap]
      have : ((D f).map numMat).map (fun m => (G.scanOut S m).length) = List.replicate s G.k := by
        rw [List.eq_replicate_iff]
        refine ⟨by simp [hDl], ?_⟩
        intro x hx
        obtain ⟨m, _, rfl⟩ := List.mem_map.mp hx
        exact (hso m).1
      rw [this, List.sum_replicate]; rfl
    · intro r hr
      obtain ⟨m, _, hm⟩ := List.mem_flatMap.mp hr
      exact (hso m).2 r hm
  obtain ⟨lo, la', e, hpix⟩ := toLonLat_pixel (hsh (·.1)) (hsh (·.2.1)) (hsh (·.2.2))
  refine ⟨lo, la', e, ?_⟩
  intro c hc a ha b hb u hu hgq j hj hj1 hj2
  have hi : c * G.k + a < s * G.k := by
    have : (c + 1) * G.k ≤ s * G.k := Nat.mul_le_mul_right _ hc
    rw [Nat.add_mul] at this; omega
  rw [hpix _ hi u hu]
  have hval : ∀ f : ℝ × ℝ × ℝ → ℝ, el (row (((D f).map numMat).flatMap (G.scanOut S)) (c * G.k + a)) u
      = val (lineThrough (G.p j) (f (tieXyz lons lats (c * G.t + j) b)) (G.p (j + 1))
          (f (tieXyz lons lats (c * G.t + (j + 1)) b)) (G.h a)) := by
    intro f
    have e1 : row (((D f).map numMat).flatMap (G.scanOut S)) (c * G.k + a)
        = row (G.scanOut S (numMat ((D f).getD c []))) a := by
      unfold row
      rw [List.flatMap_def, getD_flatten (t := G.k) (by
        intro m hm
        obtain ⟨m', _, rfl⟩ := List.mem_map.mp hm
        exact (hso m').1) [] (by simp [hDl, hc]) ha, List.map_map, getD_map_lt _ (by rw [hDl]; exact hc) [] []]
      rfl
    rw [e1, hDm f c hc, scan_column G S hSi _ (by rw [List.length_zipWith, (la c hc).1, (lb c hc).1, Nat.min_self]) (by
      intro r hr
      obtain ⟨x, hx, y, hy, rfl⟩ := mem_zipWith hr
      rw [List.length_zipWith, (la c hc).2 x hx, (lb c hc).2 y hy, Nat.min_self]) ha hb hu hgq hj hj1 hj2]
    have ev : ∀ i < G.t, ((List.zipWith (List.zipWith (fun x y => f (Spec.spherePoint 6370997 x y)))
        (lonS.getD c []) (latS.getD c [])).getD i []).getD b 0 = f (tieXyz lons lats (c * G.t + i) b) := by
      intro i hi
      have l1 : ((lonS.getD c []).getD i []).length = G.n := by
        have hlt : i < (lonS.getD c []).length := by rw [(la c hc).1]; exact hi
        rw [getD_of_lt _ _ hlt]; exact (la c hc).2 _ (List.getElem_mem _)
      have l2 : ((latS.getD c []).getD i []).length = G.n := by
        have hlt : i < (latS.getD c []).length := by rw [(lb c hc).1]; exact hi
        rw [getD_of_lt _ _ hlt]; exact (lb c hc).2 _ (List.getElem_mem _)
      rw [getD_zipWith _ (by rw [(la c hc).1]; exact hi) (by rw [(lb c hc).1]; exact hi) _ [] [],
        getD_zipWith _ (by rw [l1]; exact hb) (by rw [l2]; exact hb) _ 0 0]
      unfold tieXyz
      rw [← a3, ← b3, getD_flatten a2 [] (by omega) hi, getD_flatten b2 [] (by omega) hi]
    rw [ev j (by omega), ev (j + 1) hj]
  rw [hval (·.1), hval (·.2.1), hval (·.2.2), a3, b3]
  rfl

/-! ### C52 -/

/-- the tie point itself: the conversion of a tie point gives its longitude and latitude -/
theorem geoOf_tie (lons lats : List (List ℝ)) (i b : Nat)
    (h1 : -180 < (lons.getD i []).getD b 0) (h2 : (lons.getD i []).getD b 0 < 180)
    (h3 : -90 < (lats.getD i []).getD b 0) (h4 : (lats.getD i []).getD b 0 < 90) :
    geoOf (tieXyz lons lats i b) = (val ((lons.getD i []).getD b 0), val ((lats.getD i []).getD b 0)) := by
  have hR : (Geo.earthRadius : FP ℝ) = val 6370997 := by
    simp only [Geo.earthRadius, lit_eq]; norm_num
  have := C01_roundtrip_partial 6370997 (((8 : Nat) : ℝ) / 10 ^ 1) _ _ true (by norm_num) h1 h2 h3 h4
  rw [Geo.lonlat2xyz_val, ← hR] at this
  exact this

/-- **C52 (5 km to 1 km)**: any positive number of scans of tie points.  Fine column `5b + 2` lies on tie column `b`; fine
row `a` of scan `c` carries there the longitude and latitude of the point at `(a - 2) / 5` of the way from the scan's first
to its second tie point: between them, and beyond them on both sides.  `hS1`, `hS3`, `hSi`: the spline library is piecewise
linear for order 1, and for order 3 gives numbers and passes through its points. -/
theorem C52_modis5kmto1km (S : SplLib (FP ℝ)) (hS1 : ∀ xs ys x, S 1 xs ys x = linSeg xs ys x) (hS3 : SplNum S)
    (hSi : Interpolating S 3) (s : Nat) (hs : 1 ≤ s) (lons lats : List (List ℝ)) (h1 : Shape (2 * s) 271 lons)
    (h2 : Shape (2 * s) 271 lats) :
    ∃ lo la, modis5kmto1km S (numMat lons) (numMat lats) = .ok (lo, la) ∧ ∀ c a b : Nat, c < s → a < 10 → b < 271 →
      (el (row lo (10 * c + a)) (5 * b + 2), el (row la (10 * c + a)) (5 * b + 2))
        = geoOf (chord 2 (tieXyz lons lats (2 * c) b) 7 (tieXyz lons lats (2 * c + 1) b) a) := by
  rw [Nat.mul_comm 2 s] at h1 h2
  obtain ⟨lo, la, e, h⟩ := preset_column (isPreset5 S) hS1 hS3 hSi hs lons lats h1 h2
  refine ⟨lo, la, e, ?_⟩
  intro c a b hc ha hb
  have := h c hc a ha b hb (5 * b + 2) (by show 5 * b + 2 < 1354; omega)
    (by show ((5 * b + 2 : Nat) : ℝ) / 5 = (2 + b * 5) / 5; push_cast; ring) 0 (by show 0 + 1 < 2; omega) (Or.inl rfl) (Or.inl rfl)
  rw [show 10 * c + a = c * grid5.k + a by show _ = c * 10 + a; ring, this]
  rw [show c * grid5.t + 0 = 2 * c by show c * 2 + 0 = _; ring, show c * grid5.t + (0 + 1) = 2 * c + 1 by show c * 2 + (0 + 1) = _; ring]
  congr 1
  have hl : ∀ x y : ℝ, lineThrough (grid5.p 0) x (grid5.p (0 + 1)) y (grid5.h a) = lineThrough 2 x 7 y a := by
    intro x y
    show lineThrough ((2 + ((0 : Nat) : ℝ) * 5) / 5) x ((2 + ((0 + 1 : Nat) : ℝ) * 5) / 5) y (a / 5) = _
    unfold lineThrough
    push_cast
    ring
  unfold chord
  rw [hl, hl, hl]

/-- **C52 (5 km to 1 km, tie points)**: the pixel of a tie point off the poles and the 180-degree meridian carries the tie
longitude and latitude. -/
theorem C52_modis5kmto1km_ties (S : SplLib (FP ℝ)) (hS1 : ∀ xs ys x, S 1 xs ys x = linSeg xs ys x) (hS3 : SplNum S)
    (hSi : Interpolating S 3) (s : Nat) (hs : 1 ≤ s) (lons lats : List (List ℝ)) (h1 : Shape (2 * s) 271 lons)
    (h2 : Shape (2 * s) 271 lats) :
    ∃ lo la, modis5kmto1km S (numMat lons) (numMat lats) = .ok (lo, la) ∧ ∀ i < 2 * s, ∀ b < 271,
      -180 < (lons.getD i []).getD b 0 → (lons.getD i []).getD b 0 < 180 →
      -90 < (lats.getD i []).getD b 0 → (lats.getD i []).getD b 0 < 90 →
      el (row lo (5 * i + 2)) (5 * b + 2) = val ((lons.getD i []).getD b 0) ∧
      el (row la (5 * i + 2)) (5 * b + 2) = val ((lats.getD i []).getD b 0) := by
  obtain ⟨lo, la, e, h⟩ := C52_modis5kmto1km S hS1 hS3 hSi s hs lons lats h1 h2
  refine ⟨lo, la, e, ?_⟩
  intro i hi b hb g1 g2 g3 g4
  have ht := geoOf_tie lons lats i b g1 g2 g3 g4
  rcases Nat.even_or_odd' i with ⟨c, rfl | rfl⟩
  · have := h c 2 b (by omega) (by omega) hb
    have e2 : chord 2 (tieXyz lons lats (2 * c) b) 7 (tieXyz lons lats (2 * c + 1) b) ((2 : Nat) : ℝ)
        = tieXyz lons lats (2 * c) b := by
      unfold chord
      push_cast
      simp only [lineThrough_left]
    rw [e2, ht, show 10 * c + 2 = 5 * (2 * c) + 2 by ring] at this
    exact ⟨congrArg (·.1) this, congrArg (·.2) this⟩
  · have := h c 7 b (by omega) (by omega) hb
    have e2 : chord 2 (tieXyz lons lats (2 * c) b) 7 (tieXyz lons lats (2 * c + 1) b) ((7 : Nat) : ℝ)
        = tieXyz lons lats (2 * c + 1) b := by
      unfold chord
      push_cast
      simp only [lineThrough_right (show (2 : ℝ) ≠ 7 by norm_num)]
    rw [e2, ht, show 10 * c + 7 = 5 * (2 * c + 1) + 2 by ring] at this
    exact ⟨congrArg (·.1) this, congrArg (·.2) this⟩

/-- **C52 (1 km to 500 m)**: fine column `2b` lies on tie column `b`; fine row `a` of scan `c` lies at `(a - 1/2) / 2` tie
rows and carries there the longitude and latitude of that point of the straight line through tie rows `j` and `j + 1` of
the scan, where `j` is the segment the row falls in (the first before it, the last after it). -/
theorem C52_modis1kmto500m (S : SplLib (FP ℝ)) (hS1 : ∀ xs ys x, S 1 xs ys x = linSeg xs ys x) (hS3 : SplNum S)
    (hSi : Interpolating S 3) (s : Nat) (hs : 1 ≤ s) (lons lats : List (List ℝ)) (h1 : Shape (10 * s) 1354 lons)
    (h2 : Shape (10 * s) 1354 lats) :
    ∃ lo la, modis1kmto500m S (numMat lons) (numMat lats) 1 [] = .ok (lo, la) ∧ ∀ c a b j : Nat, c < s → a < 20 → b < 1354 → j < 9 →
      (j = 0 ∨ 2 * j < a) → (j = 8 ∨ a ≤ 2 * j + 2) →
      (el (row lo (20 * c + a)) (2 * b), el (row la (20 * c + a)) (2 * b))
        = geoOf (chord j (tieXyz lons lats (10 * c + j) b) (j + 1) (tieXyz lons lats (10 * c + j + 1) b) ((a - 1 / 2) / 2)) := by
  rw [Nat.mul_comm 10 s] at h1 h2
  obtain ⟨lo, la, e, h⟩ := preset_column (isPreset500 S) hS1 hS3 hSi hs lons lats h1 h2
  refine ⟨lo, la, e, ?_⟩
  intro c a b j hc ha hb hj g1 g2
  have := h c hc a ha b hb (2 * b) (by show 2 * b < 2708; omega)
    (by show ((2 * b : Nat) : ℝ) / 2 = b; push_cast; ring) j (by show j + 1 < 10; omega)
    (by
      rcases g1 with g | g
      · exact Or.inl g
      · right
        have : ((2 * j + 1 : Nat) : ℝ) ≤ a := by exact_mod_cast g
        show (j : ℝ) ≤ (a - 1 / 2) / 2
        push_cast at this; linarith)
    (by
      rcases g2 with g | g
      · left; show j + 2 = 10; omega
      · right
        have : (a : ℝ) ≤ ((2 * j + 2 : Nat) : ℝ) := by exact_mod_cast g
        show ((a : ℝ) - 1 / 2) / 2 ≤ ((j + 1 : Nat) : ℝ)
        push_cast at this ⊢; linarith)
  rw [show 20 * c + a = c * grid500.k + a by show _ = c * 20 + a; ring, this]
  rw [show c * grid500.t + j = 10 * c + j by show c * 10 + j = _; ring,
    show c * grid500.t + (j + 1) = 10 * c + j + 1 by show c * 10 + (j + 1) = _; ring]
  show geoOf (chord (j : ℝ) _ ((j + 1 : Nat) : ℝ) _ (((a : ℝ) - 1 / 2) / 2)) = _
  push_cast
  rfl

/-- **C52 (1 km to 250 m)**: the same with fine column `4b` and fine row `a` at `(a - 3/2) / 4` tie rows. -/
theorem C52_modis1kmto250m (S : SplLib (FP ℝ)) (hS1 : ∀ xs ys x, S 1 xs ys x = linSeg xs ys x) (hS3 : SplNum S)
    (hSi : Interpolating S 3) (s : Nat) (hs : 1 ≤ s) (lons lats : List (List ℝ)) (h1 : Shape (10 * s) 1354 lons)
    (h2 : Shape (10 * s) 1354 lats) :
    ∃ lo la, modis1kmto250m S (numMat lons) (numMat lats) 1 [] = .ok (lo, la) ∧ ∀ c a b j : Nat, c < s → a < 40 → b < 1354 → j < 9 →
      (j = 0 ∨ 4 * j + 1 < a) → (j = 8 ∨ a ≤ 4 * j + 5) →
      (el (row lo (40 * c + a)) (4 * b), el (row la (40 * c + a)) (4 * b))
        = geoOf (chord j (tieXyz lons lats (10 * c + j) b) (j + 1) (tieXyz lons lats (10 * c + j + 1) b) ((a - 3 / 2) / 4)) := by
  rw [Nat.mul_comm 10 s] at h1 h2
  obtain ⟨lo, la, e, h⟩ := preset_column (isPreset250 S) hS1 hS3 hSi hs lons lats h1 h2
  refine ⟨lo, la, e, ?_⟩
  intro c a b j hc ha hb hj g1 g2
  have := h c hc a ha b hb (4 * b) (by show 4 * b < 5416; omega)
    (by show ((4 * b : Nat) : ℝ) / 4 = b; push_cast; ring) j (by show j + 1 < 10; omega)
    (by
      rcases g1 with g | g
      · exact Or.inl g
      · right
        have : ((4 * j + 2 : Nat) : ℝ) ≤ a := by exact_mod_cast g
        show (j : ℝ) ≤ (a - 3 / 2) / 4
        push_cast at this; linarith)
    (by
      rcases g2 with g | g
      · left; show j + 2 = 10; omega
      · right
        have : (a : ℝ) ≤ ((4 * j + 5 : Nat) : ℝ) := by exact_mod_cast g
        show ((a : ℝ) - 3 / 2) / 4 ≤ ((j + 1 : Nat) : ℝ)
        push_cast at this ⊢; linarith)
  rw [show 40 * c + a = c * grid250.k + a by show _ = c * 40 + a; ring, this]
  rw [show c * grid250.t + j = 10 * c + j by show c * 10 + j = _; ring,
    show c * grid250.t + (j + 1) = 10 * c + j + 1 by show c * 10 + (j + 1) = _; ring]
  show geoOf (chord (j : ℝ) _ ((j + 1 : Nat) : ℝ) _ (((a : ℝ) - 3 / 2) / 4)) = _
  push_cast
  rfl

theorem shape_grid (a b : Nat) (f : Nat → Nat → ℝ) :
    Shape a b ((List.range a).map (fun i => (List.range b).map (f i))) :=
  ⟨by simp, by intro r hr; obtain ⟨i, _, rfl⟩ := List.mem_map.mp hr; simp⟩

example := C52_modis5kmto1km (fun _ => linSeg) (fun _ _ _ => rfl) splNum_linSeg interpolating_linSeg_three 3 (by norm_num) _ _
  (shape_grid 6 271 (fun i j => (j : ℝ) / 10 + i)) (shape_grid 6 271 (fun i j => (i : ℝ) + j / 100))

/-- three scans of tie points that move with row and column -/
example := C52_modis5kmto1km_ties (fun _ => linSeg) (fun _ _ _ => rfl) splNum_linSeg interpolating_linSeg_three 3 (by norm_num) _ _
  (shape_grid 6 271 (fun i j => (j : ℝ) / 10 + i)) (shape_grid 6 271 (fun i j => (i : ℝ) + j / 100))

example := C52_modis1kmto500m (fun _ => linSeg) (fun _ _ _ => rfl) splNum_linSeg interpolating_linSeg_three 3 (by norm_num) _ _
  (shape_grid 30 1354 (fun i j => (j : ℝ) / 10 + i)) (shape_grid 30 1354 (fun i j => (i : ℝ) + j / 100))

example := C52_modis1kmto250m (fun _ => linSeg) (fun _ _ _ => rfl) splNum_linSeg interpolating_linSeg_three 3 (by norm_num) _ _
  (shape_grid 30 1354 (fun i j => (j : ℝ) / 10 + i)) (shape_grid 30 1354 (fun i j => (i : ℝ) + j / 100))

end Verif.Props
