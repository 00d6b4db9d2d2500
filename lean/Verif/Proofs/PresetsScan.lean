import Verif.Proofs.Presets

/-!
# Interpolation of whole scans is local to each scan
-/

set_option linter.unusedSectionVars false

namespace Verif.Presets
open Verif Verif.Interpolator Verif.Spec Verif.Props FP

variable {K : Type} [Field K] [LinearOrder K] [IsStrictOrderedRing K] (G : ScanGrid K)

/-- the number, if it is one -/
def num : FP K → K
  | val a => a
  | bad => 0

theorem val_num {x : FP K} (h : IsNum x) : val (num x) = x := by
  obtain ⟨a, rfl⟩ := h; rfl

theorem map_val_num {l : List (FP K)} (h : ∀ x ∈ l, IsNum x) : (l.map num).map val = l := by
  rw [List.map_map]
  conv_rhs => rw [← List.map_id l]
  exact List.map_congr_left (fun x hx => val_num (h x hx))

/-! ### the first-order spline is local -/

theorem linSeg_drop_prefix (A B : List K) (ya yb : List (FP K)) (hA : ya.length = A.length) (hB : 2 ≤ B.length)
    (hyb : yb.length = B.length) (hs : (A ++ B).Pairwise (· < ·)) {b x : K} (hb : B.head? = some b) (hx : b ≤ x) :
    linSeg ((A ++ B).map val) (ya ++ yb) (val x) = linSeg (B.map val) yb (val x) := by
  induction A generalizing ya with
  | nil =>
    have : ya = [] := List.length_eq_zero_iff.mp hA
    subst this; rfl
  | cons a A ih =>
    match ya, hA with
    | y :: ya, hA =>
      have hp := List.pairwise_cons.mp (by simpa using hs : (a :: (A ++ B)).Pairwise (· < ·))
      rw [← ih ya (by simpa using hA) hp.2]
      have hrest : 2 ≤ (A ++ B).length := by rw [List.length_append]; omega
      have hyl : (ya ++ yb).length = (A ++ B).length := by
        rw [List.length_append, List.length_append, hyb]; simp at hA; omega
      have hhead : ∀ k1 l, A ++ B = k1 :: l → k1 ≤ x := by
        intro k1 l he
        have hbm : b ∈ A ++ B := List.mem_append_right _ (List.mem_of_head? hb)
        exact le_trans (head_le hp.2 (by rw [he]; rfl) hbm) hx
      match hAB : A ++ B, hyy : ya ++ yb, hrest, hyl with
      | k1 :: k2 :: l, y1 :: ys, _, _ =>
        have := linSeg_ge_head_step (k0 := a) (k1 := k1) (l := k2 :: l) (y0 := y) (y1 := y1) (ys := ys) (x := x) (by simp)
          (hhead k1 _ hAB)
        simp only [List.cons_append, List.map_cons, hAB, hyy] at this ⊢
        exact this

theorem linSeg_drop_suffix (B C yb yc : List K) (hB : 2 ≤ B.length) (hyb : yb.length = B.length)
    (hyc : yc.length = C.length) (hs : (B ++ C).Pairwise (· < ·)) {b x : K} (hb : B.getLast? = some b) (hx : x ≤ b) :
    linSeg ((B ++ C).map val) ((yb ++ yc).map val) (val x) = linSeg (B.map val) (yb.map val) (val x) := by
  induction B generalizing yb with
  | nil => simp at hB
  | cons b0 B ih =>
    match B, yb, hB, hyb, hs, hb, ih with
    | [b1], [y0, y1], _, _, hs, hb, _ =>
      simp only [List.getLast?_cons_cons, List.getLast?_singleton, Option.some.injEq] at hb
      subst hb
      cases C with
      | nil =>
        have : yc = [] := List.length_eq_zero_iff.mp hyc
        subst this; rfl
      | cons c C =>
        rcases lt_or_eq_of_le hx with h | h
        · simp [linSeg, h]
        · subst h
          have hlt : b0 < x := by
            have := (List.pairwise_cons.mp hs).1 x (by simp)
            exact this
          have hne : x - b0 ≠ 0 := sub_ne_zero.mpr (ne_of_gt hlt)
          have h1 := linSeg_ge_head_step (k0 := b0) (k1 := x) (l := c :: C) (y0 := val y0) (y1 := val y1)
            (ys := yc.map val) (x := x) (by simp) (le_refl _)
          have h2 := linSeg_node (x :: c :: C) (by simpa using (List.pairwise_cons.mp hs).2) (y1 :: yc)
            (by simpa using hyc) (by simp) 0 (by simp)
          have h3 := linSeg_node [b0, x] (by simpa using hlt) [y0, y1] rfl (by simp) 1 (by simp)
          simp only [List.map_cons, List.map_nil, List.getElem_cons_zero, List.getElem_cons_succ, List.cons_append,
            List.nil_append] at h1 h2 h3 ⊢
          rw [h1, h2, h3]
    | b1 :: b2 :: B, y0 :: y1 :: y2 :: yb, _, hyb, hs, hb, ih =>
      have hp := List.pairwise_cons.mp (by simpa using hs : (b0 :: (b1 :: b2 :: B ++ C)).Pairwise (· < ·))
      have := ih (y1 :: y2 :: yb) (by simp) (by simpa using hyb) hp.2 (by simpa using hb)
      by_cases h : x < b1
      · simp [linSeg, h]
      · have e1 := linSeg_ge_head_step (k0 := b0) (k1 := b1) (l := b2 :: (B ++ C)) (y0 := val y0) (y1 := val y1)
          (ys := val y2 :: (yb ++ yc).map val) (x := x) (by simp) (not_lt.mp h)
        have e2 := linSeg_ge_head_step (k0 := b0) (k1 := b1) (l := b2 :: B) (y0 := val y0) (y1 := val y1)
          (ys := val y2 :: yb.map val) (x := x) (by simp) (not_lt.mp h)
        simp only [List.cons_append, List.map_cons] at this e1 e2 ⊢
        rw [e1, e2]
        exact this

theorem linSeg_shift (d : K) (B : List K) (yb : List (FP K)) (hyb : yb.length = B.length) (hB : 2 ≤ B.length) (x : K) :
    linSeg ((B.map (d + ·)).map val) yb (val (d + x)) = linSeg (B.map val) yb (val x) := by
  induction B generalizing yb with
  | nil => simp at hB
  | cons b0 B ih =>
    match B, yb, hB, hyb, ih with
    | b1 :: B, y0 :: y1 :: yb, _, hyb, ih =>
      simp only [List.map_cons, linSeg]
      simp only [val_sub, add_sub_add_left_eq_sub, lt_val, add_lt_add_iff_left, List.isEmpty_map]
      cases B with
      | nil => simp
      | cons b2 B =>
        have := ih (y1 :: yb) (by simpa using hyb) (by simp)
        simp only [List.map_cons] at this
        simp only [List.map_cons, this]

/-- blocks of positions and values: inside a block only the block matters -/
theorem linSeg_blocks (pre post : List (List K × List K)) (b : List K × List K)
    (hlen : ∀ c ∈ pre ++ b :: post, c.2.length = c.1.length) (hb : 2 ≤ b.1.length)
    (hs : ((pre ++ b :: post).flatMap (·.1)).Pairwise (· < ·)) {u v x : K} (hu : b.1.head? = some u)
    (hv : b.1.getLast? = some v) (h1 : u ≤ x) (h2 : x ≤ v) :
    linSeg (((pre ++ b :: post).flatMap (·.1)).map val) (((pre ++ b :: post).flatMap (·.2)).map val) (val x)
      = linSeg (b.1.map val) (b.2.map val) (val x) := by
  have hl : ∀ l : List (List K × List K), (∀ c ∈ l, c.2.length = c.1.length) →
      (l.flatMap (·.2)).length = (l.flatMap (·.1)).length := by
    intro l hl
    rw [List.length_flatMap, List.length_flatMap]
    congr 1
    exact List.map_congr_left hl
  have hpre := hl pre (fun c hc => hlen c (List.mem_append_left _ hc))
  have hpost := hl post (fun c hc => hlen c (List.mem_append_right _ (List.mem_cons_of_mem _ hc)))
  have hbl := hlen b (by simp)
  rw [List.flatMap_append, List.flatMap_cons] at hs
  rw [List.flatMap_append, List.flatMap_cons, List.flatMap_append, List.flatMap_cons, List.map_append (f := val) (l₁ := pre.flatMap (·.2))]
  rw [linSeg_drop_prefix (pre.flatMap (·.1)) (b.1 ++ post.flatMap (·.1)) _ _ (by rw [List.length_map]; exact hpre)
    (by rw [List.length_append]; omega) (by simp only [List.length_map, List.length_append, hbl, hpost]) hs
    (b := u) (by rw [List.head?_append, hu]; rfl) h1]
  exact linSeg_drop_suffix _ _ _ _ hb hbl hpost (List.pairwise_append.mp hs).2.1 hv h2

/-! ### numbers stay numbers -/

/-- every entry is a number -/
def NumMat (m : Mat (FP K)) : Prop := ∀ r ∈ m, ∀ v ∈ r, IsNum v

theorem extrapolated_num {p0 p1 : K} (h : p0 ≠ p1) {d0 d1 : FP K} (h0 : IsNum d0) (h1 : IsNum d1) (x : K) :
    IsNum (extrapolated (val p0) (val p1) d0 d1 (val x)) := by
  obtain ⟨a, rfl⟩ := h0
  obtain ⟨b, rfl⟩ := h1
  rw [extrapolated_val h]
  exact isNum_val _

theorem mem_zipWith {β γ δ : Type} {f : β → γ → δ} {l : List β} {l' : List γ} {x : δ} (h : x ∈ List.zipWith f l l') :
    ∃ a ∈ l, ∃ b ∈ l', x = f a b := by
  rw [← List.map_uncurry_zip_eq_zipWith] at h
  obtain ⟨⟨a, b⟩, hab, rfl⟩ := List.mem_map.mp h
  exact ⟨a, (List.of_mem_zip hab).1, b, (List.of_mem_zip hab).2, rfl⟩

theorem el_num {r : List (FP K)} (hr : ∀ v ∈ r, IsNum v) {i : Nat} (hi : i < r.length) : IsNum (el r i) := by
  rw [el, getD_of_lt _ _ hi]
  exact hr _ (List.getElem_mem _)

theorem scanFill_num {m : Mat (FP K)} (hl : m.length = G.t) (hm : NumMat m) : NumMat (G.scanFill m) := by
  have ht := G.ht
  have hrow : ∀ j < G.t, ∀ v ∈ row m j, IsNum v := by
    intro j hj
    have : row m j = m[j]'(by omega) := by simp [row, hl, hj]
    rw [this]; exact hm _ (List.getElem_mem _)
  have hsel0 : ∀ j < G.t, (List.range G.t).getD j 0 = j := by
    intro j hj; simp [hj]
  intro r hr v hv
  unfold ScanGrid.scanFill bracketed at hr
  simp only [List.length_range, hsel0 0 (by omega), hsel0 1 (by omega), hsel0 (G.t - 2) (by omega),
    hsel0 (G.t - 1) (by omega), List.mem_append, List.mem_singleton, List.mem_map, List.mem_range,
    poss_el G.p (show 0 < G.t by omega), poss_el G.p (show 1 < G.t by omega),
    poss_el G.p (show G.t - 2 < G.t by omega), poss_el G.p (show G.t - 1 < G.t by omega)] at hr
  rcases hr with (rfl | ⟨j, hj, rfl⟩) | rfl
  · obtain ⟨a, ha, b, hb, rfl⟩ := mem_zipWith hv
    exact extrapolated_num (ne_of_lt (G.pmono (by omega))) (hrow 0 (by omega) a ha) (hrow 1 (by omega) b hb) _
  · exact hrow j hj v hv
  · obtain ⟨a, ha, b, hb, rfl⟩ := mem_zipWith hv
    exact extrapolated_num (ne_of_lt (G.pmono (by omega))) (hrow (G.t - 2) (by omega) a ha)
      (hrow (G.t - 1) (by omega) b hb) _

theorem withEdges_mem {β : Type} {f l : Bool} {a b v : β} {r : List β} (h : v ∈ withEdges f l a b r) :
    v = a ∨ v = b ∨ v ∈ r := by
  unfold withEdges at h
  cases f <;> cases l <;> simp at h <;> tauto

theorem colFill_num {r : List (FP K)} (hl : r.length = G.n) (hr : ∀ v ∈ r, IsNum v) : ∀ v ∈ G.colFill r, IsNum v := by
  have hn := G.hn
  have hN := G.hN
  have hE : ∀ (f : Nat → K) n k, 1 ≤ k → k ≤ n → elEnd ((poss f n).map (val : K → FP K)) k = val (f (n - k)) := by
    intro f n k h1 h2
    have := poss_el f (show n - k < n by omega)
    simpa [el, elEnd, poss_length] using this
  intro v hv
  rcases withEdges_mem hv with rfl | rfl | h
  · show IsNum (extrapolated (el ((poss G.q G.n).map val) 0) (el ((poss G.q G.n).map val) 1) (el r 0) (el r 1)
      (el ((poss G.g G.N).map val) 0))
    rw [poss_el G.q (by omega), poss_el G.q (by omega), poss_el G.g (by omega)]
    exact extrapolated_num (ne_of_lt (G.hqm _ _ (by omega))) (el_num hr (by omega)) (el_num hr (by omega)) _
  · show IsNum (extrapolated (elEnd ((poss G.q G.n).map val) 2) (elEnd ((poss G.q G.n).map val) 1) (elEnd r 2) (elEnd r 1)
      (elEnd ((poss G.g G.N).map val) 1))
    rw [hE _ _ _ (by omega) (by omega), hE _ _ _ (by omega) (by omega), hE _ _ _ (by omega) (by omega)]
    exact extrapolated_num (ne_of_lt (G.hqm _ _ (by omega))) (el_num hr (by omega)) (el_num hr (by omega)) _
  · exact hr v h

/-! ### whole scans -/

theorem range_mul (s k : Nat) : List.range (s * k) = (List.range s).flatMap (fun c => (List.range k).map (fun a => c * k + a)) := by
  induction s with
  | zero => simp
  | succ s ih =>
    rw [Nat.add_mul, Nat.one_mul, List.range_add, ih, List.range_succ, List.flatMap_append]
    simp

/-- the fine rows of one scan -/
def ScanGrid.scanOut (S : SplLib (FP K)) (m : Mat (FP K)) : Mat (FP K) :=
  (poss G.h G.k).map (fun x => (poss G.g G.N).map (fun y =>
    linSeg (G.block.map val) (((G.scanFill m).map G.colFill).map
      (fun r => S 3 (G.cols.map val) r (clamp (G.cols.map val) (val y)))) (val x)))

/-- the cubic spline of numbers is a number -/
def SplNum (S : SplLib (FP K)) : Prop :=
  ∀ ks ys : List K, ks.Pairwise (· < ·) → ys.length = ks.length → 3 < ks.length → ∀ x : K,
    IsNum (S 3 (ks.map val) (ys.map val) (val x))

theorem clamp_num {ks : List K} (y : K) : ∃ z : K, clamp (ks.map val) (val y) = val z := by
  unfold clamp
  rw [List.head?_map, List.getLast?_map]
  cases ks.head? <;> cases ks.getLast? <;> simp only [Option.map_none, Option.map_some]
  · exact ⟨_, rfl⟩
  · exact ⟨_, rfl⟩
  · exact ⟨_, rfl⟩
  · split
    · exact ⟨_, rfl⟩
    · split <;> exact ⟨_, rfl⟩

theorem rectVal_scans (S : SplLib (FP K)) (hS1 : ∀ xs ys x, S 1 xs ys x = linSeg xs ys x) (hS3 : SplNum S)
    {s : Nat} (Ds : List (List (Mat (FP K)))) (scs : List (Mat (FP K))) (hlen : scs.length = s)
    (hrows : ∀ m ∈ scs, m.length = G.t) (hcols : ∀ m ∈ scs, ∀ r ∈ m, r.length = G.n) (hnum : ∀ m ∈ scs, NumMat m) :
    rectVal S (G.filled s Ds) (scs.flatMap (fun m => (G.scanFill m).map G.colFill)) = scs.flatMap (G.scanOut S) := by
  have hk := G.hk
  have ht := G.ht
  have hn := G.hn
  have hcl := cols_length G
  -- values of the scans along one fine column
  let vals (y : K) (m : Mat (FP K)) : List (FP K) := ((G.scanFill m).map G.colFill).map
      (fun r => S 3 (G.cols.map val) r (clamp (G.cols.map val) (val y)))
  have hvl : ∀ y m, (vals y m).length = G.t + 2 := by
    intro y m; simp [vals, ScanGrid.scanFill, bracketed]
  have hvn : ∀ y, ∀ m ∈ scs, ∀ v ∈ vals y m, IsNum v := by
    intro y m hm v hv
    obtain ⟨r, hr, rfl⟩ := List.mem_map.mp hv
    obtain ⟨r', hr', rfl⟩ := List.mem_map.mp hr
    have hw := scanFill_width G (hcols m hm) (hrows m hm) r' hr'
    have hnr := colFill_num G hw (scanFill_num G (hrows m hm) (hnum m hm) r' hr')
    obtain ⟨z, hz⟩ := clamp_num (ks := G.cols) y
    rw [hz, ← map_val_num hnr]
    exact hS3 _ _ (cols_sorted G) (by rw [List.length_map, colFill_width G hw]) (by omega) _
  let blk (y : K) (c : Nat) : List K × List K :=
    (G.block.map (((c * G.t : Nat) : K) + ·), (vals y (scs.getD c [])).map num)
  have hmem : ∀ c < s, scs.getD c [] ∈ scs := by
    intro c hc
    rw [getD_of_lt _ _ (by omega)]; exact List.getElem_mem _
  have hpos : ∀ y, ((List.range s).map (blk y)).flatMap (·.1) = G.rows s := by
    intro y; rw [List.flatMap_map]; rfl
  have hval : ∀ y, (((List.range s).map (blk y)).flatMap (·.2)).map val = scs.flatMap (vals y) := by
    intro y
    rw [List.flatMap_map, List.map_flatMap]
    conv_rhs => rw [← range_map_getD scs []]
    rw [List.flatMap_map, hlen]
    refine List.flatMap_congr (fun c hc => ?_)
    exact map_val_num (hvn y _ (hmem c (List.mem_range.mp hc)))
  have hout : scs.flatMap (G.scanOut S) = (List.range s).flatMap (fun c => G.scanOut S (scs.getD c [])) := by
    conv_lhs => rw [← range_map_getD scs []]
    rw [List.flatMap_map, hlen]
  rw [hout]
  unfold rectVal
  show ((poss G.h (s * G.k)).map val).map _ = _
  rw [poss, range_mul, List.map_flatMap, List.map_flatMap, List.map_flatMap]
  refine List.flatMap_congr (fun c hc => ?_)
  have hc' := List.mem_range.mp hc
  rw [List.map_map, List.map_map, List.map_map, ScanGrid.scanOut, show poss G.h G.k = (List.range G.k).map G.h from rfl,
    List.map_map (l := List.range G.k)]
  refine List.map_congr_left (fun a ha => ?_)
  have ha' := List.mem_range.mp ha
  simp only [Function.comp]
  show ((poss G.g G.N).map val).map _ = _
  rw [List.map_map]
  refine List.map_congr_left (fun y _ => ?_)
  simp only [Function.comp]
  show S 1 ((G.rows s).map val) ((scs.flatMap (fun m => (G.scanFill m).map G.colFill)).map
      (fun r => S 3 (G.cols.map val) r (clamp (G.cols.map val) (val y)))) (clamp ((G.rows s).map val) (val (G.h (c * G.k + a))))
    = linSeg (G.block.map val) (vals y (scs.getD c [])) (val (G.h a))
  rw [List.map_flatMap]
  rw [hS1]
  have hx0 : G.h 0 ≤ G.h a := by
    rcases Nat.eq_zero_or_pos a with rfl | h
    · exact le_refl _
    · exact (G.hhm _ _ h).le
  have hx1 : G.h a ≤ G.h (G.k - 1) := by
    rcases Nat.lt_or_ge a (G.k - 1) with h | h
    · exact (G.hhm _ _ h).le
    · have : a = G.k - 1 := by omega
      rw [this]
  have hbh : G.block.head? = some (G.h 0) := rfl
  have hbl : G.block.getLast? = some (G.h (G.k - 1)) := by
    unfold ScanGrid.block
    rw [List.getLast?_append]
    rfl
  have hb0 : (blk y c).1.head? = some ((c * G.t : Nat) + G.h 0) := by
    show (G.block.map _).head? = _
    rw [List.head?_map, hbh]; rfl
  have hb1 : (blk y c).1.getLast? = some ((c * G.t : Nat) + G.h (G.k - 1)) := by
    show (G.block.map _).getLast? = _
    rw [List.getLast?_map, hbl]; rfl
  have hin : ∀ z ∈ (blk y c).1, z ∈ G.rows s := by
    intro z hz
    exact List.mem_flatMap.mpr ⟨c, hc, hz⟩
  have hrs := rows_sorted G s
  rw [G.hhs]
  have hne : G.rows s ≠ [] := by
    intro h
    have := hin _ (List.mem_of_head? hb0)
    rw [h] at this; simp at this
  have hcl : clamp ((G.rows s).map val) (val (((c * G.t : Nat) : K) + G.h a)) = val (((c * G.t : Nat) : K) + G.h a) := by
    obtain ⟨u, hu⟩ : ∃ u, (G.rows s).head? = some u := ⟨_, List.head?_eq_some_head hne⟩
    obtain ⟨v, hv⟩ : ∃ v, (G.rows s).getLast? = some v := ⟨_, List.getLast?_eq_some_getLast hne⟩
    refine clamp_inside hu hv ?_ ?_
    · have := head_le hrs hu (hin _ (List.mem_of_head? hb0))
      linarith
    · have := le_last hrs hv (hin _ (List.mem_of_getLast? hb1))
      linarith
  rw [hcl]
  have hsplit : (List.range s).map (blk y) = (List.range c).map (blk y) ++ blk y c ::
      (List.range (s - (c + 1))).map (fun i => blk y (c + 1 + i)) := by
    obtain ⟨r, rfl⟩ : ∃ r, s = c + 1 + r := ⟨s - (c + 1), by omega⟩
    rw [Nat.add_sub_cancel_left, List.range_add, List.range_succ, List.map_append, List.map_append, List.map_map]
    simp [Function.comp_def]
  have hbb := block_length G
  have key := linSeg_blocks _ _ (blk y c) (by
      rw [← hsplit]
      intro b hb
      obtain ⟨i, _, rfl⟩ := List.mem_map.mp hb
      simp [blk, hvl, hbb]) (by simp [blk, hbb]) (by rw [← hsplit, hpos]; exact hrs) hb0 hb1
      (x := ((c * G.t : Nat) : K) + G.h a) (by linarith) (by linarith)
  rw [← hsplit, hpos, hval] at key
  show linSeg ((G.rows s).map val) (scs.flatMap (vals y)) _ = _
  rw [key]
  show linSeg ((G.block.map (((c * G.t : Nat) : K) + ·)).map val) (((vals y (scs.getD c [])).map num).map val) _ = _
  rw [map_val_num (hvn y _ (hmem c hc'))]
  exact linSeg_shift _ _ _ (by rw [hvl, hbb]) (by rw [hbb]; omega) _

end Verif.Presets
