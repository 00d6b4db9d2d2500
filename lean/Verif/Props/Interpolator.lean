import Verif.Proofs.InterpolatorComm

/-!
# C08–C12: border filling of the tie-point grid interpolator
-/

namespace Verif.Props
open Verif Verif.Interpolator Verif.Spec FP

/-! ## C08 -/

section C08
variable {K : Type} [Field K] [LinearOrder K] [IsStrictOrderedRing K]

/-- the formula is the straight line -/
theorem extrapolated_val {p0 p1 : K} (h : p0 ≠ p1) (d0 d1 x : K) :
    extrapolated (val p0) (val p1) (val d0) (val d1) (val x) = val (lineThrough p0 d0 p1 d1 x) := by
  have h' : p0 - p1 ≠ 0 := sub_ne_zero.mpr h
  have h'' : p1 - p0 ≠ 0 := sub_ne_zero.mpr (Ne.symm h)
  have h10 : ((10 : Nat) : K) / 10 ^ 1 * (p0 - p1) ≠ 0 := by
    simp [h']
  unfold extrapolated lineThrough
  simp only [lit_eq, val_sub, val_mul, val_div_of_ne _ h10, val_add]
  congr 1
  push_cast
  field_simp
  ring

omit [LinearOrder K] [IsStrictOrderedRing K] in
/-- the specification: `lineThrough` is the only affine function through the two points -/
theorem lineThrough_unique {p0 p1 : K} (h : p0 ≠ p1) (d0 d1 a b : K) (h0 : a + b * p0 = d0) (h1 : a + b * p1 = d1)
    (x : K) : lineThrough p0 d0 p1 d1 x = a + b * x := by
  have h'' : p1 - p0 ≠ 0 := sub_ne_zero.mpr (Ne.symm h)
  unfold lineThrough
  rw [← h0, ← h1]
  field_simp
  ring

example : lineThrough (2 : ℚ) 5 7 20 11 = -1 + 3 * 11 := lineThrough_unique (by norm_num) 5 20 (-1) 3 (by norm_num) (by norm_num) 11

/-- **C08**: for two distinct positions and two lines of data of any length, the extrapolation is, element by element,
the value at `x` of the straight line through the two points. -/
theorem C08_extrapolation_line {p0 p1 : K} (h : p0 ≠ p1) (d0 d1 : List K) (x : K) :
    linearExtrapolate [val p0, val p1] [d0.map val, d1.map val] (val x)
      = .ok (List.zipWith (fun a b => val (lineThrough p0 a p1 b x)) d0 d1) := by
  simp only [linearExtrapolate]
  rw [List.zipWith_map]
  congr 1
  have : (fun a b => extrap1 (val p0) (val p1) (val a) (val b) (val x))
      = fun a b => val (lineThrough p0 a p1 b x) := by
    funext a b; exact extrapolated_val h a b x
  rw [this]

example : linearExtrapolate [val (1 : K), val 2] [[0, 2, 4, 6, 8].map val, [1, 3, 5, 7, 9].map val] (val 5)
    = .ok (List.zipWith (fun a b => val (lineThrough 1 a 2 b 5)) [0, 2, 4, 6, 8] [1, 3, 5, 7, 9]) :=
  C08_extrapolation_line (by norm_num) _ _ _

omit [LinearOrder K] [IsStrictOrderedRing K] in
/-- the value through `(1, 0)` and `(2, 1)` at 5 -/
example : lineThrough (1 : K) 0 2 1 5 = 4 := by norm_num [lineThrough]

/-- **C08 (refusal)**: anything but two positions and two lines raises `ValueError`, and nothing else does. -/
theorem C08_refuses {α : Type} [Arith α] (pos : List α) (data : List (List α)) (x : α) :
    linearExtrapolate pos data x = .error .valueError ↔ ¬ (pos.length = 2 ∧ data.length = 2) := by
  unfold linearExtrapolate
  constructor
  · intro h
    split at h
    · cases h
    · rename_i hne
      rintro ⟨h1, h2⟩
      obtain ⟨p0, p1, rfl⟩ := List.length_eq_two.mp h1
      obtain ⟨d0, d1, rfl⟩ := List.length_eq_two.mp h2
      exact hne p0 p1 d0 d1 rfl rfl
  · intro h
    split
    · exact absurd ⟨rfl, rfl⟩ h
    · rfl

example : linearExtrapolate [val (1 : K), val 2, val 3] [[val 1], [val 2]] (val 0) = .error .valueError :=
  (C08_refuses _ _ _).mpr (by simp)

end C08

/-! ## C09 -/

section C09
variable {α : Type} [Arith α]

/-- **C09**: with at least two tie columns, `fill_borders("x")` succeeds.  A column is added before (after) exactly when
the first (last) tie column is not the first (last) fine column; its position is that fine column, its data are
extrapolated from the two nearest tie columns; the original positions and data are kept in order.  A second call changes
nothing (if the first and last fine positions are numbers, i.e. equal to themselves). -/
theorem C09_fill_cols (st : Interp α) (h2 : 2 ≤ st.colIdx.length) (h1 : 1 ≤ st.hcolIdx.length)
    (hdata : ∀ d ∈ st.tieData, ∀ r ∈ d, r.length = st.colIdx.length)
    (hn0 : Arith.eq (el st.hcolIdx 0) (el st.hcolIdx 0) = true)
    (hn1 : Arith.eq (elEnd st.hcolIdx 1) (elEnd st.hcolIdx 1) = true) :
    ∃ st', fillCols st = .ok st' ∧
      st'.colIdx = (if Arith.eq (el st.colIdx 0) (el st.hcolIdx 0) then [] else [el st.hcolIdx 0]) ++ st.colIdx
        ++ (if Arith.eq (elEnd st.colIdx 1) (elEnd st.hcolIdx 1) then [] else [elEnd st.hcolIdx 1]) ∧
      st'.tieData = st.tieData.map (fun d => d.map (fun r =>
        (if Arith.eq (el st.colIdx 0) (el st.hcolIdx 0) then []
          else [extrapolated (el st.colIdx 0) (el st.colIdx 1) (el r 0) (el r 1) (el st.hcolIdx 0)]) ++ r
        ++ (if Arith.eq (elEnd st.colIdx 1) (elEnd st.hcolIdx 1) then []
          else [extrapolated (elEnd st.colIdx 2) (elEnd st.colIdx 1) (elEnd r 2) (elEnd r 1) (elEnd st.hcolIdx 1)]))) ∧
      st'.rowIdx = st.rowIdx ∧ (∀ d ∈ st'.tieData, ∀ r ∈ d, r.length = st'.colIdx.length) ∧
      fillCols st' = .ok st' := by
  have hs : ColShape st := ⟨h2, h1, hdata⟩
  have hlen : ∀ d ∈ (colsFilled st).tieData, ∀ r ∈ d, r.length = (colsFilled st).colIdx.length := by
    intro d hd r hr
    obtain ⟨d0, hd0, rfl⟩ := List.mem_map.mp hd
    obtain ⟨r0, hr0, rfl⟩ := List.mem_map.mp hr
    have := hdata d0 hd0 r0 hr0
    show (withEdges _ _ _ _ r0).length = (withEdges _ _ _ _ st.colIdx).length
    simp only [withEdges, List.length_append, this]
    cases needFirst st <;> cases needLast st <;> rfl
  refine ⟨colsFilled st, fillCols_ok hs, ?_, ?_, rfl, hlen, ?_⟩
  · simp only [colsFilled, withEdges, needFirst, needLast]
    by_cases a : Arith.eq (el st.colIdx 0) (el st.hcolIdx 0) = true <;>
      by_cases b : Arith.eq (elEnd st.colIdx 1) (elEnd st.hcolIdx 1) = true <;> simp [a, b]
  · refine List.map_congr_left (fun d _ => List.map_congr_left (fun r _ => ?_))
    simp only [fillRow, withEdges, needFirst, needLast]
    by_cases a : Arith.eq (el st.colIdx 0) (el st.hcolIdx 0) = true <;>
      by_cases b : Arith.eq (elEnd st.colIdx 1) (elEnd st.hcolIdx 1) = true <;> simp [a, b]
  · have hs' : ColShape (colsFilled st) := by
      refine ⟨?_, h1, hlen⟩
      simp only [colsFilled, withEdges, List.length_append]; omega
    rw [fillCols_ok hs']
    have f0 : needFirst (colsFilled st) = false := by
      unfold needFirst
      simp only [colsFilled, withEdges]
      cases hf : needFirst st with
      | true => simp only [if_true, List.cons_append]; simp [el] at hn0 ⊢; exact hn0
      | false =>
        have : el (st.colIdx ++ if needLast st = true then [elEnd st.hcolIdx 1] else []) 0 = el st.colIdx 0 := by
          simp only [el, List.getD_eq_getElem?_getD]
          rw [List.getElem?_append_left (by omega)]
        simp only [Bool.false_eq_true, if_false, List.nil_append, this]
        exact hf
    have f1 : needLast (colsFilled st) = false := by
      unfold needLast
      simp only [colsFilled, withEdges]
      cases hl : needLast st with
      | true =>
        simp only [if_true]
        have : ∀ (l : List α) (x : α), elEnd (l ++ [x]) 1 = x := by
          intro l x; simp [elEnd]
        rw [this, hn1]; rfl
      | false =>
        have : ∀ (p : List α), elEnd (p ++ st.colIdx) 1 = elEnd st.colIdx 1 := by
          intro p
          simp only [elEnd, List.getD_eq_getElem?_getD, List.length_append]
          rw [List.getElem?_append_right (by omega)]
          congr 2; omega
        simp only [Bool.false_eq_true, if_false, List.append_nil, this]
        exact hl
    have : fillRow (colsFilled st) = id := by
      funext r
      simp [fillRow, withEdges, f0, f1]
    have hid : ∀ s : Interp α, needFirst s = false → needLast s = false → fillRow s = id → colsFilled s = s := by
      intro s a b c
      simp [colsFilled, a, b, c, withEdges]
    rw [hid _ f0 f1 this]

/-- two tie columns 2 and 7 in a fine grid 0..9 -/
example (a b c d : α) (hn : ∀ n : Int, Arith.eq (Arith.ofInt n : α) (Arith.ofInt n) = true) :=
  C09_fill_cols (⟨[0, 1], [2, 7], [0, 1], [0, 1, 2, 3, 4, 5, 6, 7, 8, 9], 0, [[[a, b], [c, d]]], 1, 1⟩ : Interp α)
    (by simp) (by simp) (by simp) (hn 0) (hn 9)

end C09

section C09num
variable {K : Type} [Field K] [LinearOrder K]

/-- **C09 (edges)**, with numbers as positions: afterwards the first and last column positions are the first and last
fine columns. -/
theorem C09_reaches_edges (st : Interp (FP K)) (h2 : 2 ≤ st.colIdx.length)
    (hdata : ∀ d ∈ st.tieData, ∀ r ∈ d, r.length = st.colIdx.length) (h0 h1 : K)
    (e0 : st.hcolIdx.head? = some (val h0)) (e1 : st.hcolIdx.getLast? = some (val h1)) :
    ∃ st', fillCols st = .ok st' ∧ st'.colIdx.head? = some (val h0) ∧ st'.colIdx.getLast? = some (val h1) := by
  have hne : 1 ≤ st.hcolIdx.length := by
    cases hh : st.hcolIdx with
    | nil => rw [hh] at e0; cases e0
    | cons a l => simp
  have g0 : el st.hcolIdx 0 = val h0 := by
    simp only [el, List.getD_eq_getElem?_getD, ← List.head?_eq_getElem?, e0]; rfl
  have g1 : elEnd st.hcolIdx 1 = val h1 := by
    simp only [elEnd, List.getD_eq_getElem?_getD, ← List.getLast?_eq_getElem?, e1]; rfl
  obtain ⟨st', e, hc, _⟩ := C09_fill_cols st h2 hne hdata (by rw [g0]; simp) (by rw [g1]; simp)
  refine ⟨st', e, ?_, ?_⟩
  · rw [hc, g0]
    split
    · rename_i heq
      match hcl : st.colIdx, h2 with
      | a :: b :: l, _ =>
        rw [hcl] at heq
        cases a with
        | bad => simp [el] at heq
        | val a => simp [el] at heq; simp [heq]
    · simp
  · rw [hc, g1]
    by_cases heq : Arith.eq (elEnd st.colIdx 1) (val h1) = true
    · rw [if_pos heq]
      have hcl : st.colIdx.getLast? = some (elEnd st.colIdx 1) := by
        rw [List.getLast?_eq_getElem?, elEnd, List.getD_eq_getElem?_getD,
          List.getElem?_eq_getElem (show st.colIdx.length - 1 < st.colIdx.length by omega)]
        rfl
      have hv : elEnd st.colIdx 1 = val h1 := by
        cases hx : elEnd st.colIdx 1 with
        | bad => rw [hx] at heq; simp at heq
        | val a => rw [hx] at heq; simp at heq; rw [heq]
      rw [List.append_nil, List.getLast?_append, hcl, hv]; rfl
    · rw [if_neg heq]; simp

example (a b c d : FP K) :=
  C09_reaches_edges (⟨[val 0, val 1], [val 2, val 7], [val 0, val 1], [val 0, val 4, val 9], 0,
    [[[a, b], [c, d]]], 1, 1⟩ : Interp (FP K)) (by simp) (by simp) 0 9 rfl rfl

end C09num

/-! ## C10 -/

section C10
variable {α : Type} [Arith α]

/-- the chunk size actually used: all fine rows if none is given -/
def effChunk (st : Interp α) : Nat := if st.chunk = 0 then st.hrowIdx.length else st.chunk

/-- the tie rows positioned in chunk `c`: `c*k/factor <= position < (c+1)*k/factor`, where `factor` is the number of fine
rows per tie row -/
def chunkTies (st : Interp α) (c : Nat) : List Nat :=
  tieRowsIn st.rowIdx
    (Arith.ofInt (c * effChunk st : Nat) / (Arith.ofInt st.hrowIdx.length / Arith.ofInt st.rowIdx.length))
    (Arith.ofInt (c * effChunk st + effChunk st : Nat)
      / (Arith.ofInt st.hrowIdx.length / Arith.ofInt st.rowIdx.length))

/-- **C10**: if the fine rows are `m ≥ 1` whole chunks and each chunk contains at least two tie rows, the row fill
succeeds; the result is, chunk by chunk in order, one row extrapolated to the chunk's first fine row, the chunk's tie rows
unchanged, and one row extrapolated to the chunk's last fine row, with matching positions. -/
theorem C10_fill_rows (st : Interp α) (m : Nat) (hm : 1 ≤ m) (hk : 1 ≤ effChunk st)
    (hl : st.hrowIdx.length = m * effChunk st) (hd : ∀ d ∈ st.tieData, d.length = st.rowIdx.length)
    (hs : ∀ c < m, 2 ≤ (chunkTies st c).length) :
    ∃ st', fillRows st = .ok st' ∧
      st'.rowIdx = (List.range m).flatMap (fun c =>
        [el st.hrowIdx (c * effChunk st)] ++ (chunkTies st c).map (el st.rowIdx)
          ++ [el st.hrowIdx ((c + 1) * effChunk st - 1)]) ∧
      st'.tieData = st.tieData.map (fun d => (List.range m).flatMap (fun c =>
        bracketed st.rowIdx d (chunkTies st c) (el st.hrowIdx (c * effChunk st))
          (el st.hrowIdx ((c + 1) * effChunk st - 1)))) ∧
      (∀ d ∈ st'.tieData, d.length = st'.rowIdx.length) ∧ st'.colIdx = st.colIdx := by
  have hr : st.rowIdx ≠ [] := by
    intro h
    have := hs 0 (by omega)
    simp [chunkTies, tieRowsIn, h] at this
  have hend : ∀ c, c * effChunk st + effChunk st - 1 = (c + 1) * effChunk st - 1 := by
    intro c; rw [Nat.add_mul, Nat.one_mul]
  refine ⟨rowsFilled st m, fillRows_ok hm hk hl hr (fun d h => (hd d h).ge) hs, ?_, ?_, ?_, rfl⟩
  · simp only [rowsFilled, List.flatMap, ← hend]; rfl
  · simp only [rowsFilled, List.flatMap, ← hend]; rfl
  · intro d hdm
    obtain ⟨d0, _, rfl⟩ := List.mem_map.mp hdm
    simp only [rowsFilled, List.length_flatten, List.map_map]
    congr 1
    apply List.map_congr_left
    intro c _
    simp [bracketed]

/-- **C10 (partial chunks)**: if the fine rows are not a whole number of chunks, the row fill raises, whatever the tie
rows and data. -/
theorem C10_partial_chunk_raises (st : Interp α) (hl : ¬ effChunk st ∣ st.hrowIdx.length) :
    ∃ e, fillRows st = .error e := fillRows_partial_chunk hl

example (d : List (Mat α)) :=
  C10_partial_chunk_raises (⟨[0, 1], [2, 7], [0, 1, 2, 3, 4], [0, 1], 2, d, 1, 1⟩ : Interp α)
    (by simp [effChunk])

end C10

/-- two chunks of five fine rows with tie rows 1, 3, 6 and 8 -/
example (r0 r1 r2 r3 : List (FP ℚ)) :=
  C10_fill_rows (⟨[val 0.4, val 1.2, val 2.4, val 3.2], [val 0, val 1], [val 0, val 0.4, val 0.8, val 1.2, val 1.6,
    val 2, val 2.4, val 2.8, val 3.2, val 3.6], [val 0, val 1], 5, [[r0, r1, r2, r3]], 1, 1⟩ : Interp (FP ℚ)) 2
    (by simp) (by simp [effChunk]) (by simp [effChunk]) (by simp) (by
      intro c hc
      have : c = 0 ∨ c = 1 := by omega
      rcases this with rfl | rfl
      · simp [chunkTies, tieRowsIn, effChunk, List.range_succ, el]; norm_num
      · simp [chunkTies, tieRowsIn, effChunk, List.range_succ, el]; norm_num)

/-! ## C11 -/

/-- **C11**: if the arguments contain anything but "x" and "y", `fill_borders` raises `NameError` and leaves the
interpolator unchanged. -/
theorem C11_unknown_dimension {α : Type} [Arith α] (args : List String) (st : Interp α)
    (h : ∃ a ∈ args, a ≠ "x" ∧ a ≠ "y") : fillBorders args st = (.error .nameError, st) := by
  have hm : args.mapM (fillCase (α := α)) = .error .nameError := by
    obtain ⟨a, ha, hx, hy⟩ := h
    induction args with
    | nil => cases ha
    | cons b l ih =>
      rw [List.mapM_cons]
      have hb : fillCase (α := α) b = .error .nameError ∨ ∃ f, fillCase (α := α) b = .ok f := by
        unfold fillCase
        split
        · exact Or.inr ⟨_, rfl⟩
        · split
          · exact Or.inr ⟨_, rfl⟩
          · exact Or.inl rfl
      rcases hb with hb | ⟨f, hb⟩
      · rw [hb]; rfl
      · rcases List.mem_cons.mp ha with h' | h'
        · subst h'
          unfold fillCase at hb
          rw [if_neg hy, if_neg hx] at hb
          cases hb
        · rw [hb, ih h']; rfl
  unfold fillBorders
  rw [hm]

example {α : Type} [Arith α] (st : Interp α) : fillBorders ["x", "y", "z"] st = (.error .nameError, st) :=
  C11_unknown_dimension _ st ⟨"z", by simp, by decide, by decide⟩

/-! ## C12 -/

section C12
variable {K : Type} [Field K] [LinearOrder K]

/-- extrapolating in one direction and then in the other gives the same corner value in both orders, for numbers and
non-numbers alike -/
theorem corner_commutes (p0 p1 x q0 q1 y a0 a1 b0 b1 : FP K) :
    extrapolated p0 p1 (extrapolated q0 q1 a0 a1 y) (extrapolated q0 q1 b0 b1 y) x
      = extrapolated q0 q1 (extrapolated p0 p1 a0 b0 x) (extrapolated p0 p1 a1 b1 x) y := by
  unfold extrapolated
  generalize (x - p1) / (Arith.lit 10 1 * (p0 - p1)) = t
  generalize (y - q1) / (Arith.lit 10 1 * (q0 - q1)) = u
  cases t <;> cases u <;> cases a0 <;> cases a1 <;> cases b0 <;> cases b1 <;>
    simp only [add_bad, bad_sub, sub_bad, bad_mul, mul_bad, val_add, val_sub, val_mul]
  congr 1; ring

theorem fillRow_commutes (st : Interp (FP K)) (h2 : 2 ≤ st.colIdx.length) :
    CommutesExtrap st.colIdx.length (fillRow st) := by
  intro p0 p1 x d0 d1 h0 h1
  have hel : ∀ (f : FP K → FP K → FP K) (i : Nat), i < st.colIdx.length →
      el (List.zipWith f d0 d1) i = f (el d0 i) (el d1 i) := by
    intro f i hi
    simp only [el, List.getD_eq_getElem?_getD, List.getElem?_zipWith,
      List.getElem?_eq_getElem (show i < d0.length by omega), List.getElem?_eq_getElem (show i < d1.length by omega)]
    rfl
  have helE : ∀ (f : FP K → FP K → FP K) (k : Nat), 1 ≤ k → k ≤ st.colIdx.length →
      elEnd (List.zipWith f d0 d1) k = f (elEnd d0 k) (elEnd d1 k) := by
    intro f k hk hk'
    have := hel f (st.colIdx.length - k) (by omega)
    simp only [el, elEnd, List.length_zipWith, h0, h1, Nat.min_self] at this ⊢
    exact this
  unfold fillRow
  rw [hel _ 0 (by omega), hel _ 1 (by omega), helE _ 2 (by omega) (by omega), helE _ 1 (by omega) (by omega)]
  have hz : ∀ (f : FP K → FP K → FP K) (b c : Bool) (a a' e e' : FP K),
      List.zipWith f (withEdges b c a e d0) (withEdges b c a' e' d1)
        = withEdges b c (f a a') (f e e') (List.zipWith f d0 d1) := by
    intro f b c a a' e e'
    have : ∀ (l l' : List (FP K)), List.zipWith f (d0 ++ l) (d1 ++ l') = List.zipWith f d0 d1 ++ List.zipWith f l l' :=
      fun l l' => List.zipWith_append (by omega)
    cases b <;> cases c <;> simp [withEdges, this]
  rw [hz]
  simp only [extrap1_eq]
  rw [corner_commutes p0 p1 x (el st.colIdx 0), corner_commutes p0 p1 x (elEnd st.colIdx 2)]

/-- **C12**: filling rows then columns, or columns then rows, gives the same result: the same state, or the same
exception. -/
theorem C12_fills_commute (st : Interp (FP K)) (h2 : 2 ≤ st.colIdx.length) (h1 : 1 ≤ st.hcolIdx.length)
    (hdata : ∀ d ∈ st.tieData, ∀ r ∈ d, r.length = st.colIdx.length) :
    (do let s ← fillRows st; fillCols s) = (do let s ← fillCols st; fillRows s) := by
  have hs : ColShape st := ⟨h2, h1, hdata⟩
  have hc : colsFilled st = mapRows (fillRow st) (colsFilled st).colIdx st := rfl
  rw [fillCols_ok hs]
  simp only [bind, Except.bind]
  rw [hc, fillRows_map (fillRow_commutes st h2) hdata]
  cases hr : fillRows st with
  | error e => rfl
  | ok st' =>
    simp only [Except.map]
    obtain ⟨r1, r2, r3, r4, r5, r6⟩ := fillRows_rest hr
    have hs' : ColShape st' := by
      refine ⟨by rw [r1]; exact h2, by rw [r3]; exact h1, ?_⟩
      rw [r1]; exact fillRows_rowLength hdata hr
    rw [fillCols_ok hs']
    have hf : needFirst st' = needFirst st := by simp only [needFirst, r1, r3]
    have hl : needLast st' = needLast st := by simp only [needLast, r1, r3]
    have hfr : fillRow st' = fillRow st := by
      funext r; simp only [fillRow, hf, hl, r1, r3]
    simp only [colsFilled, hf, hl, hfr, r1, r3]
    simp only [mapRows, r2, r3, r4, r5, r6]

example (a b c d : FP K) :=
  C12_fills_commute (⟨[val 0, val 1], [val 2, val 7], [val 0, val 1], [val 0, val 4, val 9], 0,
    [[[a, b], [c, d]]], 1, 1⟩ : Interp (FP K)) (by simp) (by simp) (by simp)

/-- **C12** for the public method: both orders have the same outcome, and when it is a success the same final state. -/
theorem C12_fill_borders (st : Interp (FP K)) (h2 : 2 ≤ st.colIdx.length) (h1 : 1 ≤ st.hcolIdx.length)
    (hdata : ∀ d ∈ st.tieData, ∀ r ∈ d, r.length = st.colIdx.length) :
    (fillBorders ["x", "y"] st).1 = (fillBorders ["y", "x"] st).1 ∧
      ((fillBorders ["x", "y"] st).1 = .ok () → fillBorders ["x", "y"] st = fillBorders ["y", "x"] st) := by
  have h := C12_fills_commute st h2 h1 hdata
  have hx : ["x", "y"].mapM (fillCase (α := FP K)) = .ok [fillCols, fillRows] := rfl
  have hy : ["y", "x"].mapM (fillCase (α := FP K)) = .ok [fillRows, fillCols] := rfl
  unfold fillBorders
  rw [hx, hy]
  simp only [runFills]
  simp only [bind, Except.bind] at h
  cases hc : fillCols st with
  | error e =>
    rw [fillCols_ok ⟨h2, h1, hdata⟩] at hc; cases hc
  | ok sc =>
    rw [hc] at h
    simp only at h ⊢
    cases hr : fillRows st with
    | error e =>
      rw [hr] at h
      simp only at h
      rw [← h]
      simp
    | ok sr =>
      rw [hr] at h
      simp only at h ⊢
      rw [h]
      cases fillRows sc with
      | error e => simp
      | ok s => simp

example (a b c d : FP K) :=
  C12_fill_borders (⟨[val 0, val 1], [val 2, val 7], [val 0, val 1], [val 0, val 4, val 9], 0,
    [[[a, b], [c, d]]], 1, 1⟩ : Interp (FP K)) (by simp) (by simp) (by simp)

end C12

end Verif.Props
