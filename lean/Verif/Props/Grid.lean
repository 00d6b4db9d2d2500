import Verif.Proofs.GridDask
import Mathlib.Algebra.Order.Ring.Rat

/-!
# C22, C23, C24 and C26: chunked interpolation
-/

set_option linter.unusedSectionVars false

namespace Verif.Props
open Verif Verif.Interpolator Verif.Grid

/-! ### C22 -/

/-- C22: the slices of a position have the sizes of its chunks and stay inside the array. -/
theorem C22_sizes (chunks : List (List Nat)) (p : List Nat) (ss : List (Nat × Nat))
    (h : (p, ss) ∈ enumerateChunkSlices chunks) :
    Spec.inShape p (chunks.map List.length) ∧
      List.Forall₂ (fun (s : Nat × Nat) (c : List Nat) => s.1 ≤ s.2 ∧ s.2 ≤ c.sum) ss chunks ∧
      ss.map (fun s => s.2 - s.1) = List.zipWith (fun i (c : List Nat) => c.getD i 0) p chunks := by
  simp only [enumerateChunkSlices, List.mem_map, Prod.mk.injEq] at h
  obtain ⟨p', hp, rfl, rfl⟩ := h
  rw [mem_ndindex] at hp
  refine ⟨hp, ?_, ?_⟩
  · induction chunks generalizing p' with
    | nil => cases hp; exact .nil
    | cons c cs ih =>
      cases hp with
      | @cons i _ q _ h1 h2 => exact .cons ⟨Nat.le_add_right _ _, offset_le c i⟩ (ih q h2)
  · rw [slicesAt, List.map_zipWith]
    congr 1
    funext i c
    simp

example : ∃ ss, ([1, 2], ss) ∈ enumerateChunkSlices [[2, 3], [4, 0, 1]] ∧ ss.map (fun s => s.2 - s.1) = [3, 1] :=
  ⟨[(2, 5), (4, 5)], by decide, (C22_sizes [[2, 3], [4, 0, 1]] [1, 2] [(2, 5), (4, 5)] (by decide)).2.2⟩

/-- C22: no position is enumerated twice, and all of them are. -/
theorem C22_positions (chunks : List (List Nat)) :
    ((enumerateChunkSlices chunks).map (·.1)).Nodup ∧
      ∀ p, p ∈ (enumerateChunkSlices chunks).map (·.1) ↔ Spec.inShape p (chunks.map List.length) := by
  have : (enumerateChunkSlices chunks).map (·.1) = ndindex (chunks.map List.length) := by
    simp [enumerateChunkSlices, Function.comp_def]
  rw [this]
  exact ⟨ndindex_nodup _, fun p => mem_ndindex _ p⟩

example : [1, 2] ∈ (enumerateChunkSlices [[2, 3], [4, 0, 1]]).map (·.1) ∧ [2, 0] ∉ (enumerateChunkSlices [[2, 3], [4, 0, 1]]).map (·.1) := by
  rw [(C22_positions _).2, (C22_positions _).2]
  exact ⟨.cons (by decide) (.cons (by decide) .nil), fun h => by cases h with | cons h _ => exact absurd h (by decide)⟩

/-- C22: every element of the array is in exactly one of the enumerated slices. -/
theorem C22_tiling (chunks : List (List Nat)) (e : List Nat) (h : Spec.inShape e (chunks.map List.sum)) :
    ∃! s, s ∈ enumerateChunkSlices chunks ∧ Spec.inSlices e s.2 := by
  have h' : List.Forall₂ (fun i (c : List Nat) => i < c.sum) e chunks := by
    rw [Spec.inShape, List.forall₂_map_right_iff] at h
    exact h
  obtain ⟨p, hp, hin, hu⟩ := unique_position chunks e h'
  refine ⟨(p, slicesAt p chunks), ⟨List.mem_map.2 ⟨p, hp, rfl⟩, hin⟩, ?_⟩
  rintro ⟨q, ss⟩ ⟨hq, hqin⟩
  simp only [enumerateChunkSlices, List.mem_map, Prod.mk.injEq] at hq
  obtain ⟨q', hq', rfl, rfl⟩ := hq
  rw [hu q' hq' hqin]

example : enumerateChunkSlices [[2, 3], [4, 0, 1]]
    = [([0, 0], [(0, 2), (0, 4)]), ([0, 1], [(0, 2), (4, 4)]), ([0, 2], [(0, 2), (4, 5)]),
       ([1, 0], [(2, 5), (0, 4)]), ([1, 1], [(2, 5), (4, 4)]), ([1, 2], [(2, 5), (4, 5)])] := by decide

example : Spec.inShape [3, 4] ([[2, 3], [4, 0, 1]].map List.sum) := .cons (by decide) (.cons (by decide) .nil)

/-! ### C23 -/

section C23
variable {κ α : Type} [Arith α]

/-- the fine points 0, 1, …, n - 1 -/
def upTo (n : Nat) : List α := (List.range n).map (fun (i : Nat) => Arith.ofInt (i : Int))

theorem points_upTo (n : Nat) : (points (0, n) : List α) = upTo n := by simp [points, upTo]

/-- What a chunked interpolation computes, for an interpolator whose acceptance test looks at the points one by one. -/
theorem chunked_value (tok : TokIn κ α → Nat) (i : Single κ α) (kw : κ) (q : Nat → Nat → Bool)
    (hq : ∀ a n b m, (i.sci kw).ok (points (a, a + n)) (points (b, b + m))
      = (List.range' a n).all (fun y => (List.range' b m).all (fun x => q y x)))
    (fy fx : List α) (rc cc : List Nat) :
    i.interpolate tok fy fx (some (rc, cc)) kw
      = if rc.sum = fy.length ∧ cc.sum = fx.length then
          i.interpolate tok (upTo fy.length) (upTo fx.length) none kw else .error .valueError := by
  unfold Single.interpolate
  simp only [interpolateDask]
  by_cases h : rc.sum = fy.length ∧ cc.sum = fx.length
  · rw [if_neg (not_not.2 h), if_pos h]
    show DaskArr.compute _ = _
    have := compute_blocks (i.sci kw) q hq (tok ⟨[rc, cc], i.py, i.px, i.values, fy, fx, kw⟩) rc cc
    rw [h.1, h.2, points_upTo, points_upTo] at this
    exact this
  · rw [if_pos h, if_neg h]
    rfl

/-- C23, grid interpolator, every arithmetic and method: whatever the fine points, a chunked interpolation gives the
unchunked values (or error) at the points 0, 1, 2, … of the same numbers. -/
theorem C23_grid_chunked (tok : TokIn κ α → Nat) (kernel : κ → List α → List α → Mat α → α → α → α) (be : Bool)
    (fill : Option α) (py px : List α) (v : Mat α) (i : Single κ α) (hi : singleGrid kernel be fill py px v = .ok i)
    (fy fx : List α) (rc cc : List Nat) (kw : κ) :
    i.interpolate tok fy fx (some (rc, cc)) kw
      = if rc.sum = fy.length ∧ cc.sum = fx.length then
          i.interpolate tok (upTo fy.length) (upTo fx.length) none kw else .error .valueError := by
  unfold singleGrid at hi
  cases hr : mkRgi linearKernel be fill py px v with
  | error e => rw [hr] at hi; cases hi
  | ok r =>
    rw [hr] at hi
    cases hi
    exact chunked_value tok _ kw _ (rgi_ok _) fy fx rc cc

/-- C23 for the grid interpolator, fine points 0 … n-1 and 0 … m-1: any chunking gives the unchunked result.  Missing:
other fine points, for which it is false (`C23_negation`). -/
theorem C23_grid_partial (tok : TokIn κ α → Nat) (kernel : κ → List α → List α → Mat α → α → α → α) (be : Bool)
    (fill : Option α) (py px : List α) (v : Mat α) (i : Single κ α) (hi : singleGrid kernel be fill py px v = .ok i)
    (rc cc : List Nat) (kw : κ) :
    i.interpolate tok (upTo rc.sum) (upTo cc.sum) (some (rc, cc)) kw
      = i.interpolate tok (upTo rc.sum) (upTo cc.sum) none kw := by
  rw [C23_grid_chunked tok kernel be fill py px v i hi]
  simp [upTo]

end C23

section C23spline
variable {K : Type} [Field K] [LinearOrder K] [IsStrictOrderedRing K]

/-- C23, spline interpolator: whatever the fine points, a chunked interpolation gives the unchunked values at the points
0, 1, 2, … of the same numbers. -/
theorem C23_spline_chunked (tok : TokIn Unit (FP K) → Nat) (S : SplLib (FP K)) (kx ky : Nat) (py px : List (FP K))
    (v : Mat (FP K)) (i : Single Unit (FP K)) (hi : singleSpline S kx ky py px v = .ok i)
    (fy fx : List (FP K)) (rc cc : List Nat) :
    i.interpolate tok fy fx (some (rc, cc)) ()
      = if rc.sum = fy.length ∧ cc.sum = fx.length then
          i.interpolate tok (upTo fy.length) (upTo fx.length) none () else .error .valueError := by
  unfold singleSpline at hi
  cases hr : mkSpline S kx ky py px v with
  | error e => rw [hr] at hi; cases hi
  | ok s =>
    rw [hr] at hi
    cases hi
    exact chunked_value tok _ () _ (spline_ok weakInc_points hr) fy fx rc cc

/-- C23 for the spline interpolator, fine points 0 … n-1 and 0 … m-1: any chunking gives the unchunked result.  Missing:
other fine points, for which it is false. -/
theorem C23_spline_partial (tok : TokIn Unit (FP K) → Nat) (S : SplLib (FP K)) (kx ky : Nat) (py px : List (FP K))
    (v : Mat (FP K)) (i : Single Unit (FP K)) (hi : singleSpline S kx ky py px v = .ok i) (rc cc : List Nat) :
    i.interpolate tok (upTo rc.sum) (upTo cc.sum) (some (rc, cc)) ()
      = i.interpolate tok (upTo rc.sum) (upTo cc.sum) none () := by
  rw [C23_spline_chunked tok S kx ky py px v i hi]
  simp [upTo]

end C23spline

/-! #### witnesses -/

/-- a number -/
abbrev num (x : ℚ) : FP ℚ := .val x

/-- the interpolator of the array [[0, 0], [1, 1]] at the positions 0, 1 with default options -/
def unitGrid (be : Bool) (fill : Option (FP ℚ)) : Single Unit (FP ℚ) :=
  ⟨[num 0, num 1], [num 0, num 1], [[num 0, num 0], [num 1, num 1]], fun _ =>
    (⟨[num 0, num 1], [num 0, num 1], [[num 0, num 0], [num 1, num 1]], be, fill, linearKernel⟩ : Rgi (FP ℚ)).scipy⟩

theorem unitGrid_made (be : Bool) (fill : Option (FP ℚ)) :
    singleGrid (fun _ => linearKernel) be fill [num 0, num 1] [num 0, num 1] [[num 0, num 0], [num 1, num 1]] = .ok (unitGrid be fill) := by
  simp [singleGrid, mkRgi, direction, strictInc, unitGrid, bind, Except.bind]

theorem unitGrid_half : interpolateNumpy ((unitGrid true none).sci ()) [num (1 / 2)] [num 0] = .ok [[num (1 / 2)]] := by
  simp [interpolateNumpy, unitGrid, Rgi.scipy, Rgi.point, inBounds, linearKernel, interval, elem]
  norm_num

theorem unitGrid_zero (tok : TokIn Unit (FP ℚ) → Nat) :
    (unitGrid true none).interpolate tok [num (1 / 2)] [num 0] (some ([1], [1])) () = .ok [[num 0]] := by
  rw [C23_grid_chunked tok _ _ _ _ _ _ _ (unitGrid_made true none)]
  simp [Single.interpolate, upTo, interpolateNumpy, unitGrid, Rgi.scipy, Rgi.point, inBounds, linearKernel, interval, elem]

/-- the hypotheses of the C23 claims for grid interpolators are met: chunks of other sizes than the fine points are refused, chunks of the
fine points `0, 1, 2` change nothing -/
example (tok : TokIn Unit (FP ℚ) → Nat) :
    (unitGrid true none).interpolate tok [num (1 / 2)] [num 0] (some ([1, 1], [1])) () = .error .valueError ∧
    (unitGrid false none).interpolate tok (upTo 3) (upTo 3) (some ([2, 1], [1, 2])) ()
      = (unitGrid false none).interpolate tok (upTo 3) (upTo 3) none () :=
  ⟨C23_grid_chunked tok _ _ _ _ _ _ _ (unitGrid_made true none) _ _ _ _ _, C23_grid_partial tok _ _ _ _ _ _ _ (unitGrid_made false none) [2, 1] [1, 2] ()⟩

/-- … and for spline interpolators -/
example (tok : TokIn Unit (FP ℚ) → Nat) : ∃ i, singleSpline (fun _ => linSeg (α := FP ℚ)) 1 1 [num 0, num 1] [num 0, num 1] [[num 0, num 0], [num 1, num 1]] = .ok i ∧
    i.interpolate tok [num (1 / 2)] [num 0] (some ([1, 1], [1])) () = .error .valueError ∧
    i.interpolate tok (upTo 3) (upTo 3) (some ([2, 1], [1, 2])) () = i.interpolate tok (upTo 3) (upTo 3) none () := by
  have h : ∃ i, singleSpline (fun _ => linSeg (α := FP ℚ)) 1 1 [num 0, num 1] [num 0, num 1] [[num 0, num 0], [num 1, num 1]] = .ok i := by
    simp [singleSpline, mkSpline, strictInc, bind, Except.bind]
  obtain ⟨i, hi⟩ := h
  exact ⟨i, hi, C23_spline_chunked tok _ _ _ _ _ _ _ hi _ _ _ _, C23_spline_partial tok _ _ _ _ _ _ _ hi [2, 1] [1, 2]⟩

/-- C23 is false for other fine points: at the point 1/2 the unchunked interpolation gives 1/2, the chunked one 0. -/
theorem C23_negation : ¬ ∀ (i : Single Unit (FP ℚ)) (be : Bool) (fill : Option (FP ℚ)) (py px : List (FP ℚ))
    (v : Mat (FP ℚ)) (tok : TokIn Unit (FP ℚ) → Nat) (fy fx : List (FP ℚ)) (rc cc : List Nat),
    singleGrid (fun _ => linearKernel) be fill py px v = .ok i → rc.sum = fy.length → cc.sum = fx.length →
    i.interpolate tok fy fx (some (rc, cc)) () = i.interpolate tok fy fx none () := by
  intro h
  have := h _ _ _ _ _ _ (fun _ => 0) [num (1 / 2)] [num 0] [1] [1] (unitGrid_made true none) rfl rfl
  rw [unitGrid_zero] at this
  have e : (unitGrid true none).interpolate (fun _ => 0) [num (1 / 2)] [num 0] none () = .ok [[num (1 / 2)]] := unitGrid_half
  rw [e] at this
  simp only [Except.ok.injEq, List.cons.injEq, and_true, FP.val.injEq] at this
  norm_num at this

/-! ### C24 -/

section C24
variable {κ α : Type} [Arith α]

theorem mapM_ok_get {β γ : Type} {f : β → Except Err γ} {l : List β} {r : List γ} (h : l.mapM f = .ok r) :
    List.Forall₂ (fun b c => f b = .ok c) l r := by
  induction l generalizing r with
  | nil => cases h; exact .nil
  | cons b l ih =>
    rw [List.mapM_cons] at h
    cases hb : f b with
    | error e => rw [hb] at h; cases h
    | ok c =>
      cases hl : l.mapM f with
      | error e => rw [hb, hl] at h; cases h
      | ok cs =>
        rw [hb, hl] at h
        cases h
        exact .cons hb (ih hl)

theorem forall2_mem_right {β γ : Type} {R : β → γ → Prop} {l : List β} {r : List γ} (h : List.Forall₂ R l r) {c : γ}
    (hc : c ∈ r) : ∃ b ∈ l, R b c := by
  induction h with
  | nil => simp at hc
  | @cons b c' l r h1 h2 ih =>
    rcases List.mem_cons.1 hc with rfl | hc
    · exact ⟨b, by simp, h1⟩
    · obtain ⟨b', hb', hr⟩ := ih hc
      exact ⟨b', by simp [hb'], hr⟩

/-- C24: one result per array, in order, each the one of the single interpolator of that array. -/
theorem C24_each (tok : TokIn κ α → Nat) (make : Mat α → Except Err (Single κ α)) (data : List (Mat α))
    (is : List (Single κ α)) (h : mkMultiple make data = .ok is) (fy fx : List α)
    (chunks : Option (List Nat × List Nat)) (kw : κ) :
    List.Forall₂ (fun d r => ∃ i, make d = .ok i ∧ r = i.interpolate tok fy fx chunks kw) data
      (interpolateMultiple tok is [fy, fx] chunks kw) := by
  rw [interpolateMultiple, List.forall₂_map_right_iff]
  exact (mapM_ok_get h).imp (fun d i hd => ⟨i, hd, rfl⟩)

/-- C24: `interpolate_to_shape` is `interpolate` at 0 … size-1 in each dimension. -/
theorem C24_shape (tok : TokIn κ α → Nat) (is : List (Single κ α)) (shape : List Nat)
    (chunks : Option (List Nat × List Nat)) (kw : κ) :
    interpolateToShape tok is shape chunks kw = interpolateMultiple tok is (shape.map upTo) chunks kw := by
  have : (fun size => points (0, size) : Nat → List α) = upTo := by funext n; exact points_upTo n
  rw [interpolateToShape, this]

/-- C24: `interpolate_to_shape` of a grid interpolator gives the same with chunks as without. -/
theorem C24_grid_chunks (tok : TokIn κ α → Nat) (kernel : κ → List α → List α → Mat α → α → α → α) (be : Bool)
    (fill : Option α) (py px : List α) (data : List (Mat α)) (is : List (Single κ α))
    (h : mkMultiple (singleGrid kernel be fill py px) data = .ok is) (rc cc : List Nat) (kw : κ) :
    interpolateToShape tok is [rc.sum, cc.sum] (some (rc, cc)) kw = interpolateToShape tok is [rc.sum, cc.sum] none kw := by
  rw [C24_shape, C24_shape]
  simp only [interpolateMultiple, List.map_cons, List.map_nil]
  apply List.map_congr_left
  intro i hi
  obtain ⟨d, _, hd⟩ := forall2_mem_right (mapM_ok_get h) hi
  exact C23_grid_partial tok kernel be fill py px d i hd rc cc kw

/-- C24: a shape that does not have two dimensions is an error for every array. -/
theorem C24_dims (tok : TokIn κ α → Nat) (is : List (Single κ α)) (shape : List Nat) (h : shape.length ≠ 2)
    (chunks : Option (List Nat × List Nat)) (kw : κ) :
    interpolateToShape tok is shape chunks kw = is.map (fun _ => .error .valueError) := by
  rw [C24_shape, interpolateMultiple]
  apply List.map_congr_left
  intro i _
  match shape, h with
  | [], _ => rfl
  | [_], _ => rfl
  | [_, _], h => exact absurd rfl h
  | _ :: _ :: _ :: _, _ => rfl

end C24

section C24spline
variable {K : Type} [Field K] [LinearOrder K] [IsStrictOrderedRing K]

/-- C24: `interpolate_to_shape` of a spline interpolator gives the same with chunks as without. -/
theorem C24_spline_chunks (tok : TokIn Unit (FP K) → Nat) (S : SplLib (FP K)) (kx ky : Nat) (py px : List (FP K))
    (data : List (Mat (FP K))) (is : List (Single Unit (FP K))) (h : mkMultiple (singleSpline S kx ky py px) data = .ok is)
    (rc cc : List Nat) :
    interpolateToShape tok is [rc.sum, cc.sum] (some (rc, cc)) () = interpolateToShape tok is [rc.sum, cc.sum] none () := by
  rw [C24_shape, C24_shape]
  simp only [interpolateMultiple, List.map_cons, List.map_nil]
  apply List.map_congr_left
  intro i hi
  obtain ⟨d, _, hd⟩ := forall2_mem_right (mapM_ok_get h) hi
  exact C23_spline_partial tok S kx ky py px d i hd rc cc

end C24spline

/-- two arrays, interpolated to three rows in chunks of two and one -/
example (tok : TokIn Unit (FP ℚ) → Nat) : ∃ is, mkMultiple (singleGrid (fun _ => linearKernel) false none [num 0, num 1]
      [num 0, num 1]) [[[num 0, num 0], [num 1, num 1]], [[num 0, num 0], [num 1, num 1]]] = .ok is ∧
    interpolateToShape tok is [3, 1] (some ([2, 1], [1])) () = [.ok [[num 0], [num 1], [num 2]], .ok [[num 0], [num 1], [num 2]]] := by
  refine ⟨[unitGrid false none, unitGrid false none], ?_, ?_⟩
  · simp [mkMultiple, unitGrid_made, bind, Except.bind, pure, Except.pure]
  · have h : mkMultiple (singleGrid (fun _ => linearKernel) false none [num 0, num 1]
      [num 0, num 1]) [[[num 0, num 0], [num 1, num 1]], [[num 0, num 0], [num 1, num 1]]] = .ok [unitGrid false none, unitGrid false none] := by
      simp [mkMultiple, unitGrid_made, bind, Except.bind, pure, Except.pure]
    have := C24_grid_chunks tok _ _ _ _ _ _ _ h [2, 1] [1] ()
    rw [show [2, 1].sum = 3 from rfl, show [1].sum = 1 from rfl] at this
    rw [this]
    simp [interpolateToShape, interpolateMultiple, points, List.range_succ, Single.interpolate, interpolateNumpy, unitGrid,
      Rgi.scipy, Rgi.point, linearKernel, interval, elem]

/-- the same two arrays: each result is the one of its own array, one size is refused -/
example (tok : TokIn Unit (FP ℚ) → Nat) : ∃ is, mkMultiple (singleGrid (fun _ => linearKernel) false none [num 0, num 1]
      [num 0, num 1]) [[[num 0, num 0], [num 1, num 1]], [[num 0, num 0], [num 1, num 1]]] = .ok is ∧
    List.Forall₂ (fun d r => ∃ i, singleGrid (fun _ => linearKernel) false none [num 0, num 1] [num 0, num 1] d = .ok i ∧
        r = i.interpolate tok (upTo 3) (upTo 1) none ()) [[[num 0, num 0], [num 1, num 1]], [[num 0, num 0], [num 1, num 1]]]
      (interpolateToShape tok is [3, 1] none ()) ∧
    interpolateToShape tok is [3] none () = [.error .valueError, .error .valueError] := by
  have h : mkMultiple (singleGrid (fun _ => linearKernel) false none [num 0, num 1]
      [num 0, num 1]) [[[num 0, num 0], [num 1, num 1]], [[num 0, num 0], [num 1, num 1]]] = .ok [unitGrid false none, unitGrid false none] := by
    simp [mkMultiple, unitGrid_made, bind, Except.bind, pure, Except.pure]
  refine ⟨_, h, ?_, C24_dims tok _ [3] (by simp) none ()⟩
  rw [C24_shape]
  exact C24_each tok _ _ _ h (upTo 3) (upTo 1) none ()

/-- two arrays interpolated by splines -/
example (tok : TokIn Unit (FP ℚ) → Nat) : ∃ is, mkMultiple (singleSpline (fun _ => linSeg (α := FP ℚ)) 1 1 [num 0, num 1] [num 0, num 1])
      [[[num 0, num 0], [num 1, num 1]], [[num 5, num 0], [num 1, num 1]]] = .ok is ∧
    interpolateToShape tok is [3, 3] (some ([2, 1], [1, 2])) () = interpolateToShape tok is [3, 3] none () := by
  have h : ∃ is, mkMultiple (singleSpline (fun _ => linSeg (α := FP ℚ)) 1 1 [num 0, num 1] [num 0, num 1])
      [[[num 0, num 0], [num 1, num 1]], [[num 5, num 0], [num 1, num 1]]] = .ok is := by
    simp [mkMultiple, singleSpline, mkSpline, strictInc, bind, Except.bind, pure, Except.pure]
  obtain ⟨is, hi⟩ := h
  exact ⟨is, hi, C24_spline_chunks tok _ _ _ _ _ _ _ hi [2, 1] [1, 2]⟩

/-! ### C26 -/

section C26
variable {κ α : Type} [Arith α]

/-- C26 for interpolators that have the same options whenever they have the same tie points and values, provided `tokenize`
tells the two inputs apart.  Missing: the same tie points and values with different options, for which it is false
(`C26_negation`). -/
theorem C26_partial (tok : TokIn κ α → Nat) (i j : Single κ α) (fy fx fy' fx' : List α) (rc cc rc' cc' : List Nat)
    (kw kw' : κ) (a b : DaskArr α)
    (hopt : i.py = j.py → i.px = j.px → i.values = j.values → i.sci = j.sci)
    (htok : tok ⟨[rc, cc], i.py, i.px, i.values, fy, fx, kw⟩ = tok ⟨[rc', cc'], j.py, j.px, j.values, fy', fx', kw'⟩ →
      (⟨[rc, cc], i.py, i.px, i.values, fy, fx, kw⟩ : TokIn κ α) = ⟨[rc', cc'], j.py, j.px, j.values, fy', fx', kw'⟩)
    (ha : interpolateDask tok i fy fx rc cc kw = .ok a) (hb : interpolateDask tok j fy' fx' rc' cc' kw' = .ok b) :
    computeBoth a b = (a.compute, b.compute) := by
  unfold interpolateDask at ha hb
  split at ha
  · cases ha
  split at hb
  · cases hb
  cases ha
  cases hb
  set na := tok ⟨[rc, cc], i.py, i.px, i.values, fy, fx, kw⟩ with hna
  set nb := tok ⟨[rc', cc'], j.py, j.px, j.values, fy', fx', kw'⟩ with hnb
  suffices H : computeBoth (DaskArr.mk (graphOf na (interpolateSlices (i.sci kw)) [rc, cc]) na rc cc)
      (DaskArr.mk (graphOf nb (interpolateSlices (j.sci kw')) [rc', cc']) nb rc' cc')
      = ((DaskArr.mk (graphOf na (interpolateSlices (i.sci kw)) [rc, cc]) na rc cc).compute,
        (DaskArr.mk (graphOf nb (interpolateSlices (j.sci kw')) [rc', cc']) nb rc' cc').compute) from H
  refine Prod.ext ?_ ?_
  · apply computeIn_congr
    intro p q hp hq
    simp only
    rw [lookup_own na _ _ _ (mem_two hp hq)]
    by_cases hn : na = nb
    · have := htok hn
      simp only [TokIn.mk.injEq, List.cons.injEq, and_true] at this
      obtain ⟨⟨rfl, rfl⟩, e1, e2, e3, rfl, rfl, rfl⟩ := this
      rw [hn, lookup_last _ nb _ _ _ (mem_two hp hq), hopt e1 e2 e3]
    · rw [lookup_skip _ _ _ _ _ _ hn, lookup_own na _ _ _ (mem_two hp hq)]
  · apply computeIn_congr
    intro p q hp hq
    simp only
    rw [lookup_own nb _ _ _ (mem_two hp hq), lookup_last _ nb _ _ _ (mem_two hp hq)]

end C26

/-- the chunked interpolation of `unitGrid` to the points 0, 1, 2 -/
def unitDask (tok : TokIn Unit (FP ℚ) → Nat) (be : Bool) (fill : Option (FP ℚ)) : DaskArr (FP ℚ) :=
  let name := tok ⟨[[3], [1]], [num 0, num 1], [num 0, num 1], [[num 0, num 0], [num 1, num 1]], upTo 3, upTo 1, ()⟩
  ⟨graphOf name (interpolateSlices ((unitGrid be fill).sci ())) [[3], [1]], name, [3], [1]⟩

theorem unitDask_made (tok : TokIn Unit (FP ℚ) → Nat) (be : Bool) (fill : Option (FP ℚ)) :
    interpolateDask tok (unitGrid be fill) (upTo 3) (upTo 1) [3] [1] () = .ok (unitDask tok be fill) := by
  rw [interpolateDask, if_neg (by simp [upTo])]
  rfl

theorem unitDask_extrapolated (tok : TokIn Unit (FP ℚ) → Nat) :
    (unitDask tok false none).compute = .ok [[num 0], [num 1], [num 2]] := by
  have := compute_blocks _ _ (rgi_ok (⟨[num 0, num 1], [num 0, num 1], [[num 0, num 0], [num 1, num 1]], false, none, linearKernel⟩ :
    Rgi (FP ℚ))) (unitDask tok false none).name [3] [1]
  refine this.trans ?_
  simp [interpolateNumpy, points, List.range_succ, Rgi.scipy, Rgi.point, linearKernel, interval, elem]

theorem unitDask_filled (tok : TokIn Unit (FP ℚ) → Nat) :
    (unitDask tok false (some (num 0))).compute = .ok [[num 0], [num 1], [num 0]] := by
  have := compute_blocks _ _ (rgi_ok (⟨[num 0, num 1], [num 0, num 1], [[num 0, num 0], [num 1, num 1]], false, some (num 0), linearKernel⟩ :
    Rgi (FP ℚ))) (unitDask tok false (some (num 0))).name [3] [1]
  refine this.trans ?_
  simp [interpolateNumpy, points, List.range_succ, Rgi.scipy, Rgi.point, linearKernel, interval, elem, Grid.outOfBounds]

/-- the first array computed together with the second one gets the values of the second one -/
theorem unitDask_both (tok : TokIn Unit (FP ℚ) → Nat) :
    (computeBoth (unitDask tok false none) (unitDask tok false (some (num 0)))).1 = .ok [[num 0], [num 1], [num 0]] := by
  rw [← unitDask_filled tok]
  unfold computeBoth DaskArr.compute
  have hr : (unitDask tok false (some (num 0))).computeIn (unitDask tok false (some (num 0))).graph
      = (unitDask tok false none).computeIn (unitDask tok false (some (num 0))).graph := rfl
  rw [hr]
  apply computeIn_congr
  intro p q hp hq
  exact (lookup_last _ (unitDask tok false none).name (interpolateSlices ((unitGrid false (some (num 0))).sci ()))
    [[3], [1]] [p, q] (mem_two hp hq)).trans (lookup_own (unitDask tok false none).name
    (interpolateSlices ((unitGrid false (some (num 0))).sci ())) [[3], [1]] [p, q] (mem_two hp hq)).symm

/-- C26 is false, whatever `tokenize` does: two grid interpolators of the same data, one extrapolating and one filling
with 0, have the same keys; the first gets the values of the second. -/
theorem C26_negation (tok : TokIn Unit (FP ℚ) → Nat) : ¬ ∀ (i j : Single Unit (FP ℚ)) (be be' : Bool)
    (fill fill' : Option (FP ℚ)) (py px : List (FP ℚ)) (v : Mat (FP ℚ)) (fy fx : List (FP ℚ)) (rc cc : List Nat)
    (a b : DaskArr (FP ℚ)),
    singleGrid (fun _ => linearKernel) be fill py px v = .ok i → singleGrid (fun _ => linearKernel) be' fill' py px v = .ok j →
    interpolateDask tok i fy fx rc cc () = .ok a → interpolateDask tok j fy fx rc cc () = .ok b →
    computeBoth a b = (a.compute, b.compute) := by
  intro h
  have := h _ _ _ _ _ _ _ _ _ _ _ _ _ _ _ (unitGrid_made false none) (unitGrid_made false (some (num 0)))
    (unitDask_made tok false none) (unitDask_made tok false (some (num 0)))
  have h1 := congrArg Prod.fst this
  rw [unitDask_both, unitDask_extrapolated] at h1
  simp at h1

/-- two interpolations of different chunkings, and a `tokenize` that tells them apart -/
example (be : Bool) (fill : Option (FP ℚ)) : ∃ (tok : TokIn Unit (FP ℚ) → Nat) (a b : DaskArr (FP ℚ)),
    interpolateDask tok (unitGrid be fill) (upTo 3) (upTo 1) [3] [1] () = .ok a ∧
    interpolateDask tok (unitGrid be fill) (upTo 3) (upTo 1) [2, 1] [1] () = .ok b ∧
    computeBoth a b = (a.compute, b.compute) := by
  have hb : ∃ b, interpolateDask (fun t => (t.chunks.map List.length).sum) (unitGrid be fill) (upTo 3) (upTo 1) [2, 1] [1] ()
      = .ok b := by
    rw [interpolateDask, if_neg (by simp [upTo])]
    exact ⟨_, rfl⟩
  obtain ⟨b, hb⟩ := hb
  refine ⟨fun t => (t.chunks.map List.length).sum, _, b, unitDask_made _ be fill, hb, ?_⟩
  exact C26_partial _ _ _ _ _ _ _ _ _ _ _ _ _ _ _ (fun _ _ _ => rfl) (fun h => by simp at h) (unitDask_made _ be fill) hb

end Verif.Props
