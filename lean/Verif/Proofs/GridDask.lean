import Verif.Proofs.Grid
import Mathlib.Algebra.Order.Field.Basic

/-!
# Assembling the blocks of `interpolate_dask`
-/

set_option linter.unusedSectionVars false

namespace Verif.Grid
open Verif Verif.Interpolator

/-! ### lists -/

/-- a comprehension whose only possible exception is `e` -/
theorem mapM_ite {β γ : Type} (c : β → Bool) (v : β → γ) (e : Err) (l : List β) :
    l.mapM (fun b => if c b then (.ok (v b) : Except Err γ) else .error e)
      = if l.all c then .ok (l.map v) else .error e := by
  induction l with
  | nil => rfl
  | cons b l ih =>
    rw [List.mapM_cons, ih]
    by_cases hb : c b = true
    · by_cases hl : l.all c = true
      · simp [hb, hl, bind, Except.bind, pure, Except.pure]
      · simp only [Bool.not_eq_true] at hl
        simp [hb, hl, bind, Except.bind]
    · simp only [Bool.not_eq_true] at hb
      simp [hb, bind, Except.bind]

/-- the chunks of one dimension, one after the other -/
theorem flatten_chunks (c : List Nat) (s : Nat) :
    ((List.range c.length).map (fun j => List.range' (s + (c.take j).sum) (c.getD j 0))).flatten
      = List.range' s c.sum := by
  induction c generalizing s with
  | nil => simp
  | cons a c ih =>
    rw [List.length_cons, List.range_succ_eq_map, List.map_cons, List.map_map, List.flatten_cons]
    have : ((fun j => List.range' (s + ((a :: c).take j).sum) ((a :: c).getD j 0)) ∘ Nat.succ)
        = fun j => List.range' (s + a + (c.take j).sum) (c.getD j 0) := by
      funext j
      simp only [Function.comp, Nat.succ_eq_add_one, List.take_succ_cons, List.sum_cons, List.getD_cons_succ, Nat.add_assoc]
    rw [this, ih (s + a)]
    simp only [List.take_zero, List.sum_nil, Nat.add_zero, List.getD_cons_zero, List.sum_cons]
    rw [← List.range'_append_1]

theorem hcat_map {β γ δ : Type} (ys : List γ) (f : β → γ → List δ) (bs : List β) :
    (bs.map (fun b => ys.map (f b))).foldr (List.zipWith (· ++ ·)) (List.replicate ys.length [])
      = ys.map (fun y => (bs.map (fun b => f b y)).flatten) := by
  induction bs with
  | nil => simp [List.map_const']
  | cons b bs ih =>
    rw [List.map_cons, List.foldr_cons, ih, List.zipWith_map_left, List.zipWith_map_right, List.zipWith_self]
    simp

variable {α : Type} [Arith α]

theorem points_eq (a n : Nat) : (points (a, a + n) : List α) = (List.range' a n).map (fun (i : Nat) => Arith.ofInt (i : Int)) := by
  rw [List.range'_eq_map_range]
  simp [points, Function.comp_def]

theorem length_points (s : Nat × Nat) : (points s : List α).length = s.2 - s.1 := by simp [points]

/-! ### graphs -/

/-- the graph of one array -/
def graphOf (name : Nat) (F : List (Nat × Nat) → Except Err (Mat α)) (chunks : List (List Nat)) : Graph α :=
  (enumerateChunkSlices chunks).map (fun p => ((name, p.1), F p.2))

theorem find_own (name : Nat) (F : List (Nat × Nat) → Except Err (Mat α)) (chunks : List (List Nat)) (p : List Nat)
    (hp : p ∈ ndindex (chunks.map List.length)) :
    (graphOf name F chunks).reverse.find? (fun q => q.1 == (name, p)) = some ((name, p), F (slicesAt p chunks)) := by
  cases h : (graphOf name F chunks).reverse.find? (fun q => q.1 == (name, p)) with
  | none =>
    rw [List.find?_eq_none] at h
    refine absurd ?_ (h ((name, p), F (slicesAt p chunks)) ?_)
    · simp
    · simp only [graphOf, enumerateChunkSlices, List.map_map, List.mem_reverse, List.mem_map]
      exact ⟨p, hp, rfl⟩
  | some q =>
    have h1 := List.find?_some h
    have h2 := List.mem_of_find?_eq_some h
    simp only [graphOf, enumerateChunkSlices, List.map_map, List.mem_reverse, List.mem_map, Function.comp] at h2
    obtain ⟨r, _, rfl⟩ := h2
    simp only [beq_iff_eq, Prod.mk.injEq, true_and] at h1
    rw [h1]

theorem find_other (name name' : Nat) (F : List (Nat × Nat) → Except Err (Mat α)) (chunks : List (List Nat)) (p : List Nat)
    (hn : name ≠ name') : (graphOf name' F chunks).reverse.find? (fun q => q.1 == (name, p)) = none := by
  rw [List.find?_eq_none]
  intro q hq
  simp only [graphOf, enumerateChunkSlices, List.map_map, List.mem_reverse, List.mem_map, Function.comp] at hq
  obtain ⟨r, _, rfl⟩ := hq
  simp [hn.symm]

theorem lookup_own (name : Nat) (F : List (Nat × Nat) → Except Err (Mat α)) (chunks : List (List Nat)) (p : List Nat)
    (hp : p ∈ ndindex (chunks.map List.length)) :
    lookup (graphOf name F chunks) (name, p) = F (slicesAt p chunks) := by
  rw [lookup, find_own name F chunks p hp]

theorem lookup_last (g : Graph α) (name : Nat) (F : List (Nat × Nat) → Except Err (Mat α)) (chunks : List (List Nat))
    (p : List Nat) (hp : p ∈ ndindex (chunks.map List.length)) :
    lookup (g ++ graphOf name F chunks) (name, p) = F (slicesAt p chunks) := by
  rw [lookup, List.reverse_append, List.find?_append, find_own name F chunks p hp]
  rfl

theorem lookup_skip (g : Graph α) (name name' : Nat) (F : List (Nat × Nat) → Except Err (Mat α))
    (chunks : List (List Nat)) (p : List Nat) (hn : name ≠ name') :
    lookup (g ++ graphOf name' F chunks) (name, p) = lookup g (name, p) := by
  rw [lookup, List.reverse_append, List.find?_append, find_other name name' F chunks p hn]
  rfl

theorem mem_two {rc cc : List Nat} {i j : Nat} (hi : i < rc.length) (hj : j < cc.length) :
    [i, j] ∈ ndindex ([rc, cc].map List.length) := by
  rw [mem_ndindex]
  exact .cons hi (.cons hj .nil)

/-- an array computed in a graph in which its keys have their own tasks -/
theorem computeIn_congr (a : DaskArr α) (g g' : Graph α)
    (h : ∀ i j, i < a.rc.length → j < a.cc.length → lookup g (a.name, [i, j]) = lookup g' (a.name, [i, j])) :
    a.computeIn g = a.computeIn g' := by
  have hm : ∀ {β γ : Type} (l : List β) (f f' : β → Except Err γ), (∀ b ∈ l, f b = f' b) → l.mapM f = l.mapM f' := by
    intro β γ l f f' hf
    induction l with
    | nil => rfl
    | cons b l ih =>
      rw [List.mapM_cons, List.mapM_cons, hf b (by simp), ih (fun x hx => hf x (by simp [hx]))]
  unfold DaskArr.computeIn
  have : (List.range a.rc.length).mapM (fun i => do
        let bs ← (List.range a.cc.length).mapM (fun j => lookup g (a.name, [i, j]))
        .ok (hcat (a.rc.getD i 0) bs) : Nat → Except Err (Mat α))
      = (List.range a.rc.length).mapM (fun i => do
        let bs ← (List.range a.cc.length).mapM (fun j => lookup g' (a.name, [i, j]))
        .ok (hcat (a.rc.getD i 0) bs)) := by
    apply hm
    intro i hi
    rw [hm _ _ _ (fun j hj => h i j (List.mem_range.1 hi) (List.mem_range.1 hj))]
  rw [this]

/-- The blocks of an interpolator whose acceptance test looks at the points one by one give the unchunked result at the
points 0, 1, 2, … -/
theorem compute_blocks (s : Scipy α) (q : Nat → Nat → Bool)
    (hq : ∀ a n b m, s.ok (points (a, a + n)) (points (b, b + m))
      = (List.range' a n).all (fun y => (List.range' b m).all (fun x => q y x)))
    (name : Nat) (rc cc : List Nat) :
    (DaskArr.mk (graphOf name (interpolateSlices s) [rc, cc]) name rc cc).compute
      = interpolateNumpy s (points (0, rc.sum)) (points (0, cc.sum)) := by
  have hm : ∀ {β γ : Type} (l : List β) (f f' : β → Except Err γ), (∀ b ∈ l, f b = f' b) → l.mapM f = l.mapM f' := by
    intro β γ l f f' hf
    induction l with
    | nil => rfl
    | cons b l ih =>
      rw [List.mapM_cons, List.mapM_cons, hf b (by simp), ih (fun x hx => hf x (by simp [hx]))]
  let Y : Nat → List Nat := fun i => List.range' (0 + (rc.take i).sum) (rc.getD i 0)
  let X : Nat → List Nat := fun j => List.range' (0 + (cc.take j).sum) (cc.getD j 0)
  let G : Nat → Nat → α := fun y x => s.point (Arith.ofInt (y : Int)) (Arith.ofInt (x : Int))
  have hY : ((List.range rc.length).map Y).flatten = List.range' 0 rc.sum := flatten_chunks rc 0
  have hX : ((List.range cc.length).map X).flatten = List.range' 0 cc.sum := flatten_chunks cc 0
  -- one block
  have block : ∀ i ∈ List.range rc.length, ∀ j ∈ List.range cc.length,
      lookup (graphOf name (interpolateSlices s) [rc, cc]) (name, [i, j])
        = if (Y i).all (fun y => (X j).all (fun x => q y x)) then
            .ok ((Y i).map (fun y => (X j).map (G y))) else .error .valueError := by
    intro i hi j hj
    rw [lookup_own name _ [rc, cc] [i, j] (mem_two (List.mem_range.1 hi) (List.mem_range.1 hj))]
    show interpolateNumpy s (points ((rc.take i).sum, (rc.take i).sum + rc.getD i 0))
      (points ((cc.take j).sum, (cc.take j).sum + cc.getD j 0)) = _
    rw [interpolateNumpy, hq]
    simp only [points_eq, List.map_map, Y, X, Nat.zero_add]
    rfl
  have row : ∀ i ∈ List.range rc.length, (do
        let bs ← (List.range cc.length).mapM (fun j => lookup (graphOf name (interpolateSlices s) [rc, cc]) (name, [i, j]))
        .ok (hcat (rc.getD i 0) bs) : Except Err (Mat α))
      = if (List.range cc.length).all (fun j => (Y i).all (fun y => (X j).all (fun x => q y x))) then
          .ok ((Y i).map (fun y => (List.range' 0 cc.sum).map (G y))) else .error .valueError := by
    intro i hi
    rw [hm _ _ _ (block i hi), mapM_ite]
    split
    · show Except.ok (hcat _ _) = _
      congr 1
      have hl : rc.getD i 0 = (Y i).length := by simp [Y]
      rw [hl, hcat, hcat_map (Y i) (fun j y => (X j).map (G y)) (List.range cc.length)]
      apply List.map_congr_left
      intro y _
      rw [← hX, List.map_flatten, List.map_map]
      rfl
    · rfl
  unfold DaskArr.compute DaskArr.computeIn
  simp only
  rw [hm _ _ _ row, mapM_ite, interpolateNumpy]
  have hok : s.ok (points (0, rc.sum)) (points (0, cc.sum)) = (List.range rc.length).all (fun i =>
      (List.range cc.length).all (fun j => (Y i).all (fun y => (X j).all (fun x => q y x)))) := by
    have := hq 0 rc.sum 0 cc.sum
    simp only [Nat.zero_add] at this
    rw [this, ← hY, ← hX, Bool.eq_iff_iff]
    simp only [List.all_eq_true, List.mem_flatten, List.mem_map]
    constructor
    · intro h i hi j hj y hy x hx
      exact h y ⟨_, ⟨i, hi, rfl⟩, hy⟩ x ⟨_, ⟨j, hj, rfl⟩, hx⟩
    · rintro h y ⟨_, ⟨i, hi, rfl⟩, hy⟩ x ⟨_, ⟨j, hj, rfl⟩, hx⟩
      exact h i hi j hj y hy x hx
  rw [hok]
  split
  · show Except.ok _ = _
    congr 1
    have e1 := points_eq (α := α) 0 rc.sum
    have e2 := points_eq (α := α) 0 cc.sum
    simp only [Nat.zero_add] at e1 e2
    rw [e1, e2, List.map_map, ← hY, List.map_flatten, List.map_map]
    simp only [Function.comp_def, List.map_map]
    rfl
  · rfl

/-! ### the acceptance tests of the two interpolators -/

theorem rgi_ok (r : Rgi α) (a n b m : Nat) : r.scipy.ok (points (a, a + n)) (points (b, b + m))
    = (List.range' a n).all (fun y => (List.range' b m).all (fun x => !r.boundsError ||
        (inBounds r.gy (Arith.ofInt (y : Int)) && inBounds r.gx (Arith.ofInt (x : Int))))) := by
  simp only [Rgi.scipy, points_eq, List.all_map]
  cases r.boundsError
  · simp
  · simp [Function.comp_def]

theorem spline_ok {S : SplLib α} {kx ky : Nat} {py px : List α} {v : Mat α} {s : Scipy α}
    (hw : ∀ a n : Nat, weakInc (points (a, a + n) : List α) = true) (hs : mkSpline S kx ky py px v = .ok s)
    (a n b m : Nat) : s.ok (points (a, a + n)) (points (b, b + m))
    = (List.range' a n).all (fun _ => (List.range' b m).all (fun _ => true)) := by
  unfold mkSpline at hs
  split at hs
  · cases hs
    simp [hw]
  · cases hs

section
variable {K : Type} [Field K] [LinearOrder K] [IsStrictOrderedRing K]

/-- consecutive integers are in ascending order -/
theorem weakInc_points (a n : Nat) : weakInc (points (a, a + n) : List (FP K)) = true := by
  rw [points_eq]
  induction n generalizing a with
  | zero => rfl
  | succ n ih =>
    cases n with
    | zero => rfl
    | succ n =>
      have := ih (a + 1)
      rw [List.range'_succ, List.map_cons] at this
      rw [List.range'_succ, List.map_cons, List.range'_succ, List.map_cons, weakInc, this]
      simp
end

end Verif.Grid
