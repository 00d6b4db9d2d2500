import Verif.Model.MultilinearObj
import Verif.Props.Multilinear

/-!
# C86, C87: interpolator objects over time
-/

namespace Verif.Props
open Verif Verif.Spec Verif.Multilinear
variable {α : Type} [Arith α]

/-- operations that leave the limits of the grid alone -/
def KeepsLimits : Op α → Prop
  | .assign _ _ => False
  | _ => True

/-- operations that set neither the limits nor the values -/
def KeepsObject : Op α → Prop
  | .assign _ _ => False
  | .setValues _ => False
  | _ => True

section
variable (conv : ElemT → ElemT → α → α) (cast : α → Int) (reorder : Nat → List Nat → List Nat) (junk : Nat → Nat → α)

theorem run_induct {P : Obj α → Prop} {Q : Op α → Prop} (hstep : ∀ o p, P o → Q p → P (step conv cast reorder junk o p).1)
    (ops : List (Op α)) (hq : ∀ p ∈ ops, Q p) (o : Obj α) (ho : P o) : P (run conv cast reorder junk o ops) := by
  induction ops generalizing o with
  | nil => exact ho
  | cons p ps ih =>
    exact ih (fun q h => hq q (List.mem_cons_of_mem _ h)) _ (hstep o p ho (hq p List.mem_cons_self))

/-- **C86**: after any history of a new object in which the limits are not assigned, `grid` is the grid of its limits, or the
error of computing it. -/
theorem C86_grid (smin smax : List α) (orders : List Int) (dt : ElemT) (heap : Nat → NArr α) (ops : List (Op α))
    (hk : ∀ p ∈ ops, KeepsLimits p) :
    (step conv cast reorder junk (run conv cast reorder junk (Obj.init smin smax orders dt heap) ops) .grid).2
      = .grid (mlinspace smin smax orders) := by
  have h := run_induct conv cast reorder junk (P := fun o => o.smin = smin ∧ o.smax = smax ∧ o.orders = orders ∧
      ∀ g, o.cached = some g → mlinspace smin smax orders = .ok g) (Q := KeepsLimits) ?_ ops hk (Obj.init smin smax orders dt heap)
      ⟨rfl, rfl, rfl, by simp [Obj.init]⟩
  · revert h
    generalize run conv cast reorder junk (Obj.init smin smax orders dt heap) ops = o
    rintro ⟨rfl, rfl, rfl, h⟩
    unfold step
    cases hc : o.cached with
    | some g => simp only; rw [h g hc]
    | none => simp only; cases mlinspace o.smin o.smax o.orders <;> rfl
  · rintro o p ⟨rfl, rfl, rfl, h⟩ hp
    cases p with
    | grid =>
      unfold step
      cases hc : o.cached with
      | some g => exact ⟨rfl, rfl, rfl, h⟩
      | none =>
        simp only
        cases hm : mlinspace o.smin o.smax o.orders with
        | error e => exact ⟨rfl, rfl, rfl, by simp [hc]⟩
        | ok g => exact ⟨rfl, rfl, rfl, fun g' hg => by simpa using hg⟩
    | assign _ _ => exact hp.elim
    | _ => exact ⟨rfl, rfl, rfl, h⟩

/-- **C86 (kept)**: once `grid` was read, it stays, whatever is done to the object. -/
theorem C86_kept (o : Obj α) (g : List (List α)) (hg : (step conv cast reorder junk o .grid).2 = .grid (.ok g)) (ops : List (Op α)) :
    (step conv cast reorder junk (run conv cast reorder junk (step conv cast reorder junk o .grid).1 ops) .grid).2 = .grid (.ok g) := by
  have h0 : (step conv cast reorder junk o .grid).1.cached = some g := by
    revert hg
    unfold step
    cases hc : o.cached with
    | some g' => simp [hc]
    | none => simp only; cases mlinspace o.smin o.smax o.orders <;> simp
  have h := run_induct conv cast reorder junk (P := fun o => o.cached = some g) (Q := fun _ => True) ?_ ops (fun _ _ => trivial) _ h0
  · revert h
    generalize run conv cast reorder junk (step conv cast reorder junk o .grid).1 ops = o'
    intro h
    simp only [step, h]
  · intro o p h _
    cases p <;> simp only [step, h]

/-- **C87 (copied)**: values of another element type, or not contiguous, are those at the time of `set_values`: whatever the caller
writes into arrays afterwards, the object is the same to the compiled function. -/
theorem C87_copied (o : Obj α) (r : Nat) (hc : ¬ ((o.heap r).dt = o.dtype ∧ (o.heap r).contig = true)) (ops : List (Op α))
    (hk : ∀ p ∈ ops, KeepsObject p) :
    (run conv cast reorder junk (step conv cast reorder junk o (.setValues r)).1 ops).now
      = ⟨o.smin, o.smax, o.orders, some ⟨(o.heap r).data.rows, (o.heap r).data.cols,
          fun i j => conv (o.heap r).dt o.dtype ((o.heap r).data.cell i j)⟩⟩ := by
  have h := run_induct conv cast reorder junk (P := fun o' => o'.smin = o.smin ∧ o'.smax = o.smax ∧ o'.orders = o.orders ∧
      o'.values = some (.own ⟨(o.heap r).data.rows, (o.heap r).data.cols,
          fun i j => conv (o.heap r).dt o.dtype ((o.heap r).data.cell i j)⟩)) (Q := KeepsObject) ?_ ops hk
      (step conv cast reorder junk o (.setValues r)).1 ⟨rfl, rfl, rfl, by simp only [step, ascontiguous, if_neg hc]⟩
  · obtain ⟨h1, h2, h3, h4⟩ := h
    simp only [Obj.now, h1, h2, h3, h4, Option.map_some, Held.get]
  · rintro o' p ⟨h1, h2, h3, h4⟩ hp
    cases p with
    | grid =>
      unfold step
      cases o'.cached with
      | some g => exact ⟨h1, h2, h3, h4⟩
      | none => simp only; cases mlinspace o'.smin o'.smax o'.orders <;> exact ⟨h1, h2, h3, h4⟩
    | assign _ _ => exact hp.elim
    | setValues _ => exact hp.elim
    | _ => exact ⟨h1, h2, h3, h4⟩

/-- **C87 (shared)**: contiguous values of the element type of the object are not copied: after writing into the caller's array
the object has the new values. -/
theorem C87_shared (o : Obj α) (r : Nat) (hd : (o.heap r).dt = o.dtype) (hc : (o.heap r).contig = true) (cell : Nat → Nat → α) :
    (run conv cast reorder junk o [.setValues r, .write r cell]).now
      = ⟨o.smin, o.smax, o.orders, some ⟨(o.heap r).data.rows, (o.heap r).data.cols, cell⟩⟩ := by
  simp [run, step, writeCells, ascontiguous, hd, hc, Obj.now, Held.get]

/-- **C87 (points)**: after any history, points of another element type, or not contiguous, are converted, and others are taken as
they are. -/
theorem C87_points (o : Obj α) (ops : List (Op α)) (r : Nat) :
    let o' := run conv cast reorder junk o ops
    let a := o'.heap r
    (¬ (a.dt = o'.dtype ∧ a.contig = true) → (step conv cast reorder junk o' (.interpolate r)).2
      = .result (o'.now.interpolate cast reorder junk ⟨a.data.rows, a.data.cols, fun i j => conv a.dt o'.dtype (a.data.cell i j)⟩)) ∧
    (a.dt = o'.dtype → a.contig = true → (step conv cast reorder junk o' (.interpolate r)).2
      = .result (o'.now.interpolate cast reorder junk a.data)) := by
  intro o' a
  constructor
  · intro h
    simp only [step, ascontiguous]
    rw [if_neg h]; rfl
  · intro h1 h2
    simp only [step, ascontiguous]
    rw [if_pos ⟨h1, h2⟩]; rfl

end

/-! ### the grid and the interpolation can disagree -/

section
open FP

/-- an object on `[0, 1] × [0, 1]` with two nodes each -/
def square (heap : Nat → NArr (FP ℚ)) : Obj (FP ℚ) := Obj.init [val 0, val 0] [val 1, val 1] [2, 2] .float64 heap

/-- **C86 (negation)**: the grid is not always that of the limits the object interpolates with: it is read, then `smax` is assigned. -/
theorem C86_negation (conv : ElemT → ElemT → FP ℚ → FP ℚ) (cast : FP ℚ → Int) (reorder : Nat → List Nat → List Nat)
    (junk : Nat → Nat → FP ℚ) (heap : Nat → NArr (FP ℚ)) :
    ∃ ops, (step conv cast reorder junk (run conv cast reorder junk (square heap) ops) .grid).2
      ≠ .grid (run conv cast reorder junk (square heap) ops).now.grid := by
  refine ⟨[.grid, .assign [val 0, val 0] [val 3, val 1]], ?_⟩
  have e1 : mlinspace [val 0, val 0] [val 1, val 1] [2, 2] = .ok [[val 0, val 0], [val 0, val 1], [val 1, val 0], [val 1, val (1 : ℚ)]] := by
    decide +kernel
  have e2 : mlinspace [val 0, val 0] [val 3, val 1] [2, 2] = .ok [[val 0, val 0], [val 0, val 1], [val 3, val 0], [val 3, val (1 : ℚ)]] := by
    decide +kernel
  simp only [run, List.foldl, step, square, Obj.init, e1, Obj.now, MLI.grid, e2]
  intro h
  injection h with h
  injection h with h
  exact absurd h (by decide +kernel)

/-- **C87 (negation)**: `set_values` does not always keep the values it is given. -/
theorem C87_negation (conv : ElemT → ElemT → FP ℚ → FP ℚ) (cast : FP ℚ → Int) (reorder : Nat → List Nat → List Nat)
    (junk : Nat → Nat → FP ℚ) : ∃ (heap : Nat → NArr (FP ℚ)) (cell : Nat → Nat → FP ℚ),
    (run conv cast reorder junk (square heap) [.setValues 0, .write 0 cell]).now
      ≠ (run conv cast reorder junk (square heap) [.setValues 0]).now := by
  refine ⟨fun _ => ⟨.float64, true, ⟨1, 4, fun _ _ => val 1⟩⟩, fun _ _ => val 2, ?_⟩
  rw [C87_shared conv cast reorder junk (square _) 0 rfl rfl]
  simp only [run, List.foldl, step, ascontiguous, square, Obj.init, Obj.now, and_self, if_true, Option.map_some, Held.get]
  intro h
  injection h with _ _ _ h
  injection h with h
  injection h with _ _ h
  have := congrFun (congrFun h 0) 0
  exact absurd this (by decide +kernel)

/-- integers on the unit square: converted, so later writes do not matter -/
example (conv : ElemT → ElemT → FP ℚ → FP ℚ) (cast : FP ℚ → Int) (reorder : Nat → List Nat → List Nat) (junk : Nat → Nat → FP ℚ) :
    (run conv cast reorder junk (step conv cast reorder junk (square fun _ => ⟨.other, true, ⟨1, 4, fun _ j => val j⟩⟩) (.setValues 3)).1
      [.write 3 (fun _ _ => bad), .grid, .interpolate 3]).now
      = ⟨[val 0, val 0], [val 1, val 1], [2, 2], some ⟨1, 4, fun _ j => conv .other .float64 (val j)⟩⟩ :=
  C87_copied conv cast reorder junk _ 3 (by simp [square, Obj.init]) _ (by simp [KeepsObject])

/-- points given as integers, before values are set -/
example (conv : ElemT → ElemT → FP ℚ → FP ℚ) (cast : FP ℚ → Int) (reorder : Nat → List Nat → List Nat) (junk : Nat → Nat → FP ℚ) :
    (step conv cast reorder junk (run conv cast reorder junk (square fun _ => ⟨.other, true, ⟨2, 1, fun _ _ => val 0⟩⟩) []) (.interpolate 0)).2
      = .result (.error .attributeError) :=
  (C87_points conv cast reorder junk (square fun _ => ⟨.other, true, ⟨2, 1, fun _ _ => val 0⟩⟩) [] 0).1
    (by simp [run, square, Obj.init])

/-- reading the grid between other operations -/
example (conv : ElemT → ElemT → FP ℚ → FP ℚ) (cast : FP ℚ → Int) (reorder : Nat → List Nat → List Nat) (junk : Nat → Nat → FP ℚ)
    (heap : Nat → NArr (FP ℚ)) :
    (step conv cast reorder junk (run conv cast reorder junk (square heap) [.setValues 0, .grid, .write 0 (fun _ _ => bad)]) .grid).2
      = .grid (mlinspace [val 0, val 0] [val 1, val 1] [2, 2]) :=
  C86_grid conv cast reorder junk _ _ _ _ heap _ (by simp [KeepsLimits])

/-- the grid of the old limits after they are replaced -/
example (conv : ElemT → ElemT → FP ℚ → FP ℚ) (cast : FP ℚ → Int) (reorder : Nat → List Nat → List Nat) (junk : Nat → Nat → FP ℚ)
    (heap : Nat → NArr (FP ℚ)) :
    (step conv cast reorder junk (run conv cast reorder junk (step conv cast reorder junk (square heap) .grid).1
      [.assign [val 5] [val 6], .setValues 1]) .grid).2
      = .grid (.ok [[val 0, val 0], [val 0, val 1], [val 1, val 0], [val 1, val 1]]) := by
  refine C86_kept conv cast reorder junk _ _ ?_ _
  have e1 : mlinspace [val 0, val 0] [val 1, val 1] [2, 2] = .ok [[val 0, val 0], [val 0, val 1], [val 1, val 0], [val 1, val (1 : ℚ)]] := by
    decide +kernel
  simp only [step, square, Obj.init, e1]

example (conv : ElemT → ElemT → FP ℚ → FP ℚ) (cast : FP ℚ → Int) (reorder : Nat → List Nat → List Nat) (junk : Nat → Nat → FP ℚ) :
    (run conv cast reorder junk (square fun _ => ⟨.float64, true, ⟨1, 4, fun _ j => val j⟩⟩) [.setValues 3, .write 3 (fun _ _ => bad)]).now
      = ⟨[val 0, val 0], [val 1, val 1], [2, 2], some ⟨1, 4, fun _ _ => bad⟩⟩ :=
  C87_shared conv cast reorder junk _ 3 (by simp [square, Obj.init]) (by simp [square, Obj.init]) _

end

end Verif.Props
