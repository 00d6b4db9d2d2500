import Verif.Model.Multilinear

/-!
# `MultilinearInterpolator` objects over time (multilinear.py:19-86)

The caller's two-dimensional numpy arrays are in a heap, so that an array kept by the object can be changed later by the caller.
Simplifications: the limits and orders given to the constructor are lists (always copied), `dtype` is one the compiled function
accepts (`float32`, `float64`), and the limits are already converted to it.
-/

namespace Verif.Multilinear
open Verif
variable {α : Type} [Arith α]

/-- element types of numpy arrays -/
inductive ElemT where
  | float32 | float64 | other
deriving DecidableEq, Repr

/-- a two-dimensional numpy array: element type, C-contiguous or not, contents -/
structure NArr (α : Type) where
  dt : ElemT
  contig : Bool
  data : Arr2 α

/-- the attribute `values`: the caller's array, or an array of its own -/
inductive Held (α : Type) where
  | shared (r : Nat)
  | own (a : Arr2 α)

/-- `np.ascontiguousarray(values, dtype=...)` (lines 77, 80): the array itself where it has the element type and is contiguous,
else a converted copy; `conv` converts an element -/
def ascontiguous (conv : ElemT → ElemT → α → α) (dt : ElemT) (heap : Nat → NArr α) (r : Nat) : Held α :=
  let a := heap r
  if a.dt = dt ∧ a.contig = true then .shared r
  else .own ⟨a.data.rows, a.data.cols, fun i j => conv a.dt dt (a.data.cell i j)⟩

/-- contents at present -/
def Held.get (heap : Nat → NArr α) : Held α → Arr2 α
  | .shared r => (heap r).data
  | .own a => a

/-- an object and the caller's arrays; `cached` is `__grid__` (line 58) -/
structure Obj (α : Type) where
  smin : List α
  smax : List α
  orders : List Int
  dtype : ElemT
  values : Option (Held α)
  cached : Option (List (List α))
  heap : Nat → NArr α

/-- what a caller does: read `grid`, call `set_values`, call `interpolate`, assign the attributes `smin` and `smax`, or write
into an array (its shape and element type stay) -/
inductive Op (α : Type) where
  | grid
  | setValues (r : Nat)
  | interpolate (r : Nat)
  | assign (smin smax : List α)
  | write (r : Nat) (cell : Nat → Nat → α)

/-- what the caller gets -/
inductive Out (α : Type) where
  | none
  | grid (g : Except Err (List (List α)))
  | result (a : Except Err (Arr2 α))

/-- the object as the compiled function sees it -/
def Obj.now (o : Obj α) : MLI α := ⟨o.smin, o.smax, o.orders, o.values.map (Held.get o.heap)⟩

/-- `MultilinearInterpolator.__init__` without `values` (lines 60-66) -/
def Obj.init (smin smax : List α) (orders : List Int) (dtype : ElemT) (heap : Nat → NArr α) : Obj α :=
  ⟨smin, smax, orders, dtype, none, none, heap⟩

/-- the caller writes into array `r` -/
def writeCells (heap : Nat → NArr α) (r : Nat) (cell : Nat → Nat → α) : Nat → NArr α := fun k =>
  if k = r then ⟨(heap r).dt, (heap r).contig, ⟨(heap r).data.rows, (heap r).data.cols, cell⟩⟩ else heap k

/-- one operation: `grid` (lines 70-74), `set_values` (76-77), `interpolate` (79-83) -/
def step (conv : ElemT → ElemT → α → α) (cast : α → Int) (reorder : Nat → List Nat → List Nat) (junk : Nat → Nat → α)
    (o : Obj α) : Op α → Obj α × Out α
  | .grid => match o.cached with
    | some g => (o, .grid (.ok g))
    | none => match mlinspace o.smin o.smax o.orders with
      | .ok g => ({ o with cached := some g }, .grid (.ok g))
      | .error e => (o, .grid (.error e))
  | .setValues r => ({ o with values := some (ascontiguous conv o.dtype o.heap r) }, .none)
  | .interpolate r => (o, .result (o.now.interpolate cast reorder junk ((ascontiguous conv o.dtype o.heap r).get o.heap)))
  | .assign smin smax => ({ o with smin := smin, smax := smax }, .none)
  | .write r cell => ({ o with heap := writeCells o.heap r cell }, .none)

/-- the object after a history -/
def run (conv : ElemT → ElemT → α → α) (cast : α → Int) (reorder : Nat → List Nat → List Nat) (junk : Nat → Nat → α)
    (o : Obj α) (ops : List (Op α)) : Obj α := ops.foldl (fun o p => (step conv cast reorder junk o p).1) o

end Verif.Multilinear
