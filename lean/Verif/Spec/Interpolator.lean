import Verif.Base.Arith
import Mathlib.Data.List.Basic

/-!
# Specifications for the tie-point grid interpolator
-/

namespace Verif.Spec

/-- value at `x` of the straight line through `(p0, d0)` and `(p1, d1)` -/
def lineThrough {K : Type} [Field K] (p0 d0 p1 d1 x : K) : K := d0 + (x - p0) * (d1 - d0) / (p1 - p0)

variable {α : Type} [Arith α]

/-- element `i` of a vector (`0` outside) -/
def el (l : List α) (i : Nat) : α := l.getD i 0

/-- element `k` from the end (`k = 1` is the last) -/
def elEnd (l : List α) (k : Nat) : α := l.getD (l.length - k) 0

/-- row `i` of a matrix (empty outside) -/
def row (m : List (List α)) (i : Nat) : List α := m.getD i []

/-- the value the code computes at `x` from `(p0, d0)` and `(p1, d1)` (the straight line, see C08) -/
def extrapolated (p0 p1 d0 d1 x : α) : α := d1 + ((x - p1) / (Arith.lit 10 1 * (p0 - p1)) * (d0 - d1))

/-- indices of the tie rows positioned in `[lo, hi)` -/
def tieRowsIn (pos : List α) (lo hi : α) : List Nat :=
  (List.range pos.length).filter (fun i => Arith.le lo (el pos i) && Arith.lt (el pos i) hi)

/-- a chunk's rows with one extrapolated row before and one after: the tie rows `sel` at positions `pos`, extrapolated
to `h0` and `h1` -/
def bracketed (pos : List α) (data : List (List α)) (sel : List Nat) (h0 h1 : α) : List (List α) :=
  let i0 := sel.getD 0 0
  let i1 := sel.getD 1 0
  let j0 := sel.getD (sel.length - 2) 0
  let j1 := sel.getD (sel.length - 1) 0
  [List.zipWith (fun a b => extrapolated (el pos i0) (el pos i1) a b h0) (row data i0) (row data i1)]
    ++ sel.map (row data)
    ++ [List.zipWith (fun a b => extrapolated (el pos j0) (el pos j1) a b h1) (row data j0) (row data j1)]

end Verif.Spec
