import Verif.Model.Interpolator

/-!
# `BasicSatelliteInterpolator` (basic_interpolator.py)

pandas is modelled by its documented behaviour: `DataFrame(data, index)` needs one label per row; `reindex` keeps the rows
whose label occurs in the new index, fills the others with NaN and rejects duplicate labels; `Series.interpolate` (method
`linear`, direction `forward`) fills every NaN between two numbers from the straight line through them, every NaN after
the last number with that number, and leaves the NaNs before the first number.

Simplifications: two-dimensional data with `w` columns; integer labels; a NaN is a value different from itself (the
merged infinities of `FP` count as NaN too, pandas would keep an infinity).  `asMatrix` says whether the installed pandas
has `DataFrame.as_matrix` (deprecated in 0.23, removed in 1.0; `setup.py` does not bound the version).
-/

namespace Verif.Basic
open Verif Verif.Interpolator

variable {α : Type} [Arith α]

/-- `nan` -/
def nan : α := 0 / 0

/-- the value is not NaN -/
def known (x : α) : Bool := Arith.eq x x

/-- the last position up to `i` that holds a number -/
def prevKnown (col : List α) : Nat → Option Nat
  | 0 => if known (col.getD 0 nan) then some 0 else none
  | i + 1 => if known (col.getD (i + 1) nan) then some (i + 1) else prevKnown col i

/-- the first of the `n` positions from `i` on that holds a number -/
def nextKnown (col : List α) (i : Nat) : Nat → Option Nat
  | 0 => none
  | n + 1 => if known (col.getD i nan) then some i else nextKnown col (i + 1) n

/-- one element of `Series.interpolate()` -/
def seriesAt (col : List α) (i : Nat) : α :=
  match prevKnown col i with
  | none => nan
  | some p =>
    if p = i then col.getD i nan else
    match nextKnown col i (col.length - i) with
    | none => col.getD p nan
    | some q =>
      (col.getD q nan - col.getD p nan) / (Arith.ofInt q - Arith.ofInt p) * (Arith.ofInt i - Arith.ofInt p) + col.getD p nan

/-- `Series.interpolate()` -/
def seriesInterp (col : List α) : List α := (List.range col.length).map (seriesAt col)

/-- column `j` of `DataFrame(data, index=indices).reindex(np.arange(n))` -/
def reindexed (indices : List Int) (data : Mat α) (n j : Nat) : List α :=
  (List.range n).map (fun (i : Nat) =>
    match indices.idxOf? (i : Int) with
    | some k => (data.getD k []).getD j nan
    | none => nan)

/-- `_pandas_interp` (basic_interpolator.py:65-80) on data with `w` columns; the result is given by columns -/
def pandasInterp (indices : List Int) (w : Nat) (data : Mat α) : Except Err (Nat × Mat α) :=
  match indices.getLast? with
  | none => .error .indexError
  | some last =>
    let n := (last + 1).toNat
    if data.length ≠ indices.length then .error .valueError
    else if ¬ indices.Nodup ∧ n ≠ 0 then .error .valueError
    else .ok (n, (List.range w).map (fun j => seriesInterp (reindexed indices data n j)))

/-- `_interp` (basic_interpolator.py:29-62): along the rows, then along the columns of the result.  The first call gives
the columns of its frame, which are the rows of the transposed array given to the second call; the columns of that are the
rows of the result. -/
def interp (asMatrix : Bool) (rows cols : List Int) (w : Nat) (data : Mat α) : Except Err (Mat α) :=
  match pandasInterp rows w data with
  | .error e => .error e
  | .ok (n, transposed) =>
    if !asMatrix then .error .attributeError else
    match pandasInterp cols n transposed with
    | .error e => .error e
    | .ok (_, result) => .ok result

/-- `interpolate` (basic_interpolator.py:83-89): first the latitudes, then the longitudes, returned in this order -/
def interpolate (asMatrix : Bool) (cols rows : List Int) (w : Nat) (lat lon : Mat α) : Except Err (Mat α × Mat α) :=
  match interp asMatrix rows cols w lat with
  | .error e => .error e
  | .ok la =>
    match interp asMatrix rows cols w lon with
    | .error e => .error e
    | .ok lo => .ok (la, lo)

end Verif.Basic
