import Verif.Model.GridInterp

/-!
# Element types of the data of the interpolators of interpolator.py

The scipy interpolators compute in double precision (`RegularGridInterpolator` converts integers to doubles and combines
float32 values with double weights; FITPACK works in double precision).  `SingleGridInterpolator` and
`SingleSplineInterpolator` convert the result to the element type of the data; `Interpolator` stores the rows of a
one-dimensional interpolation in an array of that type, and keeps the doubles of a two-dimensional one.

Simplifications: integers have any size (the conversion of a number outside the range of an integer type is not defined by
numpy, like that of NaN); the integers of the data are doubles without rounding.
-/

namespace Verif.Grid
open Verif Verif.Interpolator Verif.Presets

/-- `numpy.dtype` of an array of data -/
inductive ElemType where
  | float64 | float32
  /-- an integer type -/
  | integer
deriving DecidableEq, Repr

/-- numpy's conversions of doubles: to float32, and to integers -/
structure Casts (α : Type) where
  single : α → α
  integer : α → α

variable {κ α : Type}

/-- `x.astype(dtype)` of a double -/
def astype (c : Casts α) : ElemType → α → α
  | .float64, x => x
  | .float32, x => c.single x
  | .integer, x => c.integer x

/-- a scipy interpolator whose result is converted (interpolator.py:325, 339) -/
def Scipy.astype (c : Casts α) (t : ElemType) (s : Scipy α) : Scipy α :=
  ⟨s.ok, fun y x => Grid.astype c t (s.point y x)⟩

/-- a single interpolator of data of type `t` (lines 232-339) -/
def Single.astype (c : Casts α) (t : ElemType) (i : Single κ α) : Single κ α :=
  { i with sci := fun kw => (i.sci kw).astype c t }

variable [Arith α]

/-- `SingleGridInterpolator` for data of type `t` (lines 315-325) -/
def singleGridT (c : Casts α) (t : ElemType) (kernel : κ → List α → List α → Mat α → α → α → α) (boundsError : Bool)
    (fill : Option α) (py px : List α) (values : Mat α) : Except Err (Single κ α) := do
  let i ← singleGrid kernel boundsError fill py px values
  .ok (i.astype c t)

/-- `SingleSplineInterpolator` for data of type `t` (lines 328-339) -/
def singleSplineT (c : Casts α) (t : ElemType) (S : SplLib α) (kx ky : Nat) (py px : List α) (values : Mat α) :
    Except Err (Single Unit α) := do
  let i ← singleSpline S kx ky py px values
  .ok (i.astype c t)

end Verif.Grid

namespace Verif.Interpolator
open Verif Verif.Grid
variable {α : Type} [Arith α]

/-- `_interp1d` (lines 211-223) for data of type `t`: the rows are stored in an array of that type (lines 216-218, 222) -/
def interp1dT (c : Casts α) (t : ElemType) (S : SplLib α) (st : Interp α) (data : Mat α) : Except Err (Mat α) :=
  (List.range st.hrowIdx.length).mapM (fun cnt => do
    let row ← idx data cnt
    let fine ← splineRow S st row
    .ok (fine.map (astype c t)))

/-- `_interp` and `interpolate` (lines 196-229) with the types of the data arrays: the result of
`RectBivariateSpline` is kept as it is (line 209) -/
def interpolateT (c : Casts α) (S : SplLib α) (st : Interp α) (types : List ElemType) : Except Err (List (Mat α)) :=
  if arrayEqual st.hrowIdx st.rowIdx then (types.zip st.tieData).mapM (fun p => interp1dT c p.1 S st p.2)
  else st.tieData.mapM (rectBivariate S st)

/-- the formula of `_linear_extrapolate` (interpolator.py:51) for one element of data of an unsigned integer type with `w`
bits: the difference of the data wraps around, everything else is a double -/
def extrap1U (w : Nat) (p0 p1 : α) (d0 d1 : Nat) (xev : α) : α :=
  Arith.ofInt (d1 : Int)
    + ((xev - p1) / (Arith.lit 10 1 * (p0 - p1)) * Arith.ofInt (((d0 : Int) - (d1 : Int)) % (2 : Int) ^ w))

/-- `_linear_extrapolate` (interpolator.py:32-51) for data of an unsigned integer type with `w` bits -/
def linearExtrapolateU (w : Nat) (pos : List α) (data : List (List Nat)) (xev : α) : Except Err (List α) :=
  match pos, data with
  | [p0, p1], [d0, d1] => .ok (List.zipWith (fun a b => extrap1U w p0 p1 a b xev) d0 d1)
  | _, _ => .error .valueError

/-- integers as doubles -/
def ofNats (data : List Nat) : List α := data.map (fun n => Arith.ofInt (n : Int))

/-- `_extrapolate_rows` (lines 147-159) for data of an unsigned integer type with `w` bits; `np.vstack` converts the data to
doubles -/
def extrapolateRowsU (w : Nat) (data : List (List Nat)) (rowIdx : List α) (firstIndex lastIndex : α) :
    Except Err (Mat α) := do
  let d0 ← idx data 0
  let d1 ← idx data 1
  let firstRow ← linearExtrapolateU w (rowIdx.take 2) [d0, d1] firstIndex
  let e0 ← idxEnd data 2
  let e1 ← idxEnd data 1
  let lastRow ← linearExtrapolateU w (lastTwo rowIdx) [e0, e1] lastIndex
  .ok ([firstRow] ++ data.map ofNats ++ [lastRow])

end Verif.Interpolator
