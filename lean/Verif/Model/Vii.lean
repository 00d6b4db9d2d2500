import Verif.Model.Interpolator
import Verif.Model.GeoConv

/-!
# VII tie point interpolation (viiinterpolator.py:23-134)

A `DataArray` is a two-dimensional array with its dimension names; `cols` is its second size (the number of elements of each
of `rows`).  `data.interp({dim: new}, assume_sorted=True)` is modelled as scipy's `interp1d(kind='linear',
bounds_error=False)`, which xarray calls: left-sided search of the interval, NaN outside, and a ValueError for an empty
vector of new positions.  Positions are numbers of `α`.  `np.max`, `np.min` of a `DataArray` skip NaN.
-/

namespace Verif.Vii
open Verif Verif.Interpolator

variable {α : Type}

/-- a two-dimensional `xarray.DataArray` -/
structure DataArray (α : Type) where
  dims : String × String
  cols : Nat
  rows : Mat α

def DataArray.shape (d : DataArray α) : Nat × Nat := (d.rows.length, d.cols)

variable [Arith α]

/-- `np.searchsorted(xs, x)`: the number of leading positions below `x` -/
def searchsorted (xs : List α) (x : α) : Nat := (xs.takeWhile (fun p => Arith.lt p x)).length

/-- one value of scipy's linear `interp1d` -/
def interp1 (xs ys : List α) (x : α) : α :=
  match xs.head?, xs.getLast? with
  | some a, some b =>
    if Arith.lt x a || Arith.lt b x then 0 / 0 else
    let hi := min (max (searchsorted xs x) 1) (xs.length - 1)
    let lo := hi - 1
    let slope := (ys.getD hi 0 - ys.getD lo 0) / (xs.getD hi 0 - xs.getD lo 0)
    slope * (x - xs.getD lo 0) + ys.getD lo 0
  | _, _ => 0 / 0

/-- integer positions as numbers -/
def nums (l : List Nat) : List α := l.map (fun (n : Nat) => Arith.ofInt (n : Int))

/-- `np.arange(0, size * step + 1, step)` of `size + 1` positions, `step ≥ 1` -/
def tieGrid (ties factor : Nat) : List Nat := (List.range ties).map (· * factor)

/-- the pixel rows of all scans (lines 58-65) -/
def pixelRows (nScans scanTies factor : Nat) : List Nat :=
  (List.range nScans).flatMap (fun j =>
    (List.range ((scanTies - 1) * factor)).map (fun i => j * scanTies * factor + i))

/-- `data.interp({dim_alt: …})` -/
def interpAlt (grid new : List Nat) (d : DataArray α) : Except Err (DataArray α) :=
  if new.isEmpty then .error .valueError else
  .ok { d with rows := (nums new).map (fun r =>
    (List.range d.cols).map (fun c => interp1 (nums grid) (d.rows.map (fun row => row.getD c 0)) r)) }

/-- `data.interp({dim_act: …})` -/
def interpAct (grid new : List Nat) (d : DataArray α) : Except Err (DataArray α) :=
  if new.isEmpty then .error .valueError else
  .ok { d with cols := new.length, rows := d.rows.map (fun row => (nums new).map (fun q => interp1 (nums grid) row q)) }

/-- the loop body (lines 69-77) for one array -/
def interpOne (dims : String × String) (shape : Nat × Nat) (scanTies factor : Nat) (d : DataArray α) :
    Except Err (DataArray α) :=
  if d.shape ≠ shape ∨ d.dims ≠ dims then .error .valueError else do
  let a ← interpAlt (tieGrid shape.1 factor) (pixelRows (shape.1 / scanTies) scanTies factor) d
  interpAct (tieGrid shape.2 factor) (List.range ((shape.2 - 1) * factor)) a

/-- `tie_points_interpolation` (lines 23-79) -/
def tiePointsInterpolation (data : List (DataArray α)) (scanTies factor : Nat) : Except Err (List (DataArray α)) :=
  match data with
  | [] => .error .indexError
  | d :: _ =>
    let shape := d.shape
    if scanTies = 0 then .error .zeroDivision
    else if shape.1 % scanTies ≠ 0 then .error .valueError
    else if factor = 0 then .error .zeroDivision
    else if shape.1 / scanTies = 0 then .error .valueError
    else data.mapM (interpOne d.dims shape scanTies factor)

/-- all elements -/
def DataArray.elems (d : DataArray α) : List α := d.rows.flatten

/-- the larger, the smaller of two numbers -/
def amax (a b : α) : α := if Arith.lt a b then b else a
def amin (a b : α) : α := if Arith.lt b a then b else a

/-- `np.max` of a `DataArray`: NaN are skipped; NaN if there is nothing else -/
def nanMax (l : List α) : α :=
  match l.filter (fun x => Arith.eq x x) with
  | [] => 0 / 0
  | a :: l => l.foldl amax a

/-- `np.min` of a `DataArray` -/
def nanMin (l : List α) : α :=
  match l.filter (fun x => Arith.eq x x) with
  | [] => 0 / 0
  | a :: l => l.foldl amin a

/-- the choice of cartesian coordinates (line 113) -/
def toCart (lon lat : DataArray α) (latThr : α) : Bool :=
  Arith.lt latThr (nanMax (lat.elems.map aabs)) ||
    Arith.lt (Arith.lit 1800 1) (nanMax lon.elems - nanMin lon.elems)

end Verif.Vii

namespace Verif.Vii
open Verif Verif.Interpolator
variable {α : Type} [Trig α]

/-- a coordinate of `_lonlat2xyz` (lines 137-153); the result has the dimension names of the longitudes -/
def cartesian (f : α × α × α → α) (lon lat : DataArray α) : DataArray α :=
  { lon with rows := List.zipWith (List.zipWith (fun a b => f (Geo.lonlat2xyz Geo.meanEarthRadius a b))) lon.rows lat.rows }

/-- a coordinate of `_xyz2lonlat` (lines 156-178) -/
def geodetic (f : α × α → α) (zThr : α) (x y z : DataArray α) : DataArray α :=
  { x with rows := List.zipWith (fun rx r => List.zipWith (fun a b => f (Geo.viiXyz2lonlat Geo.meanEarthRadius zThr (a, b)))
      rx r) x.rows (List.zipWith List.zip y.rows z.rows) }

/-- `tie_points_geo_interpolation` (lines 83-134) of longitudes and latitudes with the same dimension names -/
def tiePointsGeoInterpolation (lon lat : DataArray α) (scanTies factor : Nat) (latThr zThr : α) :
    Except Err (DataArray α × DataArray α) :=
  if lon.shape ≠ lat.shape then .error .valueError
  else if toCart lon lat latThr then
    match tiePointsInterpolation [cartesian (·.1) lon lat, cartesian (·.2.1) lon lat, cartesian (·.2.2) lon lat]
      scanTies factor with
    | .ok [x, y, z] => .ok (geodetic (·.1) zThr x y z, geodetic (·.2) zThr x y z)
    | .ok _ => .error .valueError
    | .error e => .error e
  else
    match tiePointsInterpolation [lon, lat] scanTies factor with
    | .ok [a, b] => .ok (a, b)
    | .ok _ => .error .valueError
    | .error e => .error e

end Verif.Vii
