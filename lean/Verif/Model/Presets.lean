import Verif.Model.Interpolator
import Verif.Model.GeoConv
import Verif.Model.Multi

/-!
# `GeoInterpolator` (geointerpolator.py:10-49) and the preset functions (__init__.py:29-152, interpolator.py:9-27)

Simplifications: longitudes and latitudes have the same shape; the tie points are given as longitude and latitude arrays
(the branch for pyresample objects is `geoInterpXyz`); integer positions are numbers of `α`.
-/

namespace Verif.Presets
open Verif Verif.Interpolator Verif.Multi

variable {α : Type}

/-- `np.arange(a, b, step)` as numbers -/
def arange [Arith α] (a b step : Nat) : List α := (pyRange a b step).map (fun (n : Nat) => Arith.ofInt (n : Int))

variable [Trig α]

/-- the tie data of a `GeoInterpolator` made from longitudes and latitudes (geointerpolator.py:38-41) -/
def geoTies (lons lats : Mat α) : List (Mat α) :=
  let f (g : α × α × α → α) := List.zipWith (List.zipWith (fun lon lat => g (Geo.lonlat2xyz Geo.earthRadius lon lat))) lons lats
  [f (·.1), f (·.2.1), f (·.2.2)]

/-- `GeoInterpolator.interpolate` (geointerpolator.py:45-49): unpack the three arrays and convert -/
def toLonLat (out : List (Mat α)) : Except Err (Mat α × Mat α) :=
  match out with
  | [x, y, z] =>
    let f (g : α × α → α) := List.zipWith (fun rx r => List.zipWith (fun a b => g (Geo.xyz2lonlat Geo.earthRadius
      Geo.defaultThr true (a, b))) rx r) x (List.zipWith List.zip y z)
    .ok (f (·.1), f (·.2))
  | _ => .error .valueError

/-- A `GeoInterpolator` with cartesian tie data: `fill_borders(*fill)`, then `interpolate()`. -/
def geoInterpXyz (S : SplLib α) (fill : List String) (st : Interp α) : Except Err (Mat α × Mat α) :=
  match fillBorders fill st with
  | (.error e, _) => .error e
  | (.ok (), st') =>
    match interpolate S st' with
    | .error e => .error e
    | .ok out => toLonLat out

/-- `metop20kmto1km` (__init__.py:29-46) -/
def metop20kmto1km (S : SplLib α) (lons lats : Mat α) : Except Err (Mat α × Mat α) :=
  let cols20km : List α := ([0] ++ pyRange 4 2048 20 ++ [2047]).map (fun (n : Nat) => Arith.ofInt (n : Int))
  let cols1km := arange 0 2048 1
  let lines := lons.length
  geoInterpXyz S [] ⟨arange 0 lines 1, cols20km, arange 0 lines 1, cols1km, 0, geoTies lons lats, 1, 3⟩

/-- `modis5kmto1km` (__init__.py:49-71) -/
def modis5kmto1km (S : SplLib α) (lons lats : Mat α) : Except Err (Mat α × Mat α) :=
  let five : α := Arith.lit 50 1
  let cols5km := (arange 2 1354 5).map (· / five)
  let cols1km := (arange 0 1354 1).map (· / five)
  let lines := lons.length * 5
  let rows5km := (arange 2 lines 5).map (· / five)
  let rows1km := (arange 0 lines 1).map (· / five)
  geoInterpXyz S ["y", "x"] ⟨rows5km, cols5km, rows1km, cols1km, 10, geoTies lons lats, 1, 3⟩

/-- `modis1kmto500m` with `cores=1` (__init__.py:105-122) -/
def modis1kmto500mSingle (S : SplLib α) (lons lats : Mat α) : Except Err (Mat α × Mat α) :=
  let two : α := Arith.lit 20 1
  let cols500m := (arange 0 (1354 * 2) 1).map (· / two)
  let lines := lons.length
  let rows500m := (arange 0 (lines * 2) 1).map (fun x => (x - Arith.lit 5 1) / two)
  geoInterpXyz S ["y", "x"] ⟨arange 0 lines 1, arange 0 1354 1, rows500m, cols500m, 20, geoTies lons lats, 1, 3⟩

/-- `modis1kmto250m` with `cores=1` (__init__.py:133-152) -/
def modis1kmto250mSingle (S : SplLib α) (lons lats : Mat α) : Except Err (Mat α × Mat α) :=
  let four : α := Arith.lit 40 1
  let cols250m := (arange 0 (1354 * 4) 1).map (· / four)
  let lines := lons.length
  let rows250m := (arange 0 (lines * 4) 1).map (fun x => (x - Arith.lit 15 1) / four)
  geoInterpXyz S ["y", "x"] ⟨arange 0 lines 1, arange 0 1354 1, rows250m, cols250m, 40, geoTies lons lats, 1, 3⟩

/-- `modis1kmto500m(lons, lats, cores)` (__init__.py:97-122); `sched` is the order in which the workers finish -/
def modis1kmto500m (S : SplLib α) (lons lats : Mat α) (cores : Nat) (sched : List Nat) : Except Err (Mat α × Mat α) :=
  if cores > 1 then multi (modis1kmto500mSingle S) lons lats 10 cores sched else modis1kmto500mSingle S lons lats

/-- `modis1kmto250m(lons, lats, cores)` (__init__.py:125-152); `sched` is the order in which the workers finish -/
def modis1kmto250m (S : SplLib α) (lons lats : Mat α) (cores : Nat) (sched : List Nat) : Except Err (Mat α × Mat α) :=
  if cores > 1 then multi (modis1kmto250mSingle S) lons lats 10 cores sched else modis1kmto250mSingle S lons lats

/-- `generic_modis5kmto1km` (interpolator.py:9-27); without arguments `data5km[0]` is an IndexError -/
def genericModis5kmto1km (S : SplLib α) (data5km : List (Mat α)) : Except Err (List (Mat α)) :=
  match data5km with
  | [] => .error .indexError
  | d :: _ =>
    let lines := d.length * 5
    let st : Interp α := ⟨arange 2 lines 5, arange 2 1354 5, arange 0 lines 1, arange 0 1354 1, 10, data5km, 1, 3⟩
    match fillBorders ["y", "x"] st with
    | (.error e, _) => .error e
    | (.ok (), st') => interpolate S st'

end Verif.Presets
