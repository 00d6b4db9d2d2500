import Verif.Model.ModisUtils

/-!
# `_simple_modis_interpolator.pyx`: MODIS interpolation without the zenith angle

Imperative model, like `Verif.Model.ModisInterp`.  `scipy.ndimage.map_coordinates(order=1, mode='nearest')` is the
parameter `mc`: an arbitrary function of the input array's content (inside its shape only) and of the two
coordinates, called once per output element.  Simplifications: conversions between `float32` and `float64` as in
`Verif.Model.ModisInterp`; C integer overflow of sizes is not modelled.
-/

namespace Verif.ModisSimple
open Verif Verif.Modis

/-- `map_coordinates` of one element: content of an array of the given shape, `y`, `x`. -/
abbrev MapCoord (α : Type) := (rows cols : Nat) → (Fin rows → Fin cols → α) → α → α → α

variable {α : Type} [Trig α]

/-- the y coordinate (_simple_modis_interpolator.pyx:80) -/
def coordY (f j : Nat) : α :=
  Trig.toFloating (Arith.ofInt j * (1 / Arith.ofInt f) - (Arith.ofInt f * (1 / 16) + 1 / 8))

/-- the x coordinate (line 82) -/
def coordX (f i : Nat) : α := Trig.toFloating (Arith.ofInt i * (1 / Arith.ofInt f))

/-- `_compute_yx_coordinate_arrays` (lines 72-82); `coordinates` has shape (2, rows, cols). -/
def computeYX (f : Nat) (co : Arr3 α) : Except Err (Arr3 α) :=
  loop2 co.cols co.depth (fun j i co => do
    let co ← co.wr 0 j i (coordY f j)
    co.wr 1 j i (coordX f i)) co

/-- `_call_map_coordinates` (lines 125-137): the whole output plane is written by the library. -/
def callMapCoordinates (mc : MapCoord α) (inp : Arr2 α) (co : Arr3 α) (res : Arr2 α) : Arr2 α :=
  ⟨res.rows, res.cols, fun r c =>
    mc inp.rows inp.cols (fun a b => inp.cell a b) (co.cell 0 r c) (co.cell 1 r c)⟩

/-- `_extrapolate_xyz_rightmost_columns` (lines 144-157).  A negative index is out of bounds (`wraparound=False`). -/
def extrapolateRight (n : Nat) (res : Arr2 α) : Except Err (Arr2 α) :=
  loop res.rows (fun row res => do
    if res.cols < n + 2 then .error .ub else
    let a ← res.rd row (res.cols - n - 1)
    let b ← res.rd row (res.cols - n - 2)
    let d := a - b
    loop n (fun off res => do
      let v ← res.rd row (res.cols - n + off)
      res.wr row (res.cols - n + off) (v + d * Arith.ofInt ((off : Int) + 1))) res) res

/-- `_calc_slope_250` (lines 241-247, `step = 3`), `_calc_slope_500` (lines 267-273, `step = 1`); `y` is
`coordinates[0]`. -/
def calcSlope (step : Nat) (res : Arr2 α) (co : Arr3 α) (col off : Nat) : Except Err α := do
  let a ← res.rd (off + step) col
  let b ← res.rd off col
  let ya ← co.rd 0 (off + step) 0
  let yb ← co.rd 0 off 0
  .ok ((a - b) / (ya - yb))

/-- `_calc_offset_250` (lines 254-260), `_calc_offset_500` (lines 280-286) -/
def calcOffset (step : Nat) (res : Arr2 α) (co : Arr3 α) (m : α) (col off : Nat) : Except Err α := do
  let a ← res.rd (off + step) col
  let ya ← co.rd 0 (off + step) 0
  .ok (a - m * ya)

/-- `result_view[row, col] = m * y_coordinates[row, 0] + b` -/
def putLine (res : Arr2 α) (co : Arr3 α) (m b : α) (row col : Nat) : Except Err (Arr2 α) := do
  let y ← co.rd 0 row 0
  res.wr row col (m * y + b)

/-- `_interpolate_xyz_250` (lines 164-199) -/
def interpolate250 (co : Arr3 α) (res : Arr2 α) : Except Err (Arr2 α) :=
  loop res.cols (fun col res => do
    let m ← calcSlope 3 res co col 2
    let b ← calcOffset 3 res co m col 2
    let res ← putLine res co m b 0 col
    let res ← putLine res co m b 1 col
    let m ← calcSlope 3 res co col 34
    let b ← calcOffset 3 res co m col 34
    let res ← putLine res co m b 38 col
    putLine res co m b 39 col) res

/-- `_interpolate_xyz_500` (lines 206-234) -/
def interpolate500 (co : Arr3 α) (res : Arr2 α) : Except Err (Arr2 α) :=
  loop res.cols (fun col res => do
    let m ← calcSlope 1 res co col 1
    let b ← calcOffset 1 res co m col 1
    let res ← putLine res co m b 0 col
    let m ← calcSlope 1 res co col 17
    let b ← calcOffset 1 res co m col 17
    putLine res co m b 19 col) res

/-- `_compute_interpolated_xyz_scan` (lines 86-122) -/
def interpScan (mc : MapCoord α) (f : Nat) (co xyzIn res : Arr3 α) : Except Err (Arr3 α) := do
  let res ← loop 3 (fun k res =>
    .ok (res.setPlane k (callMapCoordinates mc (xyzIn.plane k) co (res.plane k)))) res
  if f = 4 then
    loop 3 (fun k res => do
      let p ← extrapolateRight 3 (res.plane k)
      let p ← interpolate250 co p
      .ok (res.setPlane k p)) res
  else
    loop 3 (fun k res => do
      let p ← extrapolateRight 1 (res.plane k)
      let p ← interpolate500 co p
      .ok (res.setPlane k p)) res

/-- The arrays shared by all scans. -/
structure Bufs (α : Type) where
  xyzIn : Arr3 α
  res : Arr3 α
  out : Arr2 α × Arr2 α

/-- Body of the scan loop (lines 52-63) -/
def scanStep (mc : MapCoord α) (f rps : Nat) (lon lat : Arr2 α) (co : Arr3 α) (s : Nat) (b : Bufs α) :
    Except Err (Bufs α) := do
  let j0 := rps * s
  let j1 := j0 + rps
  let k0 := rps * f * s
  let k1 := k0 + rps * f
  let xyzIn ← lonlat2xyzArr (lon.rowSlice j0 j1) (lat.rowSlice j0 j1) b.xyzIn
  let res ← interpScan mc f co xyzIn b.res
  let out ← xyz2lonlatArr res k0 k1 b.out
  .ok ⟨xyzIn, res, out⟩

/-- Body of `interpolate_geolocation_cartesian` (lines 20-64) for given rows per scan and factor. -/
def interpolateRF (mc : MapCoord α) (rps f : Nat) (lon lat : Arr2 α) (junk : Nat → Nat → Nat → Nat → α) :
    Except Err (Arr2 α × Arr2 α) := do
  let co ← computeYX f ⟨2, f * rps, f * lon.cols, junk 0⟩
  let b ← loop (lon.rows / rps) (scanStep mc f rps lon lat co)
    ⟨⟨rps, lon.cols, 3, junk 1⟩, ⟨f * rps, lon.cols * f, 3, junk 2⟩,
      (⟨f * lon.rows, f * lon.cols, junk 3 0⟩, ⟨f * lon.rows, f * lon.cols, junk 4 0⟩)⟩
  .ok b.out

/-- `interpolate_geolocation_cartesian` (lines 13-64) on numpy arrays. -/
def interpolate (mc : MapCoord α) (coarse fine : Nat) (lon lat : Arr2 α) (junk : Nat → Nat → Nat → Nat → α) :
    Except Err (Arr2 α × Arr2 α) := do
  let rps ← rowsPerScan coarse
  if fine = 0 then .error .ub else
  interpolateRF mc rps (coarse / fine) lon lat junk

/-- `modis_1km_to_250m` (simple_modis_interpolator.py:45-52) -/
def modis1kmTo250m (mc : MapCoord α) (lon lat : Arr2 α) (junk) := interpolate mc 1000 250 lon lat junk
/-- `modis_1km_to_500m` (simple_modis_interpolator.py:55-61) -/
def modis1kmTo500m (mc : MapCoord α) (lon lat : Arr2 α) (junk) := interpolate mc 1000 500 lon lat junk

end Verif.ModisSimple
