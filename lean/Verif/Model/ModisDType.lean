import Verif.Model.ModisInterp
import Verif.Model.ModisSimple

/-!
# Element types of the arguments of the MODIS functions

`interpolate` and `interpolate_geolocation_cartesian` are compiled once for `float32` and once for `float64` (the fused type
`floating`, _modis_utils.pxd:4-6).  Cython picks the version by the first argument, checks the buffers of the other arguments
against it, and checks every assignment to a buffer variable (`cdef np.ndarray[floating, ...] x = ...`) against it.
Only numpy arguments are modelled here (for dask arrays the same happens in every block).
-/

namespace Verif.Modis
open Verif

/-- `numpy.dtype` of an array -/
inductive DType where
  | float32 | float64
  /-- anything else: integers, `float16`, objects, ... -/
  | other
deriving DecidableEq, Repr

/-- a numpy array with its element type and number of dimensions; `arr` is its content if there are two -/
structure NdArr (α : Type) where
  dtype : DType
  ndim : Nat
  arr : Arr2 α

variable {α : Type}

/-- Selection of the specialisation by the first buffer argument (Cython's dispatch of fused types; declared at
_modis_interpolator.pyx:19 and _simple_modis_interpolator.pyx:14): no version for other types or dimensions. -/
def fusedSelect (a : NdArr α) : Except Err DType :=
  if a.ndim = 2 then
    match a.dtype with
    | .float32 => .ok .float32
    | .float64 => .ok .float64
    | .other => .error .typeError
  else .error .typeError

/-- Acquisition of a buffer of element type `t` and dimension `n` from an array ("Buffer dtype mismatch", "Buffer has wrong
number of dimensions"). -/
def acquire (t : DType) (n : Nat) (dtype : DType) (ndim : Nat) : Except Err Unit :=
  if ndim = n ∧ dtype = t then .ok () else .error .valueError

/-- element type of the arrays returned by `_get_coords` (_modis_interpolator.pyx:197, 200-201, 233-234) -/
def coordsDType : DType := .float32

variable [Trig α]

/-- `interpolate` behind its decorator (_modis_utils.pyx:98-127 for numpy arrays, _modis_interpolator.pyx:17-38) followed by
`MODISInterpolator.interpolate` up to the assignment of the coordinates (lines 130-148); the result with its element type. -/
def interpolateTyped (coarse fine width : Nat) (lon lat satz : NdArr α) (junk : Nat → Nat → Nat → Nat → α) :
    Except Err (DType × Arr2 α × Arr2 α) := do
  -- _modis_utils.pyx:102-104
  if lon.ndim ≠ 2 then .error .valueError else
  let t ← fusedSelect lon
  -- _modis_interpolator.pyx:20-21
  let _ ← acquire t 2 lat.dtype lat.ndim
  let _ ← acquire t 2 satz.dtype satz.ndim
  -- lines 33-37
  if coarse = 5000 ∧ ¬ (width = 0 ∨ width = 270 ∨ width = 271) then .error .notImplemented else
  let cfg ← mkCfg coarse fine width
  -- lines 146-148: `cdef np.ndarray[floating, ndim=1] x = coords_xy[0]`
  let _ ← acquire t 1 coordsDType 1
  let out ← interpolateCfg cfg lon.arr lat.arr satz.arr junk
  -- new_lons, new_lats have `dtype=lon1.dtype` (lines 168-169)
  .ok (lon.dtype, out)

/-- The five functions of modisinterpolator.py:21-62.  The 5 km ones pass `lon1.shape[1]`, an IndexError if there are less
than two dimensions. -/
def modisTyped (coarse fine : Nat) (lon lat satz : NdArr α) (junk : Nat → Nat → Nat → Nat → α) :
    Except Err (DType × Arr2 α × Arr2 α) :=
  if coarse = 5000 then
    if lon.ndim < 2 then .error .indexError
    else interpolateTyped coarse fine lon.arr.cols lon lat satz junk
  else interpolateTyped coarse fine 0 lon lat satz junk

end Verif.Modis

namespace Verif.ModisSimple
open Verif Verif.Modis
variable {α : Type} [Trig α]

/-- `interpolate_geolocation_cartesian` (simple_modis_interpolator.py:22-42, _simple_modis_interpolator.pyx:13-64) with
element types: all arrays have the type of the longitudes. -/
def interpolateTyped (mc : MapCoord α) (coarse fine : Nat) (lon lat : NdArr α) (junk : Nat → Nat → Nat → Nat → α) :
    Except Err (DType × Arr2 α × Arr2 α) := do
  if lon.ndim ≠ 2 then .error .valueError else
  let t ← fusedSelect lon
  let _ ← acquire t 2 lat.dtype lat.ndim
  let out ← interpolate mc coarse fine lon.arr lat.arr junk
  .ok (lon.dtype, out)

end Verif.ModisSimple
