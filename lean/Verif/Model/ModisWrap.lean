import Verif.Model.ModisDask

/-!
# The decorator `scanline_mapblocks` (_modis_utils.pyx:89-198) with all its argument kinds

`Verif.Model.ModisDask` has the lazy branch for dask arrays; here the arguments are numpy arrays, dask arrays, `DataArray`s
of either, arrays that are not two-dimensional, or other objects.  Every `DataArray` has an attribute `compute`, also
around a numpy array; a numpy array has neither `compute` nor `chunks`.

Behaviour of dask: `map_blocks` gives every task the matching block of each dask argument, and everything else (numpy
arrays in particular) as a whole; `rechunk` with two sizes of an array that is not two-dimensional is a ValueError.  Not
modelled: dask arrays with different numbers of rows; `None` as an array argument of a Cython function.
-/

namespace Verif.ModisWrap
open Verif Verif.Modis Verif.ModisDask

/-- the array in an argument -/
inductive Data (α : Type) where
  | numpy (a : Arr2 α)
  | dask (a : DArr α)

/-- a positional argument; `dims` is given for a `DataArray`; `nd` is an array (lazy or not) whose shape does not have two
elements -/
inductive Arg (α : Type) where
  | arr (dims : Option (String × String)) (d : Data α)
  | nd (isLazy : Bool) (shape : List Nat)
  | other

variable {α : Type}

/-- `hasattr(arr, "ndim")` -/
def Arg.hasNdim : Arg α → Bool
  | .other => false
  | _ => true

/-- `_extract_dask_arrays_from_args` (lines 132-133) for one argument -/
def Arg.extract : Arg α → Arg α
  | .arr _ d => .arr none d
  | a => a

/-- `arr.chunks` if it has this attribute -/
def Arg.chunks? : Arg α → Option (List Nat × List Nat)
  | .arr _ (.dask a) => some (a.rowChunks, a.colChunks)
  | _ => none

/-- `arr.rechunk((r, -1)) if hasattr(arr, "chunks") else arr` (line 187) -/
def Arg.rechunk (r : Nat) : Arg α → Except Err (Arg α)
  | .arr dims (.dask a) => do
    let a ← a.rechunkRows r
    .ok (.arr dims (.dask a))
  | .nd true _ => .error .valueError
  | a => .ok a

/-- `_rechunk_dask_arrays_if_needed` (lines 165-188) -/
def rechunkArgs (rps : Nat) (args : List (Arg α)) : Except Err (List (Arg α)) :=
  match args.find? Arg.hasNdim with
  | none => .error .indexError
  | some (.arr _ (.dask first)) =>
    let goodRow := first.rowChunks.all (fun x => x % rps == 0)
    let goodCol := first.colChunks.length == 1 && first.colChunks.headD 0 != first.data.cols
    if first.data.rows % rps ≠ 0 then .error .valueError else
    let same := (args.filterMap Arg.chunks?).all (· == (first.rowChunks, first.colChunks))
    if goodRow && goodCol && same then .ok args else
    match first.rowChunks with
    | [] => .error .indexError
    | r0 :: _ => args.mapM (Arg.rechunk (r0 / rps * rps))
  | some _ => .error .attributeError

/-- the argument of a task: a block of a dask array, anything else as it is -/
def Arg.block (a b : Nat) : Arg α → Arg α
  | .arr none (.dask x) => .arr none (.numpy (x.data.rowSlice a b))
  | x => x

/-- the delayed calls -/
def wtasks (func : Nat → List (Arg α) → Except Err (Arr2 α × Arr2 α)) (args : List (Arg α)) :
    Nat → List (Nat × Nat) → List (Except Err (Arr2 α × Arr2 α))
  | _, [] => []
  | k, (a, b) :: rs => func k (args.map (Arg.block a b)) :: wtasks func args (k + 1) rs

/-- `_call_map_blocks_interp` (lines 136-152) -/
def wcallMapBlocks (func : Nat → List (Arg α) → Except Err (Arr2 α × Arr2 α)) (coarse fine : Nat) (args : List (Arg α)) :
    Except Err (Lazy α) :=
  match args.find? Arg.hasNdim with
  | some (.arr _ (.dask first)) => do
    if fine = 0 then .error .zeroDivision else
    let f := coarse / fine
    let k ← finePerKm fine
    .ok ⟨first.rowChunks.map (· * f), [1354 * k], wtasks func args 0 (blockRanges 0 first.rowChunks)⟩
  | some _ => .error .attributeError
  | none => .error .indexError

/-- what a call returns: two numpy arrays, two dask arrays, or two `DataArray`s of dask arrays -/
inductive Res (α : Type) where
  | numpy (out : Arr2 α × Arr2 α)
  | dask (l : Lazy α)
  | dataArrays (dims : String × String) (l : Lazy α)

/-- `_wrapper` (lines 97-127); `func k` is the decorated function as run in task `k` (0 if it is called directly) -/
def wrapper (func : Nat → List (Arg α) → Except Err (Arr2 α × Arr2 α)) (args : List (Arg α))
    (coarse fine : Option Nat) : Except Err (Res α) :=
  match coarse, fine with
  | some coarse, some fine =>
    let lazyBranch (dims : Option (String × String)) : Except Err (Res α) := do
      let rps ← rowsPerScan coarse
      let args ← rechunkArgs rps (args.map Arg.extract)
      let l ← wcallMapBlocks func coarse fine args
      match dims with
      | some dims => .ok (.dataArrays dims l)
      | none => .ok (.dask l)
    match args.find? Arg.hasNdim with
    | none => .error .indexError
    | some (.nd _ _) => .error .valueError
    | some .other => .error .indexError
    | some (.arr (some dims) _) => lazyBranch (some dims)
    | some (.arr none (.dask _)) => lazyBranch none
    | some (.arr none (.numpy _)) => do
      let out ← func 0 args
      .ok (.numpy out)
  | _, _ => .error .valueError

variable [Trig α]

/-- the Cython function `interpolate` (_modis_interpolator.pyx:17-38): TypeError for anything but three numpy arrays (a
later argument with another number of dimensions is a ValueError) -/
def angleFunc (coarse fine width : Nat) (junk : Nat → Nat → Nat → Nat → Nat → α) (k : Nat) :
    List (Arg α) → Except Err (Arr2 α × Arr2 α)
  | [.arr none (.numpy lon), .arr none (.numpy lat), .arr none (.numpy satz)] =>
    Modis.interpolate coarse fine width lon lat satz (junk k)
  | [.arr none (.numpy _), .nd false _, _] => .error .valueError
  | [.arr none (.numpy _), .arr none (.numpy _), .nd false _] => .error .valueError
  | _ => .error .typeError

/-- `lon1.shape[1]` -/
def Arg.width : Arg α → Except Err Nat
  | .arr _ (.numpy a) => .ok a.cols
  | .arr _ (.dask a) => .ok a.data.cols
  | .nd _ shape => match shape[1]? with
    | some n => .ok n
    | none => .error .indexError
  | .other => .error .attributeError

/-- `modis_1km_to_250m`, `modis_1km_to_500m` (modisinterpolator.py:21-32) -/
def angle1km (fine : Nat) (junk : Nat → Nat → Nat → Nat → Nat → α) (lon lat satz : Arg α) : Except Err (Res α) :=
  wrapper (angleFunc 1000 fine 0 junk) [lon, lat, satz] (some 1000) (some fine)

/-- `modis_5km_to_1km`, `_500m`, `_250m` (modisinterpolator.py:35-62) -/
def angle5km (fine : Nat) (junk : Nat → Nat → Nat → Nat → Nat → α) (lon lat satz : Arg α) : Except Err (Res α) := do
  let width ← lon.width
  wrapper (angleFunc 5000 fine width junk) [lon, lat, satz] (some 5000) (some fine)

/-- `interpolate_geolocation_cartesian` (simple_modis_interpolator.py:21-42) without its decorator -/
def simpleFunc (mc : ModisSimple.MapCoord α) (coarse fine : Nat) (junk : Nat → Nat → Nat → Nat → Nat → α) (k : Nat) :
    List (Arg α) → Except Err (Arr2 α × Arr2 α)
  | [.arr none (.numpy lon), .arr none (.numpy lat)] => ModisSimple.interpolate mc coarse fine lon lat (junk k)
  | [.arr none (.numpy _), .nd false _] => .error .valueError
  | _ => .error .typeError

/-- `modis_1km_to_250m`, `modis_1km_to_500m` (simple_modis_interpolator.py:45-61) -/
def simple1km (mc : ModisSimple.MapCoord α) (fine : Nat) (junk : Nat → Nat → Nat → Nat → Nat → α) (lon lat : Arg α) :
    Except Err (Res α) :=
  wrapper (simpleFunc mc 1000 fine junk) [lon, lat] (some 1000) (some fine)

end Verif.ModisWrap
