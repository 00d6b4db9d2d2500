import Verif.Model.ModisDType
import Verif.Model.ModisDask

/-!
# Element types on the lazy path of the MODIS functions (_modis_utils.pyx:98-152, 191-198)

A lazy result declares an element type (`dtype=first_arr.dtype` and `meta`, lines 150-151) before anything is computed; the
blocks have the type their computation gives them.  All arguments are two-dimensional dask arrays; `rechunk` keeps the
element type.
-/

namespace Verif.ModisLazyDType
open Verif Verif.Modis Verif.ModisDask

variable {α : Type}

/-- a pair of lazy arrays with the declared element type; a block has the type of its computed array -/
structure TLazy (α : Type) where
  declared : DType
  rowChunks : List Nat
  colChunks : List Nat
  blocks : List (Except Err (DType × Arr2 α × Arr2 α))

/-- The result type of `np.concatenate` (line 195-197, and dask's assembly of the blocks) for two floating types; anything
with another type is another type here. -/
def promote : DType → DType → DType
  | .float32, .float32 => .float32
  | .other, _ => .other
  | _, .other => .other
  | _, _ => .float64

/-- `_map_blocks_handler` (lines 191-198): the two results of `func` in one array, so with one element type -/
def handler (func : List (NdArr α) → Except Err ((DType × Arr2 α) × (DType × Arr2 α))) (args : List (NdArr α)) :
    Except Err (DType × Arr2 α × Arr2 α) := do
  let (a, b) ← func args
  .ok (promote a.1 b.1, a.2, b.2)

/-- the delayed calls: block `k` (rows `a` to `b`) of every argument, with its element type -/
def typedTasks (func : Nat → List (NdArr α) → Except Err ((DType × Arr2 α) × (DType × Arr2 α))) (types : List DType)
    (args : List (DArr α)) : Nat → List (Nat × Nat) → List (Except Err (DType × Arr2 α × Arr2 α))
  | _, [] => []
  | k, (a, b) :: rs =>
    handler (func k) (List.zipWith (fun t x => ⟨t, 2, x.data.rowSlice a b⟩) types args) :: typedTasks func types args (k + 1) rs

/-- the lazy branch of `_wrapper` (lines 105-121) with `_call_map_blocks_interp` (lines 136-152) -/
def lazyTyped (func : Nat → List (NdArr α) → Except Err ((DType × Arr2 α) × (DType × Arr2 α))) (coarse fine : Nat)
    (first : DType × DArr α) (rest : List (DType × DArr α)) : Except Err (TLazy α) := do
  let rps ← rowsPerScan coarse
  let args ← rechunkIfNeeded rps first.2 (rest.map (·.2))
  match args with
  | [] => .error .indexError
  | a :: _ =>
    if fine = 0 then .error .zeroDivision else
    let f := coarse / fine
    let k ← finePerKm fine
    .ok ⟨first.1, a.rowChunks.map (· * f), [1354 * k],
      typedTasks func (first.1 :: rest.map (·.1)) args 0 (blockRanges 0 a.rowChunks)⟩

variable [Trig α]

/-- both results of the eager function have the type it reports -/
def both (x : Except Err (DType × Arr2 α × Arr2 α)) : Except Err ((DType × Arr2 α) × (DType × Arr2 α)) := do
  let (t, a, b) ← x
  .ok ((t, a), (t, b))

/-- `interpolate` (_modis_interpolator.pyx:17-38) on one block of each argument -/
def typedAngle (coarse fine width : Nat) (junk : Nat → Nat → Nat → Nat → Nat → α) (k : Nat) :
    List (NdArr α) → Except Err ((DType × Arr2 α) × (DType × Arr2 α))
  | [lon, lat, satz] => both (Modis.interpolateTyped coarse fine width lon lat satz (junk k))
  | _ => .error .typeError

/-- The five functions of modisinterpolator.py:21-62 on dask arrays; the 5 km ones pass `lon1.shape[1]`. -/
def lazyAngle (coarse fine : Nat) (lon lat satz : DType × DArr α) (junk : Nat → Nat → Nat → Nat → Nat → α) :
    Except Err (TLazy α) :=
  lazyTyped (typedAngle coarse fine (if coarse = 5000 then lon.2.data.cols else 0) junk) coarse fine lon [lat, satz]

/-- `interpolate_geolocation_cartesian` on one block of each argument -/
def typedSimple (mc : ModisSimple.MapCoord α) (fine : Nat) (junk : Nat → Nat → Nat → Nat → Nat → α) (k : Nat) :
    List (NdArr α) → Except Err ((DType × Arr2 α) × (DType × Arr2 α))
  | [lon, lat] => both (ModisSimple.interpolateTyped mc 1000 fine lon lat (junk k))
  | _ => .error .typeError

/-- `modis_1km_to_250m`, `modis_1km_to_500m` (simple_modis_interpolator.py:45-61) on dask arrays -/
def lazySimple (mc : ModisSimple.MapCoord α) (fine : Nat) (lon lat : DType × DArr α)
    (junk : Nat → Nat → Nat → Nat → Nat → α) : Except Err (TLazy α) :=
  lazyTyped (typedSimple mc fine junk) 1000 fine lon [lat]

end Verif.ModisLazyDType
