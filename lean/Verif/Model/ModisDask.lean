import Verif.Model.ModisInterp
import Verif.Model.ModisSimple

/-!
# Lazy (dask) path of the MODIS interpolators: `scanline_mapblocks` in `_modis_utils.pyx`

A dask array is its content together with its row and column chunk sizes.  Simplifications: all array arguments are
dask arrays (`DataArray` wrapping and unwrapping, lines 107-108 and 118-120, only changes the container); `dtype`
and `meta` are not modelled.
-/

namespace Verif.ModisDask
open Verif Verif.Modis

/-- A two-dimensional dask array. -/
structure DArr (α : Type) where
  data : Arr2 α
  rowChunks : List Nat
  colChunks : List Nat

/-- The chunk sizes add up to the shape (dask's own invariant). -/
structure DArr.WF {α : Type} (a : DArr α) : Prop where
  rows : a.rowChunks.sum = a.data.rows
  cols : a.colChunks.sum = a.data.cols

/-- dask's `blockdims_from_blockshape` for one dimension of size `d` and integer block size `bd`:
`((bd,) * (d // bd) + ((d % bd,) if d % bd else ()) if d else (0,))` -/
def blockdims (d bd : Nat) : Except Err (List Nat) :=
  if d = 0 then .ok [0]
  else if bd = 0 then .error .zeroDivision
  else .ok (List.replicate (d / bd) bd ++ if d % bd = 0 then [] else [d % bd])

variable {α : Type}

/-- `arr.rechunk((r, -1))` (_modis_utils.pyx:187) -/
def DArr.rechunkRows (a : DArr α) (r : Nat) : Except Err (DArr α) := do
  let rc ← blockdims a.data.rows r
  .ok ⟨a.data, rc, [a.data.cols]⟩

/-- `_rechunk_dask_arrays_if_needed` (_modis_utils.pyx:165-188).  `first :: rest` are the array arguments. -/
def rechunkIfNeeded (rps : Nat) (first : DArr α) (rest : List (DArr α)) : Except Err (List (DArr α)) := do
  let goodRow := first.rowChunks.all (fun x => x % rps == 0)
  -- line 173: `len(col_chunks) == 1 and col_chunks[0] != num_cols`
  let goodCol := first.colChunks.length == 1 && first.colChunks.headD 0 != first.data.cols
  if first.data.rows % rps ≠ 0 then .error .valueError else
  let same := rest.all (fun a => first.rowChunks == a.rowChunks && first.colChunks == a.colChunks)
  if goodRow && goodCol && same then .ok (first :: rest) else
  match first.rowChunks with
  | [] => .error .indexError
  | r0 :: _ => (first :: rest).mapM (fun a => a.rechunkRows (r0 / rps * rps))

/-- row ranges of the blocks, from row `off` on -/
def blockRanges (off : Nat) : List Nat → List (Nat × Nat)
  | [] => []
  | c :: cs => (off, off + c) :: blockRanges (off + c) cs

/-- A lazy pair of arrays: declared row and column chunks, and one delayed computation per row block. -/
structure Lazy (α : Type) where
  rowChunks : List Nat
  colChunks : List Nat
  blocks : List (Except Err (Arr2 α × Arr2 α))

/-- `{250: 4, 500: 2, 1000: 1}[fine_resolution]` (line 140) -/
def finePerKm (fine : Nat) : Except Err Nat :=
  if fine = 250 then .ok 4 else if fine = 500 then .ok 2 else if fine = 1000 then .ok 1 else .error .keyError

/-- The delayed calls of `func`: block `k` (rows `a` to `b`) of every argument.  `func k` is the function run in the
`k`-th task (its argument stands for the memory the task finds). -/
def tasks (func : Nat → List (Arr2 α) → Except Err (Arr2 α × Arr2 α)) (args : List (DArr α)) :
    Nat → List (Nat × Nat) → List (Except Err (Arr2 α × Arr2 α))
  | _, [] => []
  | k, (a, b) :: rs => func k (args.map (fun x => x.data.rowSlice a b)) :: tasks func args (k + 1) rs

/-- `_call_map_blocks_interp` (lines 136-152).  After rechunking all arguments have one column block and the same row
blocks, so the blocks of all arguments are the row ranges of the first one. -/
def callMapBlocks (func : Nat → List (Arr2 α) → Except Err (Arr2 α × Arr2 α)) (coarse fine : Nat)
    (args : List (DArr α)) : Except Err (Lazy α) := do
  match args with
  | [] => .error .indexError
  | first :: _ =>
    if fine = 0 then .error .zeroDivision else
    let f := coarse / fine
    let k ← finePerKm fine
    .ok ⟨first.rowChunks.map (· * f), [1354 * k], tasks func args 0 (blockRanges 0 first.rowChunks)⟩

/-- the lazy branch of `_wrapper` (lines 105-121) -/
def lazyInterp (func : Nat → List (Arr2 α) → Except Err (Arr2 α × Arr2 α)) (coarse fine : Nat)
    (first : DArr α) (rest : List (DArr α)) : Except Err (Lazy α) := do
  let rps ← rowsPerScan coarse
  let args ← rechunkIfNeeded rps first rest
  callMapBlocks func coarse fine args

/-- rows of stacked arrays -/
def stackCell (d : α) : List (Arr2 α) → Nat → Nat → α
  | [], _, _ => d
  | a :: as, r, c => if r < a.rows then a.cell r c else stackCell d as (r - a.rows) c

/-- `compute()`: evaluate the blocks and stack them along the rows (`d` is an arbitrary value outside the array). -/
def Lazy.compute (d : α) (l : Lazy α) : Except Err (Arr2 α × Arr2 α) := do
  let bs ← l.blocks.mapM id
  let rows := (bs.map (fun b => b.1.rows)).sum
  let cols := (bs.map (fun b => b.1.cols)).headD 0
  .ok (⟨rows, cols, stackCell d (bs.map (·.1))⟩, ⟨rows, cols, stackCell d (bs.map (·.2))⟩)

/-! ### the public functions on dask arrays -/

variable [Trig α]

/-- `interpolate` (_modis_interpolator.pyx:17-38) as called on one block of each of its
three array arguments; `width` is the keyword argument `coarse_scan_width` (`0`: not given) and `junk k` the memory
found by task `k` -/
def angleTask (coarse fine width : Nat) (junk : Nat → Nat → Nat → Nat → Nat → α) (k : Nat) :
    List (Arr2 α) → Except Err (Arr2 α × Arr2 α)
  | [lon, lat, satz] => Modis.interpolate coarse fine width lon lat satz (junk k)
  | _ => .error .typeError

/-- `modis_1km_to_250m`, `modis_1km_to_500m` (modisinterpolator.py:21-32) on dask arrays (`fine` 250, 500) -/
def lazyAngle1km (fine : Nat) (lon lat satz : DArr α) (junk : Nat → Nat → Nat → Nat → Nat → α) :
    Except Err (Lazy α) :=
  lazyInterp (angleTask 1000 fine 0 junk) 1000 fine lon [lat, satz]

/-- `modis_5km_to_1km`, `_500m`, `_250m` (modisinterpolator.py:35-62) on dask arrays (`fine` 1000, 500, 250); the
scan width is `lon1.shape[1]` -/
def lazyAngle5km (fine : Nat) (lon lat satz : DArr α) (junk : Nat → Nat → Nat → Nat → Nat → α) :
    Except Err (Lazy α) :=
  lazyInterp (angleTask 5000 fine lon.data.cols junk) 5000 fine lon [lat, satz]

/-- `interpolate_geolocation_cartesian` on one block of each argument -/
def simpleTask (mc : ModisSimple.MapCoord α) (fine : Nat) (junk : Nat → Nat → Nat → Nat → Nat → α) (k : Nat) :
    List (Arr2 α) → Except Err (Arr2 α × Arr2 α)
  | [lon, lat] => ModisSimple.interpolate mc 1000 fine lon lat (junk k)
  | _ => .error .typeError

/-- `modis_1km_to_250m`, `modis_1km_to_500m` (simple_modis_interpolator.py:45-61) on dask arrays -/
def lazySimple1km (mc : ModisSimple.MapCoord α) (fine : Nat) (lon lat : DArr α)
    (junk : Nat → Nat → Nat → Nat → Nat → α) : Except Err (Lazy α) :=
  lazyInterp (simpleTask mc fine junk) 1000 fine lon [lat]

end Verif.ModisDask
