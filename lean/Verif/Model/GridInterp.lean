import Verif.Model.Presets

/-!
# Grid and spline interpolators with dask support (interpolator.py:232-377, geointerpolator.py:78-112)

The scipy interpolators are modelled by what they do with the two vectors of fine points: a test of the points
(ValueError) and a value per point.  `RegularGridInterpolator` is modelled from its documentation and source: ascending or
descending positions, `bounds_error`, `fill_value`; the evaluation kernel is a parameter (`linearKernel` is the default
method).  `RectBivariateSpline` is used through the spline library of `Verif.Model.Interpolator`.  Simplifications: `astype`
is left out here (see Verif.Model.GridDType); keyword arguments of the call are an abstract value; all arrays are two-dimensional; chunks are given in
normalised form (one tuple of sizes per dimension); grids with a single position in a dimension are only meaningful for
the spline interpolator; a dask graph is a list of (key, task) pairs in which the last pair of a
key counts.
-/

namespace Verif.Grid
open Verif Verif.Interpolator Verif.Presets

/-! ### chunks -/

/-- `np.ndindex(shape)`: all positions, the last index varying fastest -/
def ndindex : List Nat → List (List Nat)
  | [] => [[]]
  | n :: ns => (List.range n).flatMap (fun i => (ndindex ns).map (i :: ·))

/-- the slices of one position (interpolator.py:306-310); `pos` is always a valid index -/
def slicesAt (position : List Nat) (chunks : List (List Nat)) : List (Nat × Nat) :=
  List.zipWith (fun pos chunk =>
    let chunkSize := chunk.getD pos 0
    let offset := (chunk.take pos).sum
    (offset, offset + chunkSize)) position chunks

/-- `_enumerate_chunk_slices` (interpolator.py:303-312) -/
def enumerateChunkSlices (chunks : List (List Nat)) : List (List Nat × List (Nat × Nat)) :=
  (ndindex (chunks.map List.length)).map (fun position => (position, slicesAt position chunks))

/-! ### scipy -/

variable {α : Type}

/-- A scipy interpolator as called on a grid of fine points: which grids it accepts, and the value at a point. -/
structure Scipy (α : Type) where
  ok : List α → List α → Bool
  point : α → α → α

/-- `self.interpolator(...)` on the grid of the two vectors (lines 325 and 339) -/
def interpolateNumpy (s : Scipy α) (ys xs : List α) : Except Err (Mat α) :=
  if s.ok ys xs then .ok (ys.map (fun y => xs.map (fun x => s.point y x))) else .error .valueError

variable [Arith α]

/-- `RegularGridInterpolator` after construction: ascending positions -/
structure Rgi (α : Type) where
  gy : List α
  gx : List α
  values : Mat α
  boundsError : Bool
  fill : Option α
  kernel : List α → List α → Mat α → α → α → α

/-- strictly ascending, or strictly descending positions -/
def direction (p : List α) : Except Err Bool :=
  if strictInc p then .ok false else if strictInc p.reverse then .ok true else .error .valueError

/-- construction of a `RegularGridInterpolator` (ValueError for positions that are not strictly monotonic or do not match
the values); descending positions and their values are flipped -/
def mkRgi (kernel : List α → List α → Mat α → α → α → α) (boundsError : Bool) (fill : Option α) (py px : List α)
    (values : Mat α) : Except Err (Rgi α) := do
  let dy ← direction py
  let dx ← direction px
  if ¬ (values.length = py.length ∧ values.all (fun r => r.length == px.length)) then .error .valueError else
  let v := if dy then values.reverse else values
  let v := if dx then v.map List.reverse else v
  .ok ⟨if dy then py.reverse else py, if dx then px.reverse else px, v, boundsError, fill, kernel⟩

/-- the `bounds_error` test of one coordinate: `grid[0] <= x and x <= grid[-1]` -/
def inBounds (g : List α) (x : α) : Bool :=
  match g.head?, g.getLast? with
  | some a, some b => Arith.le a x && Arith.le x b
  | _, _ => false

/-- the `fill_value` test of one coordinate: `x < grid[0] or x > grid[-1]` -/
def outOfBounds (g : List α) (x : α) : Bool :=
  match g.head?, g.getLast? with
  | some a, some b => Arith.lt x a || Arith.lt b x
  | _, _ => false

/-- the value at one point; a NaN coordinate is never filled -/
def Rgi.point (r : Rgi α) (y x : α) : α :=
  match r.boundsError, r.fill with
  | false, some v =>
    if (outOfBounds r.gy y || outOfBounds r.gx x) && Arith.eq y y && Arith.eq x x then v
    else r.kernel r.gy r.gx r.values y x
  | _, _ => r.kernel r.gy r.gx r.values y x

/-- the interpolator as called by `SingleGridInterpolator.interpolate_numpy` on `np.meshgrid(ys, xs, indexing='ij')`
(lines 322-325) -/
def Rgi.scipy (r : Rgi α) : Scipy α :=
  ⟨fun ys xs => !r.boundsError || ys.all (fun y => xs.all (fun x => inBounds r.gy y && inBounds r.gx x)), r.point⟩

/-- the interval of `x`: the last `i ≤ n - 2` with `grid[i] <= x` (0 if there is none) -/
def interval (g : List α) (x : α) : Nat :=
  (((g.drop 1).dropLast).takeWhile (fun p => Arith.le p x)).length

/-- element of a matrix (0 outside) -/
def elem (m : Mat α) (i j : Nat) : α := (m.getD i []).getD j 0

/-- method `linear` in two dimensions: the weighted sum of the four corners -/
def linearKernel (gy gx : List α) (v : Mat α) (y x : α) : α :=
  let i := interval gy y
  let j := interval gx x
  let t := (y - gy.getD i 0) / (gy.getD (i + 1) 0 - gy.getD i 0)
  let s := (x - gx.getD j 0) / (gx.getD (j + 1) 0 - gx.getD j 0)
  elem v i j * (1 - t) * (1 - s) + elem v i (j + 1) * (1 - t) * s + elem v (i + 1) j * t * (1 - s)
    + elem v (i + 1) (j + 1) * t * s

/-- `RectBivariateSpline(*points, values, kx, ky)` (line 334; ValueError for bad positions or shapes) called with
`grid=True` (line 339): the fine points must be in ascending order; an empty vector gives an empty result -/
def mkSpline (S : SplLib α) (kx ky : Nat) (py px : List α) (values : Mat α) : Except Err (Scipy α) :=
  if strictInc py && strictInc px && (values.length == py.length) && values.all (fun r => r.length == px.length)
      && decide (kx < py.length) && decide (ky < px.length) then
    .ok ⟨fun ys xs => ys.isEmpty || xs.isEmpty || (weakInc ys && weakInc xs), fun y x =>
      S kx py (values.map (fun row => S ky px row (clamp px x))) (clamp py y)⟩
  else .error .valueError

/-! ### single interpolators -/

/-- A single interpolator (lines 235-243): its tie positions and values, and the scipy interpolator as called with given
keyword arguments. -/
structure Single (κ α : Type) where
  py : List α
  px : List α
  values : Mat α
  sci : κ → Scipy α

variable {κ : Type}

/-- `np.arange(start, stop)` as numbers -/
def points (s : Nat × Nat) : List α := (List.range (s.2 - s.1)).map (fun i => Arith.ofInt ((s.1 + i : Nat) : Int))

/-- `interpolate_slices` (lines 290-300) -/
def interpolateSlices (s : Scipy α) (slices : List (Nat × Nat)) : Except Err (Mat α) :=
  match slices with
  | [sy, sx] => interpolateNumpy s (points sy) (points sx)
  | _ => .error .valueError

/-- what `tokenize` sees (line 272) -/
structure TokIn (κ α : Type) where
  chunks : List (List Nat)
  py : List α
  px : List α
  values : Mat α
  fineY : List α
  fineX : List α
  kw : κ

/-- a task graph: keys (name and position) with their tasks -/
abbrev Graph (α : Type) := List ((Nat × List Nat) × Except Err (Mat α))

/-- a dask array: its graph, its name and its chunks -/
structure DaskArr (α : Type) where
  graph : Graph α
  name : Nat
  rc : List Nat
  cc : List Nat

/-- `interpolate_dask` (lines 261-283); `tok` is dask's `tokenize`, `chunks` the normalised chunks (ValueError if they do
not add up to the shape) -/
def interpolateDask (tok : TokIn κ α → Nat) (i : Single κ α) (fineY fineX : List α) (rc cc : List Nat) (kw : κ) :
    Except Err (DaskArr α) :=
  if ¬ (rc.sum = fineY.length ∧ cc.sum = fineX.length) then .error .valueError else
  let name := tok ⟨[rc, cc], i.py, i.px, i.values, fineY, fineX, kw⟩
  .ok ⟨(enumerateChunkSlices [rc, cc]).map (fun p => ((name, p.1), interpolateSlices (i.sci kw) p.2)), name, rc, cc⟩

/-- the task of a key: the last one entered -/
def lookup (g : Graph α) (key : Nat × List Nat) : Except Err (Mat α) :=
  match (g.reverse.find? (fun p => p.1 == key)) with
  | some p => p.2
  | none => .error .keyError

/-- blocks side by side -/
def hcat (h : Nat) (ms : List (Mat α)) : Mat α := ms.foldr (List.zipWith (· ++ ·)) (List.replicate h [])

/-- `compute()` of an array in a task graph -/
def DaskArr.computeIn (g : Graph α) (a : DaskArr α) : Except Err (Mat α) := do
  let rows ← (List.range a.rc.length).mapM (fun i => do
    let bs ← (List.range a.cc.length).mapM (fun j => lookup g (a.name, [i, j]))
    .ok (hcat (a.rc.getD i 0) bs))
  .ok rows.flatten

/-- `compute()` of one array -/
def DaskArr.compute (a : DaskArr α) : Except Err (Mat α) := a.computeIn a.graph

/-- `dask.compute(a, b)`: the graphs are merged first -/
def computeBoth (a b : DaskArr α) : Except Err (Mat α) × Except Err (Mat α) :=
  let g := a.graph ++ b.graph
  (a.computeIn g, b.computeIn g)

/-- `interpolate(fine_points, chunks)` followed by `compute()` if the result is lazy (lines 245-259) -/
def Single.interpolate (tok : TokIn κ α → Nat) (i : Single κ α) (fineY fineX : List α)
    (chunks : Option (List Nat × List Nat)) (kw : κ) : Except Err (Mat α) :=
  match chunks with
  | none => interpolateNumpy (i.sci kw) fineY fineX
  | some (rc, cc) => do
    let a ← interpolateDask tok i fineY fineX rc cc kw
    a.compute

/-- `SingleGridInterpolator` (lines 315-325); the keyword arguments of the call choose the method, that is the kernel -/
def singleGrid (kernel : κ → List α → List α → Mat α → α → α → α) (boundsError : Bool) (fill : Option α) (py px : List α)
    (values : Mat α) : Except Err (Single κ α) := do
  let r ← mkRgi linearKernel boundsError fill py px values
  .ok ⟨py, px, values, fun kw => { r with kernel := kernel kw }.scipy⟩

/-- `SingleSplineInterpolator` (lines 328-339) without keyword arguments in the call -/
def singleSpline (S : SplLib α) (kx ky : Nat) (py px : List α) (values : Mat α) : Except Err (Single Unit α) := do
  let s ← mkSpline S kx ky py px values
  .ok ⟨py, px, values, fun _ => s⟩

/-! ### several arrays -/

/-- `AbstractMultipleInterpolator.__init__` (lines 345-349): `make` builds the interpolator of one array -/
def mkMultiple (make : Mat α → Except Err (Single κ α)) (data : List (Mat α)) : Except Err (List (Single κ α)) :=
  data.mapM make

/-- `AbstractMultipleInterpolator.interpolate` (lines 351-356): the results of the generator, in order -/
def interpolateMultiple (tok : TokIn κ α → Nat) (is : List (Single κ α)) (fine : List (List α))
    (chunks : Option (List Nat × List Nat)) (kw : κ) : List (Except Err (Mat α)) :=
  is.map (fun i =>
    match fine with
    | [fineY, fineX] => i.interpolate tok fineY fineX chunks kw
    | _ => .error .valueError)

/-- `interpolate_to_shape` (lines 358-361) -/
def interpolateToShape (tok : TokIn κ α → Nat) (is : List (Single κ α)) (shape : List Nat)
    (chunks : Option (List Nat × List Nat)) (kw : κ) : List (Except Err (Mat α)) :=
  interpolateMultiple tok is (shape.map (fun size => points (0, size))) chunks kw

/-! ### geographic data -/

end Verif.Grid

namespace Verif.Grid
open Verif Verif.Interpolator Verif.Presets
variable {κ α : Type} [Trig α]

/-- an argument of a geographic interpolator: an array, or an object with `get_cartesian_coords` -/
inductive GeoArg (α : Type) where
  | array (m : Mat α)
  | pyresample (x y z : Mat α)

/-- `to_xyz` (geointerpolator.py:96-109); an array has no `get_cartesian_coords`, and `lonlat2xyz` of anything but arrays is
a TypeError -/
def toXyz : List (GeoArg α) → Except Err (List (Mat α))
  | [.pyresample x y z] => .ok [x, y, z]
  | [.array _] => .error .attributeError
  | [.array lons, .array lats] => .ok (geoTies lons lats)
  | [_, _] => .error .typeError
  | _ => .error .valueError

/-- `GeoKlass.__init__` (geointerpolator.py:83-86) -/
def mkGeo (make : Mat α → Except Err (Single κ α)) (data : List (GeoArg α)) : Except Err (List (Single κ α)) := do
  let d ← toXyz data
  mkMultiple make d

/-- `GeoKlass.interpolate` (geointerpolator.py:88-91) -/
def interpolateGeo (tok : TokIn κ α → Nat) (is : List (Single κ α)) (fine : List (List α))
    (chunks : Option (List Nat × List Nat)) (kw : κ) : Except Err (Mat α × Mat α) := do
  let out ← (interpolateMultiple tok is fine chunks kw).mapM id
  toLonLat out

/-- `interpolate_to_shape` of a geographic interpolator (line 361 calls the geographic `interpolate`) -/
def interpolateGeoToShape (tok : TokIn κ α → Nat) (is : List (Single κ α)) (shape : List Nat)
    (chunks : Option (List Nat × List Nat)) (kw : κ) : Except Err (Mat α × Mat α) :=
  interpolateGeo tok is (shape.map (fun size => points (0, size))) chunks kw

end Verif.Grid
