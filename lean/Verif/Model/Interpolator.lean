import Verif.Base.Arr
import Verif.Base.Arith

/-!
# `Interpolator` (interpolator.py:54-229)

Python-level arrays: a vector is a list, a matrix is the list of its rows.  Simplifications: the number of columns of a
matrix without rows is not tracked; `chunk_size` is not negative; arrays are not broadcast; integer positions
(`np.arange`) are numbers of `α`; if a fill fails, tie arrays it had already replaced are not tracked here
(they are in Verif.Model.InterpolatorObj); without tie arrays a chunk with one tie row is accepted (`np.concatenate` raises).
-/

namespace Verif.Interpolator
open Verif

/-- a matrix as the list of its rows -/
abbrev Mat (α : Type) := List (List α)

variable {α : Type}

/-- `l[i]` (IndexError outside) -/
def idx (l : List α) (i : Nat) : Except Err α :=
  match l[i]? with
  | some x => .ok x
  | none => .error .indexError

/-- `l[-k]`, `k ≥ 1` -/
def idxEnd (l : List α) (k : Nat) : Except Err α :=
  if k ≤ l.length then idx l (l.length - k) else .error .indexError

/-- `l[-2:]` -/
def lastTwo (l : List α) : List α := l.drop (l.length - 2)

variable [Arith α]

/-- The formula of `_linear_extrapolate` (interpolator.py:51) for one element. -/
def extrap1 (p0 p1 d0 d1 xev : α) : α := d1 + ((xev - p1) / (Arith.lit 10 1 * (p0 - p1)) * (d0 - d1))

/-- `_linear_extrapolate` (interpolator.py:32-51); `data` is the tuple of lines -/
def linearExtrapolate (pos : List α) (data : List (List α)) (xev : α) : Except Err (List α) :=
  match pos, data with
  | [p0, p1], [d0, d1] => .ok (List.zipWith (fun a b => extrap1 p0 p1 a b xev) d0 d1)
  | _, _ => .error .valueError

/-- The attributes of an `Interpolator` (lines 70-83). -/
structure Interp (α : Type) where
  rowIdx : List α
  colIdx : List α
  hrowIdx : List α
  hcolIdx : List α
  chunk : Nat
  tieData : List (Mat α)
  kx : Nat
  ky : Nat

/-- `_extrapolate_cols` (lines 99-123) -/
def extrapolateCols (st : Interp α) (data : Mat α) (first last : Bool) : Except Err (Mat α) := do
  let firstColumn ← (if first then do
      let pos := st.colIdx.take 2
      let c0 ← data.mapM (fun r => idx r 0)
      let c1 ← data.mapM (fun r => idx r 1)
      let h ← idx st.hcolIdx 0
      linearExtrapolate pos [c0, c1] h
    else .ok [])
  let lastColumn ← (if last then do
      let pos := lastTwo st.colIdx
      let c0 ← data.mapM (fun r => idxEnd r 2)
      let c1 ← data.mapM (fun r => idxEnd r 1)
      let h ← idxEnd st.hcolIdx 1
      linearExtrapolate pos [c0, c1] h
    else .ok [])
  if first && last then
    .ok (List.zipWith (fun f rl => f :: rl) firstColumn (List.zipWith (fun r l => r ++ [l]) data lastColumn))
  else if first then .ok (List.zipWith (fun f r => f :: r) firstColumn data)
  else if last then .ok (List.zipWith (fun r l => r ++ [l]) data lastColumn)
  else .ok data

/-- `_fill_col_borders` (lines 125-145) -/
def fillCols (st : Interp α) : Except Err (Interp α) := do
  let c0 ← idx st.colIdx 0
  let h0 ← idx st.hcolIdx 0
  let c1 ← idxEnd st.colIdx 1
  let h1 ← idxEnd st.hcolIdx 1
  let first := !Arith.eq c0 h0
  let last := !Arith.eq c1 h1
  let data ← st.tieData.mapM (fun d => extrapolateCols st d first last)
  let cols :=
    if first && last then [h0] ++ st.colIdx ++ [h1]
    else if first then [h0] ++ st.colIdx
    else if last then st.colIdx ++ [h1]
    else st.colIdx
  .ok { st with tieData := data, colIdx := cols }

/-- `_extrapolate_rows` (lines 147-159) -/
def extrapolateRows (data : Mat α) (rowIdx : List α) (firstIndex lastIndex : α) : Except Err (Mat α) := do
  let d0 ← idx data 0
  let d1 ← idx data 1
  let firstRow ← linearExtrapolate (rowIdx.take 2) [d0, d1] firstIndex
  let e0 ← idxEnd data 2
  let e1 ← idxEnd data 1
  let lastRow ← linearExtrapolate (lastTwo rowIdx) [e0, e1] lastIndex
  .ok ([firstRow] ++ data ++ [lastRow])

/-- The tie rows of a chunk (lines 173-176): index and position of the tie rows with `lo <= position < hi`. -/
def tiesIn (rowIdx : List α) (lo hi : α) : List (Nat × α) :=
  ((List.range rowIdx.length).zip rowIdx).filter (fun p => Arith.le lo p.2 && Arith.lt p.2 hi)

/-- Contribution of one data array in one chunk (lines 178-186).  A single tie row: `np.argwhere(...).squeeze()` is
0-dimensional, `data[ties, :]` one-dimensional and slicing the 0-dimensional `tiepos` raises IndexError (data with at
least one column). -/
def chunkData (data : Mat α) (ties : List (Nat × α)) (hrowIdx : List α) (index chunk : Nat) : Except Err (Mat α) := do
  let toExtrapolate ← ties.mapM (fun t => idx data t.1)
  if ties.length = 1 then .error .indexError
  else if toExtrapolate.length > 0 then do
    let h0 ← idx hrowIdx index
    let h1 ← idx hrowIdx (index + chunk - 1)
    extrapolateRows toExtrapolate (ties.map (·.2)) h0 h1
  else .ok []

/-- One iteration of the chunk loop (lines 173-190): the rows appended for every data array, and the positions. -/
def rowChunk (st : Interp α) (chunk : Nat) (factor : α) (index : Nat) : Except Err (List (Mat α) × List α) := do
  let lo := Arith.ofInt index / factor
  let hi := Arith.ofInt (index + chunk : Nat) / factor
  let ties := tiesIn st.rowIdx lo hi
  let datas ← st.tieData.mapM (fun data => chunkData data ties st.hrowIdx index chunk)
  let h0 ← idx st.hrowIdx index
  let h1 ← idx st.hrowIdx (index + chunk - 1)
  .ok (datas, [h0] ++ ties.map (·.2) ++ [h1])

/-- `range(0, lines, step)`, `step ≥ 1` -/
def rangeStep (lines step : Nat) : List Nat := (List.range ((lines + step - 1) / step)).map (· * step)

/-- `np.vstack(tmp_data[num])` (line 193): ValueError if nothing was appended -/
def stackPart (parts : List (List (Mat α) × List α)) (num : Nat) : Except Err (Mat α) :=
  let m := (parts.map (fun p => p.1.getD num [])).flatten
  if m.isEmpty then .error .valueError else .ok m

/-- `_fill_row_borders` (lines 161-194) -/
def fillRows (st : Interp α) : Except Err (Interp α) := do
  let lines := st.hrowIdx.length
  let chunk := if st.chunk = 0 then lines else st.chunk
  if st.rowIdx.length = 0 then .error .zeroDivision else
  let factor : α := Arith.ofInt lines / Arith.ofInt st.rowIdx.length
  if chunk = 0 then .error .valueError else
  let parts ← (rangeStep lines chunk).mapM (rowChunk st chunk factor)
  let data ← (List.range st.tieData.length).mapM (stackPart parts)
  if parts.isEmpty then .error .valueError else
  .ok { st with tieData := data, rowIdx := (parts.map (·.2)).flatten }

/-- `cases[dim]` in `fill_borders` (lines 88-94) -/
def fillCase (dim : String) : Except Err (Interp α → Except Err (Interp α)) :=
  if dim = "y" then .ok fillRows else if dim = "x" then .ok fillCols else .error .nameError

/-- the loop `for fun in to_run: fun()` (lines 96-97): the outcome, and the state left behind -/
def runFills : List (Interp α → Except Err (Interp α)) → Interp α → Except Err Unit × Interp α
  | [], st => (.ok (), st)
  | f :: fs, st =>
    match f st with
    | .ok st' => runFills fs st'
    | .error e => (.error e, st)

/-- `fill_borders(*args)` (lines 85-97): the outcome, and the state left behind -/
def fillBorders (args : List String) (st : Interp α) : Except Err Unit × Interp α :=
  match args.mapM (fillCase (α := α)) with
  | .error e => (.error e, st)
  | .ok toRun => runFills toRun st

/-! ### splines -/

/-- A library of interpolating splines: `S k xs ys x` is the value at `x` of the spline of order `k` through the points
`(xs i, ys i)`. -/
abbrev SplLib (α : Type) := Nat → List α → List α → α → α

/-- `np.all(np.diff(x) > 0)` -/
def strictInc : List α → Bool
  | a :: b :: l => Arith.lt 0 (b - a) && strictInc (b :: l)
  | _ => true

/-- `np.all(np.diff(x) >= 0)` -/
def weakInc : List α → Bool
  | a :: b :: l => Arith.le 0 (b - a) && weakInc (b :: l)
  | _ => true

/-- Evaluation positions outside the tie positions are moved to the nearest tie position (FITPACK `bispev`). -/
def clamp (xs : List α) (x : α) : α :=
  match xs.head?, xs.getLast? with
  | some a, some b => if Arith.lt x a then a else if Arith.lt b x then b else x
  | _, _ => x

/-- `np.array_equal(a, b)` for vectors -/
def arrayEqual (a b : List α) : Bool := a.length == b.length && (List.zipWith Arith.eq a b).all id

/-- `RectBivariateSpline(rows, cols, data, s=0, kx, ky)(hrows, hcols, grid=True)` as used in `_interp` (lines 201-209):
checks of the positions (ValueError), then the spline along the columns in every row followed by the spline along the
rows. -/
def rectBivariate (S : SplLib α) (st : Interp α) (data : Mat α) : Except Err (Mat α) :=
  if strictInc st.rowIdx && strictInc st.colIdx && (data.length == st.rowIdx.length)
      && data.all (fun r => r.length == st.colIdx.length)
      && decide (st.kx < st.rowIdx.length) && decide (st.ky < st.colIdx.length)
      && weakInc st.hrowIdx && weakInc st.hcolIdx then
    .ok (st.hrowIdx.map (fun x => st.hcolIdx.map (fun y =>
      S st.kx st.rowIdx (data.map (fun row => S st.ky st.colIdx row (clamp st.colIdx y))) (clamp st.rowIdx x))))
  else .error .valueError

/-- `splrep(cols, row, k, s=0)` followed by `splev` at the fine columns (lines 221-223). -/
def splineRow (S : SplLib α) (st : Interp α) (row : List α) : Except Err (List α) :=
  if row.length ≠ st.colIdx.length then .error .typeError
  else if ¬ st.ky < st.colIdx.length then .error .typeError
  else if strictInc st.colIdx then .ok (st.hcolIdx.map (S st.ky st.colIdx row))
  else .error .valueError

/-- `_interp1d` (lines 211-223), one data array; for the element type see Verif.Model.GridDType -/
def interp1d (S : SplLib α) (st : Interp α) (data : Mat α) : Except Err (Mat α) :=
  (List.range st.hrowIdx.length).mapM (fun cnt => do
    let row ← idx data cnt
    splineRow S st row)

/-- `_interp` and `interpolate` (lines 196-229): `new_data` -/
def interpolate (S : SplLib α) (st : Interp α) : Except Err (List (Mat α)) :=
  if arrayEqual st.hrowIdx st.rowIdx then st.tieData.mapM (interp1d S st)
  else st.tieData.mapM (rectBivariate S st)

/-- The first-order spline: straight lines between consecutive points; the first and last ones are continued. -/
def linSeg : List α → List α → α → α
  | x0 :: x1 :: xs, y0 :: y1 :: ys, x =>
    if xs.isEmpty || Arith.lt x x1 then (x1 - x) / (x1 - x0) * y0 + (x - x0) / (x1 - x0) * y1
    else linSeg (x1 :: xs) (y1 :: ys) x
  | _, [y], _ => y
  | _, _, x => x

end Verif.Interpolator
