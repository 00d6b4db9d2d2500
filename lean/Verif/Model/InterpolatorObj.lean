import Verif.Model.Interpolator

/-!
# `Interpolator` objects over time (interpolator.py:54-229)

`interpolate` returns the attribute `new_data`, a list that every later call changes in place.  A caller who kept the result of
an earlier call therefore sees the present content of that list.  An entry `[]` of the new list (line 82) is a matrix without rows.
-/

namespace Verif.Interpolator
open Verif
variable {α : Type} [Arith α]

/-- the attributes, and the list `new_data` -/
structure IObj (α : Type) where
  st : Interp α
  newData : List (Mat α)

/-- `__init__` (lines 69-83) -/
def IObj.init (st : Interp α) : IObj α := ⟨st, st.tieData.map (fun _ => [])⟩

/-- loops `for num, data in enumerate(self.tie_data)` storing in `self.new_data[num]` (lines 201-209, 215-223): the outcome and
the list left behind; `f` computes one array, `left` is the entry left by a failing computation -/
def storeAll (f : Mat α → Except Err (Mat α)) (left : Mat α → Mat α → Mat α) : List (Mat α) → List (Mat α) → Except Err Unit × List (Mat α)
  | d :: ds, old :: olds =>
    match f d with
    | .error e => (.error e, left d old :: olds)
    | .ok m => let r := storeAll f left ds olds; (r.1, m :: r.2)
  | [], olds => (.ok (), olds)
  | _ :: _, [] => (.error .indexError, [])

/-- `new_data[num]` if row `k` of a one-dimensional interpolation fails (lines 216-223): the rows before, then the content of
`np.empty` -/
def leftRows (S : SplLib α) (st : Interp α) (junk : Nat → List α) (d : Mat α) : Mat α :=
  let row : Nat → Except Err (List α) := fun cnt => do splineRow S st (← idx d cnt)
  let done := ((List.range st.hrowIdx.length).map row).takeWhile Except.toBool
  (List.range st.hrowIdx.length).map (fun cnt => match done[cnt]? with
    | some (Except.ok r) => r
    | _ => junk cnt)

/-- `_fill_col_borders` (lines 125-145): the outcome and the object left behind; the tie arrays are replaced one by one, then the
positions -/
def fillColsL (st : Interp α) : Except Err Unit × Interp α :=
  match (do
      let c0 ← idx st.colIdx 0
      let h0 ← idx st.hcolIdx 0
      let c1 ← idxEnd st.colIdx 1
      let h1 ← idxEnd st.hcolIdx 1
      .ok (c0, h0, c1, h1) : Except Err (α × α × α × α)) with
  | .error e => (.error e, st)
  | .ok (c0, h0, c1, h1) =>
    let first := !Arith.eq c0 h0
    let last := !Arith.eq c1 h1
    let r := storeAll (fun d => extrapolateCols st d first last) (fun _ old => old) st.tieData st.tieData
    match r.1 with
    | .error e => (.error e, { st with tieData := r.2 })
    | .ok () =>
      let cols :=
        if first && last then [h0] ++ st.colIdx ++ [h1]
        else if first then [h0] ++ st.colIdx
        else if last then st.colIdx ++ [h1]
        else st.colIdx
      (.ok (), { st with tieData := r.2, colIdx := cols })

/-- the loop `for num in range(len(self.tie_data))` (lines 192-193) from `num` on: the outcome and the arrays left behind -/
def storeRows (f : Nat → Except Err (Mat α)) : Nat → List (Mat α) → Except Err Unit × List (Mat α)
  | _, [] => (.ok (), [])
  | num, old :: olds =>
    match f num with
    | .error e => (.error e, old :: olds)
    | .ok m => let r := storeRows f (num + 1) olds; (r.1, m :: r.2)

/-- `_fill_row_borders` (lines 161-194): the outcome and the object left behind -/
def fillRowsL (st : Interp α) : Except Err Unit × Interp α :=
  let lines := st.hrowIdx.length
  let chunk := if st.chunk = 0 then lines else st.chunk
  if st.rowIdx.length = 0 then (.error .zeroDivision, st) else
  let factor : α := Arith.ofInt lines / Arith.ofInt st.rowIdx.length
  if chunk = 0 then (.error .valueError, st) else
  match (rangeStep lines chunk).mapM (rowChunk st chunk factor) with
  | .error e => (.error e, st)
  | .ok parts =>
    let r := storeRows (stackPart parts) 0 st.tieData
    match r.1 with
    | .error e => (.error e, { st with tieData := r.2 })
    | .ok () =>
      if parts.isEmpty then (.error .valueError, { st with tieData := r.2 }) else
      (.ok (), { st with tieData := r.2, rowIdx := (parts.map (·.2)).flatten })

/-- `cases[dim]` (lines 88-94) -/
def fillCaseL (dim : String) : Except Err (Interp α → Except Err Unit × Interp α) :=
  if dim = "y" then .ok fillRowsL else if dim = "x" then .ok fillColsL else .error .nameError

/-- the loop `for fun in to_run: fun()` (lines 96-97) -/
def runFillsL : List (Interp α → Except Err Unit × Interp α) → Interp α → Except Err Unit × Interp α
  | [], st => (.ok (), st)
  | f :: fs, st =>
    match f st with
    | (.ok (), st') => runFillsL fs st'
    | (.error e, st') => (.error e, st')

/-- `fill_borders(*args)` (lines 85-97): the outcome and the object left behind, also by a fill that fails on the way.
`Verif.Interpolator.fillBorders` differs in the arrays a failing fill leaves. -/
def fillBordersL (args : List String) (st : Interp α) : Except Err Unit × Interp α :=
  match args.mapM (fillCaseL (α := α)) with
  | .error e => (.error e, st)
  | .ok toRun => runFillsL toRun st

/-- what a caller does -/
inductive IOp where
  | fill (args : List String)
  | interpolate

/-- one operation: the object left behind and the outcome (`interpolate` returns the list) -/
def istep (S : SplLib α) (junk : Nat → List α) (o : IObj α) : IOp → IObj α × Except Err Unit
  | .fill args => let r := fillBordersL args o.st; (⟨r.2, o.newData⟩, r.1)
  | .interpolate =>
    if arrayEqual o.st.hrowIdx o.st.rowIdx then
      let r := storeAll (interp1d S o.st) (fun d _ => leftRows S o.st junk d) o.st.tieData o.newData
      (⟨o.st, r.2⟩, r.1)
    else
      let r := storeAll (rectBivariate S o.st) (fun _ old => old) o.st.tieData o.newData
      (⟨o.st, r.2⟩, r.1)

/-- the object after a history -/
def irun (S : SplLib α) (junk : Nat → List α) (o : IObj α) (ops : List IOp) : IObj α :=
  ops.foldl (fun o p => (istep S junk o p).1) o

end Verif.Interpolator
