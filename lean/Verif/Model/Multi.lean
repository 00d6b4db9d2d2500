import Verif.Base.Arr

/-!
# The multi-core driver (__init__.py:15-26, 74-94)

Simplifications: arrays are lists of rows, and the numbers of columns of the pieces are not compared by `vstack`;
numbers of lines and cores are natural numbers; the creation of the worker processes does not fail.
-/

namespace Verif.Multi
open Verif

/-- Python's `range(a, b, step)` for naturals, `step ≥ 1` -/
def pyRange (a b step : Nat) : List Nat := (List.range ((b - a + step - 1) / step)).map (fun i => a + i * step)

/-- `get_scene_splits` (__init__.py:15-26) -/
def sceneSplits (nlinesSwath nlinesScan nCpus : Nat) : Except Err (List Nat) :=
  if nlinesScan = 0 then .error .zeroDivision else
  let nscans := nlinesSwath / nlinesScan
  if nscans < nCpus then
    let nlinesSubscene := 1 * nlinesScan
    .ok (pyRange nlinesSubscene nlinesSwath nlinesSubscene)
  else if nCpus = 0 then .error .zeroDivision
  else
    let nlinesSubscene := nscans / nCpus * nlinesScan
    if nlinesSubscene = 0 then .error .valueError
    else .ok (pyRange nlinesSubscene nlinesSwath nlinesSubscene)

variable {β γ : Type}

/-- `rows[a:b]` -/
def slice (rows : List β) (a b : Nat) : List β := (rows.take b).drop a

/-- `np.vsplit(rows, splits)` (numpy `array_split` with indices): the pieces between consecutive division points -/
def vsplit (rows : List β) (splits : List Nat) : List (List β) :=
  List.zipWith (slice rows) (0 :: splits) (splits ++ [rows.length])

/-- What a worker pool does with the tasks (lines 84-90): it works on the tasks of `sched` one after the other and stores
each outcome in the result object of the task. -/
def runPool (task : Nat → γ) : List Nat → (Nat → Option γ) → (Nat → Option γ)
  | [], store => store
  | i :: sched, store => runPool task sched (fun j => if j = i then some (task i) else store j)

/-- `res.get()` (line 92): the outcome of the task; without one the call would wait for ever (`ub`) -/
def getResult (store : Nat → Option (Except Err γ)) (i : Nat) : Except Err γ :=
  match store i with
  | some r => r
  | none => .error .ub

/-- `_multi` (__init__.py:74-94): `sched` is the order in which the workers finish the pieces. -/
def multi (fn : List β → List β → Except Err (List γ × List γ)) (lons lats : List β) (chunkSize cores : Nat)
    (sched : List Nat) : Except Err (List γ × List γ) := do
  let splits ← sceneSplits lons.length chunkSize cores
  let lonsParts := vsplit lons splits
  let latsParts := vsplit lats splits
  let store := runPool (fun i => fn (lonsParts.getD i []) (latsParts.getD i [])) sched (fun _ => none)
  let results ← (List.range lonsParts.length).mapM (getResult store)
  .ok ((results.map (·.1)).flatten, (results.map (·.2)).flatten)

end Verif.Multi
