import Verif.Model.ModisSimple
import Verif.Spec.Modis

/-!
# Specification of the simple MODIS interpolation: one pixel at a time

No buffers and no loops.
-/

namespace Verif.Spec.ModisSimple
open Verif Verif.ModisSimple Verif.Spec.Modis
variable {α : Type} [Trig α]

/-- number of columns extrapolated on the right, distance between the two rows used for the row extrapolation -/
def nRight (f : Nat) : Nat := if f = 4 then 3 else 1
def step (f : Nat) : Nat := if f = 4 then 3 else 1

/-- value of the library interpolation -/
def base (mc : MapCoord α) (f cols : Nat) (V : Nat → Nat → α) (j i : Nat) : α :=
  mc 10 cols (fun a b => V a b) (coordY f j) (coordX f i)

/-- with the last columns extrapolated -/
def right (mc : MapCoord α) (f cols : Nat) (V : Nat → Nat → α) (j i : Nat) : α :=
  let q := f * cols - nRight f
  if q ≤ i then
    base mc f cols V j i + (base mc f cols V j (q - 1) - base mc f cols V j (q - 2))
      * Arith.ofInt (((i - q : Nat) : Int) + 1)
  else base mc f cols V j i

/-- the straight line through rows `o` and `o + st` of column `i`, at row `j` -/
def line (f st o : Nat) (v : Nat → α) (j : Nat) : α :=
  let m : α := (v (o + st) - v o) / (coordY f (o + st) - coordY f o)
  m * coordY f j + (v (o + st) - m * coordY f (o + st))

/-- with the first and last rows extrapolated: one component of a fine pixel -/
def fine (mc : MapCoord α) (f cols : Nat) (V : Nat → Nat → α) (j i : Nat) : α :=
  if j < f / 2 then line f (step f) (f / 2) (fun r => right mc f cols V r i) j
  else if 10 * f - f / 2 ≤ j then line f (step f) (10 * f - f / 2 - step f - 1) (fun r => right mc f cols V r i) j
  else right mc f cols V j i

/-- longitude and latitude of fine pixel `(j, i)` of the scan whose first tie row is `i0` -/
def scanPixel (mc : MapCoord α) (f cols : Nat) (lon lat : Nat → Nat → α) (i0 j i : Nat) : α × α :=
  let c := fun k => fine mc f cols (fun a b => ties lon lat (i0 + a) b k) j i
  Geo.cyXyz2lonlat Geo.earthRadius Geo.cyThr true (c 0, c 1, c 2)

/-- longitude and latitude of the fine pixel `(r, c)` of the whole swath -/
def pixel (mc : MapCoord α) (f cols : Nat) (lon lat : Nat → Nat → α) (r c : Nat) : α × α :=
  scanPixel mc f cols lon lat (r / (10 * f) * 10) (r % (10 * f)) c

end Verif.Spec.ModisSimple
