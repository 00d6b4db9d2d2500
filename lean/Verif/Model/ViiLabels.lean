import Verif.Model.Vii

/-!
# VII geolocation of arrays with dimension names and coordinate labels (viiinterpolator.py:83-178)

`_lonlat2xyz` multiplies two `DataArray`s (lines 150-151).  xarray multiplies by dimension names, not by position: an operand
with the same names in another order is transposed; with other names the product has three or four dimensions.  Where both
operands have labels along a dimension and the labels differ, only the labels common to both are kept, in the order of the
first operand (inner join; labels that repeat are then an error).  `tie_points_interpolation` replaces the labels of its
arrays by positions (line 73), so that they have no other influence.

Simplifications: labels are values of any type `L` compared for equality; coordinates that do not belong to a dimension are
not modelled; the two names of an array are different.
-/

namespace Verif.Vii
open Verif Verif.Interpolator

variable {α L : Type}

/-- a `DataArray` with or without labels along each of its two dimensions -/
structure Labelled (α L : Type) where
  arr : DataArray α
  alt : Option (List L)
  act : Option (List L)

variable [Arith α]

/-- the element at row `i`, column `j` -/
def DataArray.elem (d : DataArray α) (i j : Nat) : α := (d.rows.getD i []).getD j 0

/-- rows and columns at given positions -/
def DataArray.take (d : DataArray α) (is js : List Nat) : DataArray α :=
  { dims := d.dims, cols := js.length, rows := is.map (fun i => js.map (fun j => d.elem i j)) }

/-- dimensions in the other order -/
def DataArray.transposed (d : DataArray α) : DataArray α :=
  { dims := d.dims.swap
    cols := d.rows.length
    rows := (List.range d.cols).map (fun j => (List.range d.rows.length).map (fun i => d.elem i j)) }

def Labelled.transposed (d : Labelled α L) : Labelled α L := ⟨d.arr.transposed, d.act, d.alt⟩

variable [DecidableEq L]

/-- alignment along one dimension of sizes `n` and `m`: the positions of the first and of the second operand used -/
def joinDim (a b : Option (List L)) (n m : Nat) : Option (List Nat × List Nat) :=
  match a, b with
  | some la, some lb =>
    if la = lb then some (List.range n, List.range m)
    else if la.Nodup ∧ lb.Nodup then
      let common := la.filter (fun x => decide (x ∈ lb))
      some (common.map (fun x => la.idxOf x), common.map (fun x => lb.idxOf x))
    else none
  | _, _ => if n = m then some (List.range n, List.range n) else none

/-- the operands of an arithmetic operation after alignment; `none` where xarray raises a ValueError, or where the result is
not two-dimensional -/
def align (a b : Labelled α L) : Option (DataArray α × DataArray α) := do
  let b ← if b.arr.dims = a.arr.dims then some b else if b.arr.dims = a.arr.dims.swap then some b.transposed else none
  let (ia, ib) ← joinDim a.alt b.alt a.arr.rows.length b.arr.rows.length
  let (ja, jb) ← joinDim a.act b.act a.arr.cols b.arr.cols
  some (a.arr.take ia ja, b.arr.take ib jb)

end Verif.Vii

namespace Verif.Vii
open Verif Verif.Interpolator
variable {α L : Type} [Trig α] [DecidableEq L]

/-- `z_coords` (line 152) -/
def zCoords (lat : DataArray α) : DataArray α :=
  { lat with rows := lat.rows.map (fun r => r.map (fun b => Geo.meanEarthRadius * Trig.sin (Geo.deg2rad b))) }

/-- `tie_points_geo_interpolation` (lines 83-134) -/
def geoLabelled (lon lat : Labelled α L) (scanTies factor : Nat) (latThr zThr : α) :
    Except Err (DataArray α × DataArray α) :=
  if lon.arr.shape ≠ lat.arr.shape then .error .valueError
  else if toCart lon.arr lat.arr latThr then
    match align lat lon with
    | none => .error .valueError
    | some (la, lo) =>
      match tiePointsInterpolation [cartesian (·.1) lo la, cartesian (·.2.1) lo la, zCoords lat.arr] scanTies factor with
      | .ok [x, y, z] => .ok (geodetic (·.1) zThr x y z, geodetic (·.2) zThr x y z)
      | .ok _ => .error .valueError
      | .error e => .error e
  else
    match tiePointsInterpolation [lon.arr, lat.arr] scanTies factor with
    | .ok [a, b] => .ok (a, b)
    | .ok _ => .error .valueError
    | .error e => .error e

end Verif.Vii
