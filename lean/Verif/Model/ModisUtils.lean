import Verif.Base.Arr
import Verif.Model.GeoConv

/-!
# Array loops of `_modis_utils.pyx`
-/

namespace Verif.Modis
open Verif
variable {α : Type} [Trig α]

/-- `rows_per_scan_for_resolution` (_modis_utils.pyx:80-86): a dict lookup. -/
def rowsPerScan (res : Nat) : Except Err Nat :=
  if res = 5000 then .ok 2 else if res = 1000 then .ok 10 else if res = 500 then .ok 20
  else if res = 250 then .ok 40 else .error .keyError

/-- `lonlat2xyz` (_modis_utils.pyx:26-40) on whole arrays: loops over `lons.shape`, writes `xyz`. -/
def lonlat2xyzArr (lons lats : Arr2 α) (xyz : Arr3 α) : Except Err (Arr3 α) :=
  loop2 lons.rows lons.cols (fun i j xyz => do
    let lon ← lons.rd i j
    let lat ← lats.rd i j
    let p := Geo.cyLonlat2xyz Geo.earthRadius lon lat
    let xyz ← xyz.wr i j 0 p.1
    let xyz ← xyz.wr i j 1 p.2.1
    xyz.wr i j 2 p.2.2) xyz

/-- `xyz2lonlat` (_modis_utils.pyx:43-65) on whole arrays, `low_lat_z=True`, `thr=0.8`; the outputs are the row
slices `[k0:k1]` of the result arrays (as in `_modis_interpolator.pyx:276-277,293` and
`_simple_modis_interpolator.pyx:63`). -/
def xyz2lonlatArr (xyz : Arr3 α) (k0 k1 : Nat) (out : Arr2 α × Arr2 α) : Except Err (Arr2 α × Arr2 α) :=
  loop2 xyz.rows xyz.cols (fun i j out => do
    let x ← xyz.rd i j 0
    let y ← xyz.rd i j 1
    let z ← xyz.rd i j 2
    let ll := Geo.cyXyz2lonlat Geo.earthRadius Geo.cyThr true (x, y, z)
    let lons ← out.1.wrRowSlice k0 k1 i j ll.1
    let lats ← out.2.wrRowSlice k0 k1 i j ll.2
    .ok (lons, lats)) out

end Verif.Modis
