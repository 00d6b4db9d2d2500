import Verif.Base.Arith

/-!
# Coordinate conversions

Models of the three copies of the lon/lat <-> cartesian conversion.  The numpy functions act element by
element on arrays; the model is the action on one element (simplification: broadcasting of different
shapes is not modelled).
-/

namespace Verif.Geo
open Verif
variable {α : Type} [Trig α]

/-- `np.deg2rad` (geointerpolator.py:54-55): `x * (pi / 180)`. -/
def deg2rad (x : α) : α := x * (Trig.pi / 180)

/-- `np.rad2deg` (geointerpolator.py:64-65): `x * (180 / pi)`; also `rad2deg` (_modis_utils.pyx:72-73), which the code only
calls with `double` arguments, so that its result is not rounded to another type. -/
def rad2deg (x : α) : α := x * (180 / Trig.pi)

/-- `EARTH_RADIUS = 6370997.0` (geointerpolator.py:7, __init__.py:12, _modis_utils.pyx:23). -/
def earthRadius : α := Arith.lit 63709970 1

/-- `MEAN_EARTH_RADIUS = 6371008.7714` (viiinterpolator.py:20). -/
def meanEarthRadius : α := Arith.lit 63710087714 4

/-- the default threshold `thr=0.8` (geointerpolator.py:62, viiinterpolator.py:86). -/
def defaultThr : α := Arith.lit 8 1

/-- the default threshold `floating thr=0.8` (_modis_utils.pyx:48). -/
def cyThr : α := Trig.toFloating (Arith.lit 8 1)

/-- `lonlat2xyz` (geointerpolator.py:52-59), one element; also `_lonlat2xyz` (viiinterpolator.py:137-153) with
`radius = MEAN_EARTH_RADIUS`: the same expression. -/
def lonlat2xyz (radius lon lat : α) : α × α × α :=
  let lonRad := deg2rad lon
  let latRad := deg2rad lat
  (radius * Trig.cos latRad * Trig.cos lonRad,
   radius * Trig.cos latRad * Trig.sin lonRad,
   radius * Trig.sin latRad)

/-- the Cython `deg2rad` (_modis_utils.pyx:76-77): computed as `double`, returned as `floating` -/
def cyDeg2rad (x : α) : α := Trig.toFloating (x * (Trig.pi / 180))

/-- Loop body of the Cython `lonlat2xyz` (_modis_utils.pyx:36-40), one element: `lon_rad`, `lat_rad` and `xyz` are
`floating`, libc's functions and the constants are `double`. -/
def cyLonlat2xyz (radius lon lat : α) : α × α × α :=
  let lonRad := cyDeg2rad lon
  let latRad := cyDeg2rad lat
  (Trig.toFloating (radius * Trig.cos latRad * Trig.cos lonRad),
   Trig.toFloating (radius * Trig.cos latRad * Trig.sin lonRad),
   Trig.toFloating (radius * Trig.sin latRad))

/-- `xyz2lonlat` (geointerpolator.py:62-75), one element.  `x ** 2` is written `x * x`. -/
def xyz2lonlat (radius thr : α) (lowLatZ : Bool) (p : α × α × α) : α × α :=
  let x := p.1
  let y := p.2.1
  let z := p.2.2
  let lons := rad2deg (Trig.acos (x / Trig.sqrt (x * x + y * y))) * asign y
  let lats := asign z * (90 - rad2deg (Trig.asin (Trig.sqrt (x * x + y * y) / radius)))
  let lats :=
    if lowLatZ then
      let normalizedZ := z / radius
      let latMaskCond := Arith.lt (aabs normalizedZ) thr
      let latZOnly := 90 - rad2deg (Trig.acos normalizedZ)
      if latMaskCond then latZOnly else lats
    else lats
  (lons, lats)

/-- `_sign` (_modis_utils.pyx:68-69): the C int 1, -1 or 0 (0 also for NaN), converted to floating. -/
def csign (x : α) : α :=
  if Arith.lt 0 x then 1 else if Arith.lt x 0 then -1 else 0

/-- Loop body of the Cython `xyz2lonlat` (_modis_utils.pyx:55-65), one element: `x`, `y`, `z` are `double`; the results are
assigned to arrays of `floating`. -/
def cyXyz2lonlat (radius thr : α) (lowLatZ : Bool) (p : α × α × α) : α × α :=
  let x := Trig.toDouble p.1
  let y := Trig.toDouble p.2.1
  let z := Trig.toDouble p.2.2
  let lon := rad2deg (Trig.acos (x / Trig.sqrt (x * x + y * y))) * csign y
  let lat :=
    if lowLatZ && Arith.lt z (thr * radius) && Arith.lt (-1 * thr * radius) z then
      90 - rad2deg (Trig.acos (z / radius))
    else
      csign z * (90 - rad2deg (Trig.asin (Trig.sqrt (x * x + y * y) / radius)))
  (Trig.toFloating lon, Trig.toFloating lat)

/-- `_xyz2lonlat` (viiinterpolator.py:156-178), one element. -/
def viiXyz2lonlat (radius thr : α) (p : α × α × α) : α × α :=
  let x := p.1
  let y := p.2.1
  let z := p.2.2
  let r := Trig.sqrt (x * x + y * y)
  let thrZ := thr * radius
  let lon := rad2deg (Trig.acos (x / r)) * asign y
  let lat :=
    if Arith.lt z thrZ && Arith.lt (-thrZ) z then
      90 - rad2deg (Trig.acos (z / radius))
    else
      asign z * (90 - rad2deg (Trig.asin (r / radius)))
  (lon, lat)

end Verif.Geo
