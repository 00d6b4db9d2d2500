import Verif.Model.ModisUtils

/-!
# `_modis_interpolator.pyx`: MODIS interpolation with the satellite zenith angle

Imperative model: buffers are explicit, work arrays are shared between scans as in the code, `np.empty` content is
the argument `junk`.  Differences of C integers that may be negative (`shape - 1`, ...) are natural-number
differences here: whenever the C value would be negative the access that uses it is out of bounds in both.
Simplifications: conversions between `float32` and `float64` are `Trig.toFloating` and `Trig.toDouble`, the identity except in
mixed precision arithmetic (`Verif.Base.Mx`); C `int` overflow of sizes is not modelled;
`np.ascontiguousarray` is the identity.
-/

namespace Verif.Modis
open Verif
variable {α : Type} [Trig α]

/-- The fields of `MODISInterpolator` (_modis_interpolator.pyx:100-108) used later. -/
structure Cfg where
  len : Nat
  width : Nat
  perKm : Nat
  f : Nat
  fineWidth : Nat
  factor5 : Nat
deriving DecidableEq, Repr

/-- `MODISInterpolator.__cinit__` (_modis_interpolator.pyx:110-128); fields not assigned are 0; C division by zero
is undefined behaviour (`cdivision=True`). -/
def mkCfg (coarse fine width : Nat) : Except Err Cfg :=
  let len := if coarse = 1000 then 10 else if coarse = 5000 then 2 else 0
  let w := if coarse = 1000 then 1354 else if coarse = 5000 then (if width = 0 then 271 else width) else 0
  let perKm := coarse / 1000
  if fine = 0 then .error .ub else
  let finePerKm := 1000 / fine
  let f := finePerKm * perKm
  if perKm = 0 then .error .ub else
  .ok { len := len, width := w, perKm := perKm, f := f, fineWidth := 1354 * finePerKm,
        factor5 := f / perKm * 2 }

/-- `DEF R = 6370.997` (line 10) -/
def satR : α := Arith.lit 6370997 3
/-- `DEF H = 709.0` (line 12) -/
def satH : α := Arith.lit 7090 1

/-- `_compute_phi` (lines 73-74) -/
def computePhi (zeta : α) : α := Trig.toFloating (Trig.asin (satR * Trig.sin zeta / (satR + satH)))
/-- `_compute_theta` (lines 77-78) -/
def computeTheta (zeta phi : α) : α := zeta - phi
/-- `_compute_zeta` (lines 81-82) -/
def computeZeta (phi : α) : α := Trig.toFloating (Trig.asin ((satR + satH) * Trig.sin phi / satR))

/-- Body of the loop of `_compute_expansion_alignment` (lines 52-70): the pair (expansion, alignment).  All variables
and the arrays are `floating`; the conversion is written where the expression is `double`. -/
def expansionAlignment (scanWidth : Nat) (satzA satzB : α) : α × α :=
  let aRad := Geo.cyDeg2rad satzA
  let bRad := Geo.cyDeg2rad satzB
  let phiA := computePhi aRad
  let phiB := computePhi bRad
  let thetaA := computeTheta aRad phiA
  let thetaB := computeTheta bRad phiB
  let phi := (phiA + phiB) / 2
  let zeta := computeZeta phi
  let theta := computeTheta zeta phi
  let denominator := if Arith.eq thetaA thetaB then thetaA * 2 else thetaA - thetaB
  let cExp := 4 * (((thetaA + thetaB) / 2 - theta) / denominator)
  let sinBeta2 : α := Trig.toFloating (Arith.ofInt scanWidth / (2 * satH))
  let d := Trig.toFloating (((satR + satH) / satR * Trig.cos phi - Trig.cos zeta) * sinBeta2)
  let e := Trig.toFloating (Trig.cos zeta - Trig.sqrt (Trig.cos zeta * Trig.cos zeta - d * d))
  let cAli := Trig.toFloating (4 * e * Trig.sin zeta / denominator)
  (cExp, cAli)

/-- `_compute_expansion_alignment` (lines 41-70); the outputs are the views `[:r, :c]` of the work arrays. -/
def computeExpansionAlignment (satzA satzB : Arr2 α) (scanWidth r c : Nat) (out : Arr2 α × Arr2 α) :
    Except Err (Arr2 α × Arr2 α) :=
  loop2 satzA.rows satzA.cols (fun i j out => do
    let a ← satzA.rd i j
    let b ← satzB.rd i j
    let ea := expansionAlignment scanWidth a b
    let e ← out.1.wrTopLeft r c i j ea.1
    let l ← out.2.wrTopLeft r c i j ea.2
    .ok (e, l)) out

/-- `_get_coords_1km` along track (lines 218-226): `y[fine_idx]`. -/
def coordY1km (cfg : Cfg) (i : Nat) : α :=
  let half := cfg.f / 2
  let n := cfg.len * cfg.f
  if i < half then Arith.lit 5 1 + Arith.ofInt i - Arith.ofInt half
  else if n - half ≤ i then (Arith.ofInt cfg.f + Arith.lit 5 1) + Arith.ofInt ((half : Int) - ((n : Int) - i))
  else Arith.ofInt (((i + half) % cfg.f : Nat) : Int) + Arith.lit 5 1

/-- across track for 1 km (lines 200 and 228-229): `arange(width) % f`, the last `f` entries overwritten with
`f + i`. -/
def coordX1km (cfg : Cfg) (i : Nat) : α :=
  if cfg.fineWidth - cfg.f ≤ i then Arith.ofInt (cfg.f + (i - (cfg.fineWidth - cfg.f)) : Nat)
  else Arith.ofInt ((i % cfg.f : Nat) : Int)

/-- `_get_coords_5km` along track (line 233). -/
def coordY5km (i : Nat) : α := Arith.ofInt ((i : Int) - 2)

/-- `_get_coords_5km` across track (lines 234-248): Python `%`, then the fixed entries, negative indices from the
end. -/
def coordX5km (cfg : Cfg) (i : Nat) : α :=
  let w := cfg.fineWidth
  if cfg.width = 271 then
    if i + 1 = w then 6 else if i + 2 = w then 5
    else if i = 1 then Arith.ofInt (-1) else if i = 0 then Arith.ofInt (-2)
    else Arith.ofInt (((i : Int) - 2) % (cfg.f : Int))
  else
    if w ≤ i + 7 ∧ i < w then Arith.ofInt ((i + 12 : Nat) - w : Int)
    else if i = 1 then Arith.ofInt (-1) else if i = 0 then Arith.ofInt (-2)
    else Arith.ofInt (((i : Int) - 2) % (cfg.f : Int))

/-- `_get_coords` (lines 196-208): the arrays `x`, `y` of `float32`.  `interpolate` assigns them to buffers of
`floating` (lines 147-148), so `floating` is `float32` whenever the function gets past this point. -/
def getCoords (cfg : Cfg) : Arr1 α × Arr1 α :=
  if cfg.len = 10 then
    (⟨cfg.fineWidth, fun i => Trig.toFloating (coordX1km cfg i)⟩, ⟨cfg.len * cfg.f, fun i => Trig.toFloating (coordY1km cfg i)⟩)
  else
    (⟨cfg.fineWidth, fun i => Trig.toFloating (coordX5km cfg i)⟩, ⟨cfg.f * cfg.len, fun i => Trig.toFloating (coordY5km i)⟩)

/-- `_expand_tiepoint_array_1km_with_repeat` (lines 487-500) and `_expand_tiepoint_array_5km_with_repeat`
(lines 581-593): write `v` on the rectangle of height `h`, width `w` at `(ro, co)`. -/
def fillRect (h w : Nat) (v : α) (arr : Arr2 α) (ro co : Nat) : Except Err (Arr2 α) :=
  loop2 h w (fun i j arr => arr.wr (ro + i) (co + j) v) arr

/-- `_expand_tiepoint_array_1km_main` (lines 414-438) -/
def expand1kmMain (cfg : Cfg) (inp arr : Arr2 α) : Except Err (Arr2 α) := do
  let arr ← loop2 inp.rows inp.cols (fun r c arr => do
    let v ← inp.rd r c
    fillRect cfg.f cfg.f v arr (r * cfg.f + cfg.f / 2) (c * cfg.f)) arr
  let arr ← loop inp.cols (fun c arr => do
    let v ← inp.rd 0 c
    fillRect cfg.f cfg.f v arr (0 * cfg.f) (c * cfg.f)) arr
  let r := inp.rows - 1
  loop inp.cols (fun c arr => do
    let v ← inp.rd r c
    fillRect cfg.f cfg.f v arr (r * cfg.f + cfg.f) (c * cfg.f)) arr

/-- `_expand_tiepoint_array_1km_right_column` (lines 440-485) with its top and bottom rows. -/
def expand1kmRight (cfg : Cfg) (inp arr : Arr2 α) : Except Err (Arr2 α) := do
  let c := inp.cols - 1
  let co := c * cfg.f + cfg.f
  let arr ← loop inp.rows (fun r arr => do
    let v ← inp.rd r c
    fillRect cfg.f cfg.f v arr (r * cfg.f + cfg.f / 2) co) arr
  let v ← inp.rd 0 c
  let arr ← fillRect cfg.f cfg.f v arr (0 * cfg.f) co
  let r := inp.rows - 1
  let v ← inp.rd r c
  fillRect cfg.f cfg.f v arr (r * cfg.f + cfg.f) co

/-- `_expand_tiepoint_array_5km_main` (lines 509-522) -/
def expand5kmMain (cfg : Cfg) (inp arr : Arr2 α) : Except Err (Arr2 α) :=
  loop2 inp.rows inp.cols (fun r c arr => do
    let v ← inp.rd r c
    fillRect (cfg.f * 2) cfg.f v arr (r * cfg.f * 2) (c * cfg.f + cfg.factor5)) arr

/-- `_expand_tiepoint_array_5km_270_extra_column` (lines 524-542) -/
def expand5kmExtra (cfg : Cfg) (inp arr : Arr2 α) : Except Err (Arr2 α) :=
  let c := inp.cols - 1
  loop inp.rows (fun r arr => do
    let v ← inp.rd r c
    fillRect (cfg.f * 2) cfg.f v arr (r * cfg.f * 2) (c * cfg.f + cfg.f + cfg.factor5)) arr

/-- `_expand_tiepoint_array_5km_edges` (lines 562-579) -/
def expand5kmEdges (cfg : Cfg) (inp arr : Arr2 α) (c co : Nat) : Except Err (Arr2 α) :=
  loop inp.rows (fun r arr => do
    let v ← inp.rd r c
    fillRect (cfg.f * 2) cfg.factor5 v arr (r * cfg.f * 2) co) arr

/-- `_expand_tiepoint_array` (lines 400-408), `_1km` (410-412), `_5km` (502-507), `_5km_left` (544-549),
`_5km_right` (551-560). -/
def expand (cfg : Cfg) (inp arr : Arr2 α) : Except Err (Arr2 α) :=
  if cfg.len = 10 then do
    let arr ← expand1kmMain cfg inp arr
    expand1kmRight cfg inp arr
  else do
    let arr ← expand5kmMain cfg inp arr
    let arr ← expand5kmEdges cfg inp arr 0 0
    let arr ← (if cfg.width = 270 then expand5kmExtra cfg inp arr else .ok arr)
    expand5kmEdges cfg inp arr (inp.cols - 1) (arr.cols - cfg.factor5)

/-- `a_scan` of one pixel (lines 341-344): the pair `(a_track, a_scan)`. -/
def atrackAscan (f : Nat) (x y cExp cAli : α) : α × α :=
  let ss := x / Arith.ofInt f
  let st := y / Arith.ofInt f
  (st, ss + ss * (1 - ss) * cExp + st * (1 - st) * cAli)

/-- `_calculate_atrack_ascan` (lines 328-344) -/
def calculateAtrackAscan (cfg : Cfg) (x y : Arr1 α) (cExp cAli : Arr2 α) (out : Arr2 α × Arr2 α) :
    Except Err (Arr2 α × Arr2 α) :=
  loop2 y.len x.len (fun j i out => do
    let xi ← x.rd i
    let yj ← y.rd j
    let ce ← cExp.rd j i
    let ca ← cAli.rd j i
    let p := atrackAscan cfg.f xi yj ce ca
    let t ← out.1.wr j i p.1
    let s ← out.2.wr j i p.2
    .ok (t, s)) out

/-- The work arrays shared by all scans (lines 142-165) and the output arrays (168-169). -/
structure Bufs (α : Type) where
  aTrack : Arr2 α
  aScan : Arr2 α
  tmpA : Arr2 α
  tmpB : Arr2 α
  tmpC : Arr2 α
  tmpD : Arr2 α
  xyzCoarse : Arr3 α
  xyzFine : Arr3 α
  out : Arr2 α × Arr2 α

/-- `_get_atrack_ascan` (lines 295-326); `c_exp_coarse`, `c_ali_coarse` are the views
`tmp_fine_a[:len-1, :width-1]`, `tmp_fine_b[:len-1, :width-1]` (lines 282-283). -/
def getAtrackAscan (cfg : Cfg) (satz : Arr2 α) (x y : Arr1 α) (b : Bufs α) : Except Err (Bufs α) := do
  let satzA := satz.topLeft (satz.rows - 1) (satz.cols - 1)
  let satzB := (satz.topLeft (satz.rows - 1) satz.cols).from_ 0 1
  let ea ← computeExpansionAlignment satzA satzB cfg.perKm (cfg.len - 1) (cfg.width - 1) (b.tmpA, b.tmpB)
  let c ← expand cfg (ea.1.topLeft (cfg.len - 1) (cfg.width - 1)) b.tmpC
  let d ← expand cfg (ea.2.topLeft (cfg.len - 1) (cfg.width - 1)) b.tmpD
  let ts ← calculateAtrackAscan cfg x y c d (b.aTrack, b.aScan)
  .ok { b with tmpA := ea.1, tmpB := ea.2, tmpC := c, tmpD := d, aTrack := ts.1, aScan := ts.2 }

/-- one pixel of `_compute_fine_xyz_component` (lines 394-398) -/
def fineComponent (t s a b c d : α) : α :=
  let scan1 := (1 - s) * a + s * b
  let scan2 := (1 - s) * d + s * c
  (1 - t) * scan1 + t * scan2

/-- `_compute_fine_xyz_component` (lines 379-398) -/
def computeFineXyzComponent (aTrack aScan a b c d : Arr2 α) (k : Nat) (xyz : Arr3 α) : Except Err (Arr3 α) :=
  loop2 aScan.rows aScan.cols (fun i j xyz => do
    let t ← aTrack.rd i j
    let s ← aScan.rd i j
    let va ← a.rd i j
    let vb ← b.rd i j
    let vd ← d.rd i j
    let vc ← c.rd i j
    xyz.wr i j k (fineComponent t s va vb vc vd)) xyz

/-- `_compute_fine_xyz` (lines 346-377) -/
def computeFineXyz (cfg : Cfg) (b : Bufs α) : Except Err (Bufs α) :=
  loop 3 (fun k b => do
    let p := b.xyzCoarse.plane k
    let ta ← expand cfg (p.topLeft (p.rows - 1) (p.cols - 1)) b.tmpA
    let tb ← expand cfg ((p.topLeft (p.rows - 1) p.cols).from_ 0 1) b.tmpB
    let tc ← expand cfg (p.from_ 1 1) b.tmpC
    let td ← expand cfg ((p.topLeft p.rows (p.cols - 1)).from_ 1 0) b.tmpD
    let fine ← computeFineXyzComponent b.aTrack b.aScan ta tb tc td k b.xyzFine
    .ok { b with tmpA := ta, tmpB := tb, tmpC := tc, tmpD := td, xyzFine := fine }) b

/-- Body of the scan loop of `_interpolate_lons_lats` (lines 273-293). -/
def scanStep (cfg : Cfg) (lon lat satz : Arr2 α) (x y : Arr1 α) (s : Nat) (b : Bufs α) :
    Except Err (Bufs α) := do
  let lonsScan := lon.rowSlice (s * cfg.len) ((s + 1) * cfg.len)
  let latsScan := lat.rowSlice (s * cfg.len) ((s + 1) * cfg.len)
  let satzScan := satz.rowSlice (s * cfg.len) ((s + 1) * cfg.len)
  let b ← getAtrackAscan cfg satzScan x y b
  let xyz ← lonlat2xyzArr lonsScan latsScan b.xyzCoarse
  let b ← computeFineXyz cfg { b with xyzCoarse := xyz }
  let out ← xyz2lonlatArr b.xyzFine (s * cfg.len * cfg.f) ((s + 1) * cfg.len * cfg.f) b.out
  .ok { b with out := out }

/-- Fresh work arrays of `interpolate` (lines 140-169); `junk n` is the content of the `n`-th `np.empty`. -/
def initBufs (cfg : Cfg) (rows : Nat) (junk : Nat → Nat → Nat → Nat → α) : Bufs α :=
  let r := cfg.len * cfg.f
  let c := cfg.fineWidth
  { aTrack := ⟨r, c, junk 0 0⟩, aScan := ⟨r, c, junk 1 0⟩,
    tmpA := ⟨r, c, junk 2 0⟩, tmpB := ⟨r, c, junk 3 0⟩, tmpC := ⟨r, c, junk 4 0⟩, tmpD := ⟨r, c, junk 5 0⟩,
    xyzCoarse := ⟨cfg.len, cfg.width, 3, junk 6⟩, xyzFine := ⟨r, c, 3, junk 7⟩,
    out := (⟨rows * cfg.f, c, junk 8 0⟩, ⟨rows * cfg.f, c, junk 9 0⟩) }

/-- `MODISInterpolator.interpolate` (lines 130-194).  Undefined behaviour: the division by `_coarse_scan_length` (line 167) if it is 0,
and the writes `x[0]`, `x[1]`, ... of `_get_coords_5km` (lines 235-248, no bounds check) if there are no fine columns. -/
def interpolateCfg (cfg : Cfg) (lon lat satz : Arr2 α) (junk : Nat → Nat → Nat → Nat → α) :
    Except Err (Arr2 α × Arr2 α) :=
  if cfg.len = 0 ∨ (cfg.len ≠ 10 ∧ cfg.fineWidth < 2) then .error .ub else do
  let xy := getCoords cfg
  let b ← loop (satz.rows / cfg.len) (scanStep cfg lon lat satz xy.1 xy.2) (initBufs cfg satz.rows junk)
  .ok b.out

/-- `interpolate` (lines 17-38) on numpy arrays (the decorator passes them through, _modis_utils.pyx:122-127). -/
def interpolate (coarse fine width : Nat) (lon lat satz : Arr2 α) (junk : Nat → Nat → Nat → Nat → α) :
    Except Err (Arr2 α × Arr2 α) := do
  if coarse = 5000 ∧ ¬ (width = 0 ∨ width = 270 ∨ width = 271) then .error .notImplemented else
  let cfg ← mkCfg coarse fine width
  interpolateCfg cfg lon lat satz junk

/-- `modis_1km_to_250m` (modisinterpolator.py:21-25) on numpy arrays -/
def modis1kmTo250m (lon lat satz : Arr2 α) (junk) := interpolate 1000 250 0 lon lat satz junk
/-- `modis_1km_to_500m` (modisinterpolator.py:28-32) -/
def modis1kmTo500m (lon lat satz : Arr2 α) (junk) := interpolate 1000 500 0 lon lat satz junk
/-- `modis_5km_to_1km` (modisinterpolator.py:35-40) -/
def modis5kmTo1km (lon lat satz : Arr2 α) (junk) := interpolate 5000 1000 lon.cols lon lat satz junk
/-- `modis_5km_to_500m` (modisinterpolator.py:43-51); the warning is not modelled -/
def modis5kmTo500m (lon lat satz : Arr2 α) (junk) := interpolate 5000 500 lon.cols lon lat satz junk
/-- `modis_5km_to_250m` (modisinterpolator.py:54-62) -/
def modis5kmTo250m (lon lat satz : Arr2 α) (junk) := interpolate 5000 250 lon.cols lon lat satz junk

end Verif.Modis
