import Verif.Model.ModisSimple
import Verif.Spec.Modis
import Verif.Spec.ModisSimple

/-!
Runs the closed pixel formulas over `Float` on the whole of `testdata/modis_test_data.h5` and prints the largest distance
from the expected positions; in parentheses the limits of the tests of the repository. The data are float32; the second figure rounds the results to float32,
as storing them in the repository's result arrays does (the rounding of its intermediate float32 arrays is not imitated).
-/

namespace Verif.Tests.ModisData
open Verif Verif.Modis

def load (p : String) : IO FloatArray := do
  let s ← IO.FS.readFile p
  let mut a := FloatArray.empty
  for t in s.splitOn " " do
    a := a.push ((Float.ofInt t.toInt!) / 1e12)
  return a

def at' (a : FloatArray) (w : Nat) (i j : Nat) : Float := a.get! (i * w + j)

/-- distance on the WGS84 ellipsoid, from the radii of curvature at the mean latitude (points at most some kilometres apart) -/
def dist (lo1 la1 lo2 la2 : Float) : Float :=
  let r := 3.14159265358979323846 / 180
  let p := (la1 + la2) / 2 * r
  let e2 := 0.00669437999014
  let w := 1 - e2 * Float.sin p ^ 2
  let n := 6378137 / Float.sqrt w
  let m := n * (1 - e2) / w
  let dl := lo1 - lo2
  let dl := if dl > 180 then dl - 360 else if dl < -180 then dl + 360 else dl
  Float.sqrt ((m * (la1 - la2) * r) ^ 2 + (n * Float.cos p * dl * r) ^ 2)

def compare' (name : String) (rows cols : Nat) (p : Nat → Nat → Float × Float) (lon lat : Nat → Nat → Float) (rs cs : Nat) : IO Unit := do
  let mut m := 0.0
  let mut m32 := 0.0
  let mut wr := (0,0)
  let mut nan := 0
  for r' in [0:rows / rs] do
    let r := r' * rs
    for c' in [0:cols / cs] do
      let c := c' * cs + c' % cs
      let q := p r c
      let d := dist q.1 q.2 (lon r c) (lat r c)
      if d.isNaN then nan := nan + 1
      let d32 := dist q.1.toFloat32.toFloat q.2.toFloat32.toFloat (lon r c) (lat r c)
      if d32 > m32 then m32 := d32
      if d > m then m := d; wr := (r,c)
  IO.println s!"{name}: max distance {m} m at {wr}, nan {nan}; with the result rounded to float32 {m32} m"

def bil : ModisSimple.MapCoord Float := fun rows cols v y x =>
  let g := fun (a b : Nat) => if h : a < rows ∧ b < cols then v ⟨a, h.1⟩ ⟨b, h.2⟩ else 0
  let cl := fun (n : Nat) (z : Float) => if z < 0 then 0 else if z > Float.ofNat (n - 1) then Float.ofNat (n - 1) else z
  let y := cl rows y
  let x := cl cols x
  let i := min y.floor.toUInt64.toNat (rows - 2)
  let j := min x.floor.toUInt64.toNat (cols - 2)
  let t := y - Float.ofNat i
  let s := x - Float.ofNat j
  (1 - t) * ((1 - s) * g i j + s * g i (j+1)) + t * ((1 - s) * g (i+1) j + s * g (i+1) (j+1))

/-- Not run by the build; see `fidelity/dump.py`. -/
def main (args : List String) : IO Unit := do
  let d := args.headD "." ++ "/"
  let lon1 ← load (d ++ "lon_1km.txt"); let lat1 ← load (d ++ "lat_1km.txt"); let sz1 ← load (d ++ "satz_1km.txt")
  let lon5 ← load (d ++ "lon_500m.txt"); let lat5 ← load (d ++ "lat_500m.txt")
  let lon2 ← load (d ++ "lon_250m.txt"); let lat2 ← load (d ++ "lat_250m.txt")
  let a := at' lon1 1354; let b := at' lat1 1354; let z := at' sz1 1354
  let c1 (f : Nat) : Cfg := { len := 10, width := 1354, perKm := 1, f := f, fineWidth := 1354 * f, factor5 := f * 2 }
  compare' "1km->500m (5)" 40 2708 (Spec.Modis.pixel (c1 2) a b z) (at' lon5 2708) (at' lat5 2708) 1 1
  compare' "1km->250m (8.3)" 80 5416 (Spec.Modis.pixel (c1 4) a b z) (at' lon2 5416) (at' lat2 5416) 1 1
  let sub (f : Nat → Nat → Float) : Nat → Nat → Float := fun i j => f (2 + 5 * i) (2 + 5 * j)
  let c5 (k w : Nat) : Cfg := { len := 2, width := w, perKm := 5, f := k * 5, fineWidth := 1354 * k, factor5 := k * 2 }
  compare' "5km->1km (25)" 20 1354 (Spec.Modis.pixel (c5 1 271) (sub a) (sub b) (sub z)) a b 1 1
  compare' "5km->1km 270 (110)" 20 1354 (Spec.Modis.pixel (c5 1 270) (sub a) (sub b) (sub z)) a b 1 1
  compare' "5km->500m (19500)" 40 2708 (Spec.Modis.pixel (c5 2 271) (sub a) (sub b) (sub z)) (at' lon5 2708) (at' lat5 2708) 1 1
  compare' "5km->250m (25800)" 80 5416 (Spec.Modis.pixel (c5 4 271) (sub a) (sub b) (sub z)) (at' lon2 5416) (at' lat2 5416) 1 1
  compare' "simple 500 (16)" 40 2708 (Spec.ModisSimple.pixel bil 2 1354 a b) (at' lon5 2708) (at' lat5 2708) 1 1
  compare' "simple 250 (27.35)" 80 5416 (Spec.ModisSimple.pixel bil 4 1354 a b) (at' lon2 5416) (at' lat2 5416) 1 1

end Verif.Tests.ModisData
