import Verif.Base.Arith
import Verif.Base.Arr

/-!
# Multilinear interpolation: `multilinear_cython.pyx` and `multilinear.py`

The kernels are transcribed line by line.  C details:

* `cast` stands for the conversion `<int>x` of a floating point number: an arbitrary function, since the conversion of a
  number outside the range of `int`, or of NaN, is undefined in C (compiled code returns some integer);
* products and sums of `int` that leave the range of `int` are undefined behaviour (`ci`); the conversions of
  `long`/`Py_ssize_t` to `int` wrap around (`wrap32`);
* `smin`, `smax`, `orders`, `V` and `s` are read without bounds checks;
* the iterations of `prange` run in an arbitrary order: `reorder` permutes the list of iterations.  An iteration reads
  arrays nobody writes and writes one element.

Not modelled: `multilinear_interpolation_5d` (lines 271-392), which nothing calls; the `dtype` of the arrays; the
errors of Cython's buffer acquisition (arrays with another number of dimensions); overflow of `order - 1` for
`order = -2^31`.
-/

namespace Verif.Multilinear
open Verif
variable {α : Type} [Arith α]

/-- conversion of a wider integer to `int` (32 bits) -/
def wrap32 (x : Int) : Int := (x + 2 ^ 31) % 2 ^ 32 - 2 ^ 31

/-- result of an `int` operation -/
def ci (x : Int) : Except Err Int := if -2 ^ 31 ≤ x ∧ x < 2 ^ 31 then .ok x else .error .ub

end Verif.Multilinear

namespace Verif
/-- `a[i]` for an index that may be negative (no wraparound) -/
def Arr1.rdZ {α : Type} (a : Arr1 α) (i : Int) : Except Err α := if 0 ≤ i then a.rd i.toNat else .error .ub

/-- a memory view of a list -/
def Arr1.ofList {α : Type} (d : α) (l : List α) : Arr1 α := ⟨l.length, fun i => l.getD i d⟩
end Verif

namespace Verif.Multilinear
open Verif
variable {α : Type} [Arith α]

/-- index expressions `M_0*(q_0) + ... + (q_n)` -/
def ix1 (q0 : Int) : Except Err Int := ci q0
def ix2 (M0 q0 q1 : Int) : Except Err Int := do ci ((← ci (M0 * q0)) + q1)
def ix3 (M0 M1 q0 q1 q2 : Int) : Except Err Int := do ci ((← ci ((← ci (M0 * q0)) + (← ci (M1 * q1)))) + q2)
def ix4 (M0 M1 M2 q0 q1 q2 q3 : Int) : Except Err Int := do
  ci ((← ci ((← ci ((← ci (M0 * q0)) + (← ci (M1 * q1)))) + (← ci (M2 * q2)))) + q3)

/-- `for i in prange(n): output[i] = ...` with the iterations in the order of the list -/
def prange : List Nat → (Nat → Except Err α) → Arr1 α → Except Err (Arr1 α)
  | [], _, output => .ok output
  | i :: is, point, output => do
    let v ← point i
    let output ← output.wr i v
    prange is point output

/-- the iteration for point `i` in `multilinear_interpolation_1d` (multilinear_cython.pyx:62-78): the value assigned to
`output[i]` -/
def point1d (cast : α → Int) (smin smax V : Arr1 α) (order0 : Int) (s : Arr2 α) (i : Nat) : Except Err α := do
  let s0 ← s.rd 0 i
  let sn0 := (s0 - (← smin.rd 0)) / ((← smax.rd 0) - (← smin.rd 0))
  let q0 := max (min (cast (sn0 * Arith.ofInt (order0 - 1))) (order0 - 2)) 0
  let lam0 := sn0 * Arith.ofInt (order0 - 1) - Arith.ofInt q0
  let v0 ← V.rdZ (← ix1 q0)
  let v1 ← V.rdZ (← ix1 (q0 + 1))
  .ok ((1 - lam0) * v0 + lam0 * v1)

/-- `multilinear_interpolation_1d` (multilinear_cython.pyx:48-78) -/
def interp1d (cast : α → Int) (reorder : List Nat → List Nat) (smin smax : Arr1 α) (orders : Arr1 Int) (V : Arr1 α)
    (n : Int) (s : Arr2 α) (output : Arr1 α) : Except Err (Arr1 α) := do
  let order0 := wrap32 (← orders.rd 0)
  prange (reorder (List.range n.toNat)) (point1d cast smin smax V order0 s) output

/-- the iteration for point `i` in `multilinear_interpolation_2d` (multilinear_cython.pyx:97-123): the value assigned to
`output[i]` -/
def point2d (cast : α → Int) (smin smax V : Arr1 α) (order0 order1 M0 : Int) (s : Arr2 α) (i : Nat) : Except Err α := do
  let s0 ← s.rd 0 i
  let s1 ← s.rd 1 i
  let sn0 := (s0 - (← smin.rd 0)) / ((← smax.rd 0) - (← smin.rd 0))
  let sn1 := (s1 - (← smin.rd 1)) / ((← smax.rd 1) - (← smin.rd 1))
  let q0 := max (min (cast (sn0 * Arith.ofInt (order0 - 1))) (order0 - 2)) 0
  let q1 := max (min (cast (sn1 * Arith.ofInt (order1 - 1))) (order1 - 2)) 0
  let lam0 := sn0 * Arith.ofInt (order0 - 1) - Arith.ofInt q0
  let lam1 := sn1 * Arith.ofInt (order1 - 1) - Arith.ofInt q1
  let v00 ← V.rdZ (← ix2 M0 q0 q1)
  let v01 ← V.rdZ (← ix2 M0 q0 (q1 + 1))
  let v10 ← V.rdZ (← ix2 M0 (q0 + 1) q1)
  let v11 ← V.rdZ (← ix2 M0 (q0 + 1) (q1 + 1))
  .ok ((1 - lam0) * ((1 - lam1) * v00 + lam1 * v01) + lam0 * ((1 - lam1) * v10 + lam1 * v11))

/-- `multilinear_interpolation_2d` (multilinear_cython.pyx:81-123) -/
def interp2d (cast : α → Int) (reorder : List Nat → List Nat) (smin smax : Arr1 α) (orders : Arr1 Int) (V : Arr1 α)
    (n : Int) (s : Arr2 α) (output : Arr1 α) : Except Err (Arr1 α) := do
  let order0 := wrap32 (← orders.rd 0)
  let order1 := wrap32 (← orders.rd 1)
  let M0 := order1
  prange (reorder (List.range n.toNat)) (point2d cast smin smax V order0 order1 M0 s) output

/-- the iteration for point `i` in `multilinear_interpolation_3d` (multilinear_cython.pyx:147-183): the value assigned to
`output[i]` -/
def point3d (cast : α → Int) (smin smax V : Arr1 α) (order0 order1 order2 M0 M1 : Int) (s : Arr2 α) (i : Nat) : Except Err α := do
  let s0 ← s.rd 0 i
  let s1 ← s.rd 1 i
  let s2 ← s.rd 2 i
  let sn0 := (s0 - (← smin.rd 0)) / ((← smax.rd 0) - (← smin.rd 0))
  let sn1 := (s1 - (← smin.rd 1)) / ((← smax.rd 1) - (← smin.rd 1))
  let sn2 := (s2 - (← smin.rd 2)) / ((← smax.rd 2) - (← smin.rd 2))
  let q0 := max (min (cast (sn0 * Arith.ofInt (order0 - 1))) (order0 - 2)) 0
  let q1 := max (min (cast (sn1 * Arith.ofInt (order1 - 1))) (order1 - 2)) 0
  let q2 := max (min (cast (sn2 * Arith.ofInt (order2 - 1))) (order2 - 2)) 0
  let lam0 := sn0 * Arith.ofInt (order0 - 1) - Arith.ofInt q0
  let lam1 := sn1 * Arith.ofInt (order1 - 1) - Arith.ofInt q1
  let lam2 := sn2 * Arith.ofInt (order2 - 1) - Arith.ofInt q2
  let v000 ← V.rdZ (← ix3 M0 M1 q0 q1 q2)
  let v001 ← V.rdZ (← ix3 M0 M1 q0 q1 (q2 + 1))
  let v010 ← V.rdZ (← ix3 M0 M1 q0 (q1 + 1) q2)
  let v011 ← V.rdZ (← ix3 M0 M1 q0 (q1 + 1) (q2 + 1))
  let v100 ← V.rdZ (← ix3 M0 M1 (q0 + 1) q1 q2)
  let v101 ← V.rdZ (← ix3 M0 M1 (q0 + 1) q1 (q2 + 1))
  let v110 ← V.rdZ (← ix3 M0 M1 (q0 + 1) (q1 + 1) q2)
  let v111 ← V.rdZ (← ix3 M0 M1 (q0 + 1) (q1 + 1) (q2 + 1))
  .ok ((1 - lam0) * ((1 - lam1) * ((1 - lam2) * v000 + lam2 * v001) + lam1 * ((1 - lam2) * v010 + lam2 * v011))
    + lam0 * ((1 - lam1) * ((1 - lam2) * v100 + lam2 * v101) + lam1 * ((1 - lam2) * v110 + lam2 * v111)))

/-- `multilinear_interpolation_3d` (multilinear_cython.pyx:126-183) -/
def interp3d (cast : α → Int) (reorder : List Nat → List Nat) (smin smax : Arr1 α) (orders : Arr1 Int) (V : Arr1 α)
    (n : Int) (s : Arr2 α) (output : Arr1 α) : Except Err (Arr1 α) := do
  let order0 := wrap32 (← orders.rd 0)
  let order1 := wrap32 (← orders.rd 1)
  let order2 := wrap32 (← orders.rd 2)
  let M0 ← ci (order1 * order2)
  let M1 := order2
  prange (reorder (List.range n.toNat)) (point3d cast smin smax V order0 order1 order2 M0 M1 s) output

/-- the iteration for point `i` in `multilinear_interpolation_4d` (multilinear_cython.pyx:214-268): the value assigned to
`output[i]` -/
def point4d (cast : α → Int) (smin smax V : Arr1 α) (order0 order1 order2 order3 M0 M1 M2 : Int) (s : Arr2 α) (i : Nat) : Except Err α := do
  let s0 ← s.rd 0 i
  let s1 ← s.rd 1 i
  let s2 ← s.rd 2 i
  let s3 ← s.rd 3 i
  let sn0 := (s0 - (← smin.rd 0)) / ((← smax.rd 0) - (← smin.rd 0))
  let sn1 := (s1 - (← smin.rd 1)) / ((← smax.rd 1) - (← smin.rd 1))
  let sn2 := (s2 - (← smin.rd 2)) / ((← smax.rd 2) - (← smin.rd 2))
  let sn3 := (s3 - (← smin.rd 3)) / ((← smax.rd 3) - (← smin.rd 3))
  let q0 := max (min (cast (sn0 * Arith.ofInt (order0 - 1))) (order0 - 2)) 0
  let q1 := max (min (cast (sn1 * Arith.ofInt (order1 - 1))) (order1 - 2)) 0
  let q2 := max (min (cast (sn2 * Arith.ofInt (order2 - 1))) (order2 - 2)) 0
  let q3 := max (min (cast (sn3 * Arith.ofInt (order3 - 1))) (order3 - 2)) 0
  let lam0 := sn0 * Arith.ofInt (order0 - 1) - Arith.ofInt q0
  let lam1 := sn1 * Arith.ofInt (order1 - 1) - Arith.ofInt q1
  let lam2 := sn2 * Arith.ofInt (order2 - 1) - Arith.ofInt q2
  let lam3 := sn3 * Arith.ofInt (order3 - 1) - Arith.ofInt q3
  let v0000 ← V.rdZ (← ix4 M0 M1 M2 q0 q1 q2 q3)
  let v0001 ← V.rdZ (← ix4 M0 M1 M2 q0 q1 q2 (q3 + 1))
  let v0010 ← V.rdZ (← ix4 M0 M1 M2 q0 q1 (q2 + 1) q3)
  let v0011 ← V.rdZ (← ix4 M0 M1 M2 q0 q1 (q2 + 1) (q3 + 1))
  let v0100 ← V.rdZ (← ix4 M0 M1 M2 q0 (q1 + 1) q2 q3)
  let v0101 ← V.rdZ (← ix4 M0 M1 M2 q0 (q1 + 1) q2 (q3 + 1))
  let v0110 ← V.rdZ (← ix4 M0 M1 M2 q0 (q1 + 1) (q2 + 1) q3)
  let v0111 ← V.rdZ (← ix4 M0 M1 M2 q0 (q1 + 1) (q2 + 1) (q3 + 1))
  let v1000 ← V.rdZ (← ix4 M0 M1 M2 (q0 + 1) q1 q2 q3)
  let v1001 ← V.rdZ (← ix4 M0 M1 M2 (q0 + 1) q1 q2 (q3 + 1))
  let v1010 ← V.rdZ (← ix4 M0 M1 M2 (q0 + 1) q1 (q2 + 1) q3)
  let v1011 ← V.rdZ (← ix4 M0 M1 M2 (q0 + 1) q1 (q2 + 1) (q3 + 1))
  let v1100 ← V.rdZ (← ix4 M0 M1 M2 (q0 + 1) (q1 + 1) q2 q3)
  let v1101 ← V.rdZ (← ix4 M0 M1 M2 (q0 + 1) (q1 + 1) q2 (q3 + 1))
  let v1110 ← V.rdZ (← ix4 M0 M1 M2 (q0 + 1) (q1 + 1) (q2 + 1) q3)
  let v1111 ← V.rdZ (← ix4 M0 M1 M2 (q0 + 1) (q1 + 1) (q2 + 1) (q3 + 1))
  .ok ((1 - lam0) * ((1 - lam1) * ((1 - lam2) * ((1 - lam3) * v0000 + lam3 * v0001) + lam2 * ((1 - lam3) * v0010 + lam3 * v0011))
      + lam1 * ((1 - lam2) * ((1 - lam3) * v0100 + lam3 * v0101) + lam2 * ((1 - lam3) * v0110 + lam3 * v0111)))
    + lam0 * ((1 - lam1) * ((1 - lam2) * ((1 - lam3) * v1000 + lam3 * v1001) + lam2 * ((1 - lam3) * v1010 + lam3 * v1011))
      + lam1 * ((1 - lam2) * ((1 - lam3) * v1100 + lam3 * v1101) + lam2 * ((1 - lam3) * v1110 + lam3 * v1111))))

/-- `multilinear_interpolation_4d` (multilinear_cython.pyx:186-268) -/
def interp4d (cast : α → Int) (reorder : List Nat → List Nat) (smin smax : Arr1 α) (orders : Arr1 Int) (V : Arr1 α)
    (n : Int) (s : Arr2 α) (output : Arr1 α) : Except Err (Arr1 α) := do
  let order0 := wrap32 (← orders.rd 0)
  let order1 := wrap32 (← orders.rd 1)
  let order2 := wrap32 (← orders.rd 2)
  let order3 := wrap32 (← orders.rd 3)
  let M0 ← ci ((← ci (order1 * order2)) * order3)
  let M1 ← ci (order2 * order3)
  let M2 := order3
  prange (reorder (List.range n.toNat)) (point4d cast smin smax V order0 order1 order2 order3 M0 M1 M2 s) output

/-- the view `values[i, :]` -/
def rowView (a : Arr2 α) (i : Nat) : Arr1 α := ⟨a.cols, a.cell i⟩

/-- assignment through the view `result[i, :]` -/
def setRow (a : Arr2 α) (i : Nat) (r : Arr1 α) : Arr2 α :=
  { a with cell := fun i' j => if i' = i then r.cell j else a.cell i' j }

/-- `multilinear_interpolation` (multilinear_cython.pyx:13-45).  `reorder i` is the order of the iterations for value row
`i`, `junk` the content of `np.empty`. -/
def multilinearInterpolation (cast : α → Int) (reorder : Nat → List Nat → List Nat) (junk : Nat → Nat → α)
    (smin smax : Arr1 α) (orders : Arr1 Int) (values s : Arr2 α) : Except Err (Arr2 α) :=
  let d := s.rows
  let n := wrap32 s.cols
  if d > 4 then .error .exception else
  loop values.rows (fun i result => do
    let vals := rowView values i
    let res := rowView result i
    let res ←
      if d = 1 then interp1d cast (reorder i) smin smax orders vals n s res
      else if d = 2 then interp2d cast (reorder i) smin smax orders vals n s res
      else if d = 3 then interp3d cast (reorder i) smin smax orders vals n s res
      else if d = 4 then interp4d cast (reorder i) smin smax orders vals n s res
      else .ok res
    .ok (setRow result i res)) ⟨values.rows, s.cols, junk⟩

/-- `np.linspace(a, b, n)` -/
def linspace (a b : α) (n : Nat) : List α :=
  if n ≤ 1 then (List.range n).map (fun (i : Nat) => Arith.ofInt i * (b - a) + a)
  else
    let step := (b - a) / Arith.ofInt ((n : Int) - 1)
    let y := fun (i : Nat) =>
      if Arith.eq step 0 then Arith.ofInt i / Arith.ofInt ((n : Int) - 1) * (b - a) + a else Arith.ofInt i * step + a
    (List.range n).map (fun i => if i + 1 = n then b else y i)

/-- `np.meshgrid(*axes, indexing='ij')`, flattened: the list of points, last coordinate varying fastest -/
def mesh : List (List α) → List (List α)
  | [] => [[]]
  | axis :: axes => axis.flatMap (fun x => (mesh axes).map (x :: ·))

/-- `[np.linspace(smin[i], smax[i], orders[i]) for i in range(len(orders))]` (multilinear.py:15); a negative number of points is
a ValueError -/
def axes : List α → List α → List Int → Except Err (List (List α))
  | _, _, [] => .ok []
  | a :: smin, b :: smax, n :: orders =>
    if n < 0 then .error .valueError
    else do
      let rest ← axes smin smax orders
      .ok (linspace a b n.toNat :: rest)
  | _, _, _ :: _ => .error .indexError

/-- `mlinspace` (multilinear.py:8-16): the columns of the returned array.  With one dimension `np.linspace` is given an
array of length one as number of points, which is a TypeError; `np.vstack` of nothing is a ValueError. -/
def mlinspace (smin smax : List α) (orders : List Int) : Except Err (List (List α)) :=
  if orders.length = 1 then .error .typeError
  else if orders.length = 0 then .error .valueError
  else do
    let l ← axes smin smax orders
    .ok (mesh l)

/-- `MultilinearInterpolator` (multilinear.py:19-86); `values` is unset until `set_values` -/
structure MLI (α : Type) where
  smin : List α
  smax : List α
  orders : List Int
  values : Option (Arr2 α)

/-- `MultilinearInterpolator.grid` (multilinear.py:70-74): its columns -/
def MLI.grid (m : MLI α) : Except Err (List (List α)) := mlinspace m.smin m.smax m.orders

/-- `MultilinearInterpolator.interpolate` (multilinear.py:79-83) -/
def MLI.interpolate (cast : α → Int) (reorder : Nat → List Nat → List Nat) (junk : Nat → Nat → α) (m : MLI α) (s : Arr2 α) :
    Except Err (Arr2 α) :=
  match m.values with
  | none => .error .attributeError
  | some v => multilinearInterpolation cast reorder junk (Arr1.ofList 0 m.smin) (Arr1.ofList 0 m.smax)
      (Arr1.ofList 0 m.orders) v s

end Verif.Multilinear
