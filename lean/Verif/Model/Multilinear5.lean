import Verif.Model.Multilinear

/-!
# `multilinear_interpolation_5d` (multilinear_cython.pyx:271-392), which nothing calls
-/

namespace Verif.Multilinear
open Verif
variable {α : Type} [Arith α]

/-- index expressions `M_0*(q_0) + ... + (q_4)` -/
def ix5 (M0 M1 M2 M3 q0 q1 q2 q3 q4 : Int) : Except Err Int := do
  ci ((← ci ((← ci ((← ci ((← ci (M0 * q0)) + (← ci (M1 * q1)))) + (← ci (M2 * q2)))) + (← ci (M3 * q3)))) + q4)

/-- the iteration for point `i` (lines 327-392): the value assigned to `output[i]` -/
def point5d (cast : α → Int) (smin smax V : Arr1 α) (order0 order1 order2 order3 order4 M0 M1 M2 M3 : Int) (s : Arr2 α) (i : Nat) :
    Except Err α := do
  let s0 ← s.rd 0 i
  let s1 ← s.rd 1 i
  let s2 ← s.rd 2 i
  let s3 ← s.rd 3 i
  let s4 ← s.rd 4 i
  let sn0 := (s0 - (← smin.rd 0)) / ((← smax.rd 0) - (← smin.rd 0))
  let sn1 := (s1 - (← smin.rd 1)) / ((← smax.rd 1) - (← smin.rd 1))
  let sn2 := (s2 - (← smin.rd 2)) / ((← smax.rd 2) - (← smin.rd 2))
  let sn3 := (s3 - (← smin.rd 3)) / ((← smax.rd 3) - (← smin.rd 3))
  let sn4 := (s4 - (← smin.rd 4)) / ((← smax.rd 4) - (← smin.rd 4))
  let q0 := max (min (cast (sn0 * Arith.ofInt (order0 - 1))) (order0 - 2)) 0
  let q1 := max (min (cast (sn1 * Arith.ofInt (order1 - 1))) (order1 - 2)) 0
  let q2 := max (min (cast (sn2 * Arith.ofInt (order2 - 1))) (order2 - 2)) 0
  let q3 := max (min (cast (sn3 * Arith.ofInt (order3 - 1))) (order3 - 2)) 0
  let q4 := max (min (cast (sn4 * Arith.ofInt (order4 - 1))) (order4 - 2)) 0
  let lam0 := sn0 * Arith.ofInt (order0 - 1) - Arith.ofInt q0
  let lam1 := sn1 * Arith.ofInt (order1 - 1) - Arith.ofInt q1
  let lam2 := sn2 * Arith.ofInt (order2 - 1) - Arith.ofInt q2
  let lam3 := sn3 * Arith.ofInt (order3 - 1) - Arith.ofInt q3
  let lam4 := sn4 * Arith.ofInt (order4 - 1) - Arith.ofInt q4
  let v00000 ← V.rdZ (← ix5 M0 M1 M2 M3 q0 q1 q2 q3 q4)
  let v00001 ← V.rdZ (← ix5 M0 M1 M2 M3 q0 q1 q2 q3 (q4 + 1))
  let v00010 ← V.rdZ (← ix5 M0 M1 M2 M3 q0 q1 q2 (q3 + 1) q4)
  let v00011 ← V.rdZ (← ix5 M0 M1 M2 M3 q0 q1 q2 (q3 + 1) (q4 + 1))
  let v00100 ← V.rdZ (← ix5 M0 M1 M2 M3 q0 q1 (q2 + 1) q3 q4)
  let v00101 ← V.rdZ (← ix5 M0 M1 M2 M3 q0 q1 (q2 + 1) q3 (q4 + 1))
  let v00110 ← V.rdZ (← ix5 M0 M1 M2 M3 q0 q1 (q2 + 1) (q3 + 1) q4)
  let v00111 ← V.rdZ (← ix5 M0 M1 M2 M3 q0 q1 (q2 + 1) (q3 + 1) (q4 + 1))
  let v01000 ← V.rdZ (← ix5 M0 M1 M2 M3 q0 (q1 + 1) q2 q3 q4)
  let v01001 ← V.rdZ (← ix5 M0 M1 M2 M3 q0 (q1 + 1) q2 q3 (q4 + 1))
  let v01010 ← V.rdZ (← ix5 M0 M1 M2 M3 q0 (q1 + 1) q2 (q3 + 1) q4)
  let v01011 ← V.rdZ (← ix5 M0 M1 M2 M3 q0 (q1 + 1) q2 (q3 + 1) (q4 + 1))
  let v01100 ← V.rdZ (← ix5 M0 M1 M2 M3 q0 (q1 + 1) (q2 + 1) q3 q4)
  let v01101 ← V.rdZ (← ix5 M0 M1 M2 M3 q0 (q1 + 1) (q2 + 1) q3 (q4 + 1))
  let v01110 ← V.rdZ (← ix5 M0 M1 M2 M3 q0 (q1 + 1) (q2 + 1) (q3 + 1) q4)
  let v01111 ← V.rdZ (← ix5 M0 M1 M2 M3 q0 (q1 + 1) (q2 + 1) (q3 + 1) (q4 + 1))
  let v10000 ← V.rdZ (← ix5 M0 M1 M2 M3 (q0 + 1) q1 q2 q3 q4)
  let v10001 ← V.rdZ (← ix5 M0 M1 M2 M3 (q0 + 1) q1 q2 q3 (q4 + 1))
  let v10010 ← V.rdZ (← ix5 M0 M1 M2 M3 (q0 + 1) q1 q2 (q3 + 1) q4)
  let v10011 ← V.rdZ (← ix5 M0 M1 M2 M3 (q0 + 1) q1 q2 (q3 + 1) (q4 + 1))
  let v10100 ← V.rdZ (← ix5 M0 M1 M2 M3 (q0 + 1) q1 (q2 + 1) q3 q4)
  let v10101 ← V.rdZ (← ix5 M0 M1 M2 M3 (q0 + 1) q1 (q2 + 1) q3 (q4 + 1))
  let v10110 ← V.rdZ (← ix5 M0 M1 M2 M3 (q0 + 1) q1 (q2 + 1) (q3 + 1) q4)
  let v10111 ← V.rdZ (← ix5 M0 M1 M2 M3 (q0 + 1) q1 (q2 + 1) (q3 + 1) (q4 + 1))
  let v11000 ← V.rdZ (← ix5 M0 M1 M2 M3 (q0 + 1) (q1 + 1) q2 q3 q4)
  let v11001 ← V.rdZ (← ix5 M0 M1 M2 M3 (q0 + 1) (q1 + 1) q2 q3 (q4 + 1))
  let v11010 ← V.rdZ (← ix5 M0 M1 M2 M3 (q0 + 1) (q1 + 1) q2 (q3 + 1) q4)
  let v11011 ← V.rdZ (← ix5 M0 M1 M2 M3 (q0 + 1) (q1 + 1) q2 (q3 + 1) (q4 + 1))
  let v11100 ← V.rdZ (← ix5 M0 M1 M2 M3 (q0 + 1) (q1 + 1) (q2 + 1) q3 q4)
  let v11101 ← V.rdZ (← ix5 M0 M1 M2 M3 (q0 + 1) (q1 + 1) (q2 + 1) q3 (q4 + 1))
  let v11110 ← V.rdZ (← ix5 M0 M1 M2 M3 (q0 + 1) (q1 + 1) (q2 + 1) (q3 + 1) q4)
  let v11111 ← V.rdZ (← ix5 M0 M1 M2 M3 (q0 + 1) (q1 + 1) (q2 + 1) (q3 + 1) (q4 + 1))
  .ok ((1 - lam0) * ((1 - lam1) * ((1 - lam2) * ((1 - lam3) * ((1 - lam4) * v00000 + lam4 * v00001) + lam3 * ((1 - lam4) * v00010 + lam4 * v00011)) +
        lam2 * ((1 - lam3) * ((1 - lam4) * v00100 + lam4 * v00101) + lam3 * ((1 - lam4) * v00110 + lam4 * v00111))) +
      lam1 * ((1 - lam2) * ((1 - lam3) * ((1 - lam4) * v01000 + lam4 * v01001) + lam3 * ((1 - lam4) * v01010 + lam4 * v01011)) +
        lam2 * ((1 - lam3) * ((1 - lam4) * v01100 + lam4 * v01101) + lam3 * ((1 - lam4) * v01110 + lam4 * v01111))))
    + lam0 * ((1 - lam1) * ((1 - lam2) * ((1 - lam3) * ((1 - lam4) * v10000 + lam4 * v10001) + lam3 * ((1 - lam4) * v10010 + lam4 * v10011)) +
        lam2 * ((1 - lam3) * ((1 - lam4) * v10100 + lam4 * v10101) + lam3 * ((1 - lam4) * v10110 + lam4 * v10111))) +
      lam1 * ((1 - lam2) * ((1 - lam3) * ((1 - lam4) * v11000 + lam4 * v11001) + lam3 * ((1 - lam4) * v11010 + lam4 * v11011)) +
        lam2 * ((1 - lam3) * ((1 - lam4) * v11100 + lam4 * v11101) + lam3 * ((1 - lam4) * v11110 + lam4 * v11111)))))

/-- `multilinear_interpolation_5d` (lines 271-392) -/
def interp5d (cast : α → Int) (reorder : List Nat → List Nat) (smin smax : Arr1 α) (orders : Arr1 Int) (V : Arr1 α)
    (n : Int) (s : Arr2 α) (output : Arr1 α) : Except Err (Arr1 α) := do
  let order0 := wrap32 (← orders.rd 0)
  let order1 := wrap32 (← orders.rd 1)
  let order2 := wrap32 (← orders.rd 2)
  let order3 := wrap32 (← orders.rd 3)
  let order4 := wrap32 (← orders.rd 4)
  let M0 ← ci ((← ci ((← ci (order1 * order2)) * order3)) * order4)
  let M1 ← ci ((← ci (order2 * order3)) * order4)
  let M2 ← ci (order3 * order4)
  let M3 := order4
  prange (reorder (List.range n.toNat)) (point5d cast smin smax V order0 order1 order2 order3 order4 M0 M1 M2 M3 s) output

end Verif.Multilinear
