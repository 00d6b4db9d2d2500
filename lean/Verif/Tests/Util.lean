import Verif.Model.GridInterp

/-!
# Helpers of the executable checks

The checks run the models over `Float` on the vectors of the repository's test suite.  They are tests of the models, not
proofs.
-/

namespace Verif.Tests
open Verif Verif.Interpolator

/-- `np.allclose` of two numbers -/
def close (atol rtol : Float) (a b : Float) : Bool := (a - b).abs ≤ atol + rtol * b.abs

def closeV (atol rtol : Float) (a b : List Float) : Bool :=
  a.length == b.length && (List.zipWith (close atol rtol) a b).all id

def closeM (atol rtol : Float) (a b : List (List Float)) : Bool :=
  a.length == b.length && (List.zipWith (closeV atol rtol) a b).all id

/-- the result of a computation satisfies `p` -/
def okAnd {β : Type} (r : Except Err β) (p : β → Bool) : Bool :=
  match r with
  | .ok x => p x
  | .error _ => false

/-- the computation raises `e` -/
def fails {β : Type} (r : Except Err β) (e : Err) : Bool :=
  match r with
  | .ok _ => false
  | .error e' => e == e'

/-- rows of `n` elements -/
def reshape (n : Nat) : Nat → List Float → List (List Float)
  | 0, _ => []
  | k + 1, l => l.take n :: reshape n k (l.drop n)

/-- `np.arange(r * c).reshape((r, c), order="F")` and `order="C"` -/
def arangeF (r c : Nat) : List (List Float) := (List.range r).map (fun i => (List.range c).map (fun j => Float.ofNat (j * r + i)))
def arangeC (r c : Nat) : List (List Float) := (List.range r).map (fun i => (List.range c).map (fun j => Float.ofNat (i * c + j)))

def nums (l : List Nat) : List Float := l.map Float.ofNat

/-- second derivatives of the not-a-knot cubic spline through at least four points -/
def curvatures (x y : Array Float) : Array Float := Id.run do
  let n := x.size
  let h := fun i => x[i + 1]! - x[i]!
  let d := fun i => (y[i + 1]! - y[i]!) / h i
  -- unknowns 1 … n - 2; forward elimination
  let mut cp := Array.replicate n 0.0
  let mut dp := Array.replicate n 0.0
  for k in [0:n - 2] do
    let i := k + 1
    let a := if i = 1 then 0 else if i = n - 2 then h (i - 1) - h i * h i / h (i - 1) else h (i - 1)
    let b := 2 * (h (i - 1) + h i)
      + (if i = 1 then h 0 * (h 0 + h 1) / h 1 else 0)
      + (if i = n - 2 then h i * (h i + h (i - 1)) / h (i - 1) else 0)
    let c := if i = n - 2 then 0 else if i = 1 then h 1 - h 0 * h 0 / h 1 else h i
    let r := 6 * (d i - d (i - 1))
    let m := b - a * cp[i - 1]!
    cp := cp.set! i (c / m)
    dp := dp.set! i ((r - a * dp[i - 1]!) / m)
  let mut s := Array.replicate n 0.0
  for k in [0:n - 2] do
    let i := n - 2 - k
    s := s.set! i (dp[i]! - cp[i]! * s[i + 1]!)
  s := s.set! 0 (((h 0 + h 1) * s[1]! - h 0 * s[2]!) / h 1)
  s := s.set! (n - 1) (((h (n - 2) + h (n - 3)) * s[n - 2]! - h (n - 2) * s[n - 3]!) / h (n - 3))
  return s

/-- the interpolating cubic spline of FITPACK (no knots at the second and the last but one point) -/
def cubic (xs ys : List Float) (t : Float) : Float :=
  let x := xs.toArray
  let y := ys.toArray
  let s := curvatures x y
  let i := min (((xs.drop 1).takeWhile (· ≤ t)).length) (x.size - 2)
  let h := x[i + 1]! - x[i]!
  let a := (x[i + 1]! - t) / h
  let b := (t - x[i]!) / h
  a * y[i]! + b * y[i + 1]! + ((a * a * a - a) * s[i]! + (b * b * b - b) * s[i + 1]!) * h * h / 6

/-- orders 1 and 3 -/
def splines : SplLib Float := fun k xs ys t => if k = 1 then linSeg xs ys t else cubic xs ys t

end Verif.Tests
