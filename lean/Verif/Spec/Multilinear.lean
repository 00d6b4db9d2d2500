import Verif.Base.Arith
import Mathlib.Data.List.Forall2

/-!
# Specifications for multilinear interpolation
-/

namespace Verif.Spec

/-- position of the node with indices `is` when the last index varies fastest -/
def ravel : List Nat → List Nat → Nat
  | _ :: ns, i :: is => i * ns.prod + ravel ns is
  | _, _ => 0

variable {K : Type} [Field K] [LinearOrder K]

/-- node `i` of `n` equidistant nodes from `a` to `b` -/
def node (a b : K) (n i : Nat) : K := a + (i : K) * ((b - a) / ((n : K) - 1))

/-- one dimension of a grid: `n` equidistant nodes from `lo` to `hi` -/
structure Axis (K : Type) where
  lo : K
  hi : K
  n : Nat

/-- the node of the grid with indices `is` -/
def nodeAt (G : List (Axis K)) (is : List Nat) : List K := List.zipWith (fun g i => node g.lo g.hi g.n i) G is

/-- one index per dimension, each in range -/
def Index (G : List (Axis K)) (is : List Nat) : Prop := List.Forall₂ (fun i n => i < n) is (G.map Axis.n)

/-- a point inside the grid -/
def Inside (G : List (Axis K)) (p : List K) : Prop := List.Forall₂ (fun x (g : Axis K) => g.lo ≤ x ∧ x ≤ g.hi) p G

/-- a function of `d` coordinates, affine in each of them when the others are fixed -/
def MultiAffine (d : Nat) (f : List K → K) : Prop :=
  ∀ pre x y t post, pre.length + 1 + post.length = d →
    f (pre ++ ((1 - t) * x + t * y) :: post) = (1 - t) * f (pre ++ x :: post) + t * f (pre ++ y :: post)

/-- the C conversion of a floating point number to `int`: truncation for numbers in the range of `int`; nothing is
known of the conversion of other numbers -/
def CTrunc (cast : FP K → Int) : Prop :=
  ∀ x : K, -2 ^ 31 ≤ x → x < 2 ^ 31 →
    if 0 ≤ x then ((cast (.val x) : Int) : K) ≤ x ∧ x < (cast (.val x) : Int) + 1
    else x ≤ (cast (.val x) : Int) ∧ ((cast (.val x) : Int) : K) < x + 1

end Verif.Spec
