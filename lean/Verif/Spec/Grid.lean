import Verif.Base.Arr

/-!
# Specification of tilings (C22)
-/

namespace Verif.Spec

/-- an element (one index per dimension) lies in a tuple of half-open slices -/
def inSlices (e : List Nat) (slices : List (Nat × Nat)) : Prop :=
  List.Forall₂ (fun i s => s.1 ≤ i ∧ i < s.2) e slices

/-- an element of an array of the given shape -/
def inShape (e shape : List Nat) : Prop := List.Forall₂ (· < ·) e shape

end Verif.Spec
