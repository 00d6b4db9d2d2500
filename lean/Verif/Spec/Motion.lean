import Verif.Base.Arith
import Verif.Spec.Geo

/-!
# Turning and mirroring the Earth
-/

namespace Verif.Spec
open Verif FP Real

/-- a turn about the polar axis by `d` degrees, the mirror image with east and west exchanged, or with north and south exchanged -/
inductive Motion where
  | turn (d : ℝ)
  | eastWest
  | northSouth

/-- where a point goes -/
noncomputable def Motion.point : Motion → ℝ × ℝ × ℝ → ℝ × ℝ × ℝ
  | .turn d, (x, y, z) => (x * cos (rad d) - y * sin (rad d), x * sin (rad d) + y * cos (rad d), z)
  | .eastWest, (x, y, z) => (x, -y, z)
  | .northSouth, (x, y, z) => (x, y, -z)

/-- where a longitude and latitude goes; longitudes count modulo 360 -/
def Motion.Tie (m : Motion) (lon lat lon' lat' : ℝ) : Prop :=
  match m with
  | .turn d => lat' = lat ∧ ∃ k : ℤ, lon' = lon + d + 360 * k
  | .eastWest => lat' = lat ∧ ∃ k : ℤ, lon' = -lon + 360 * k
  | .northSouth => lat' = -lat ∧ ∃ k : ℤ, lon' = lon + 360 * k

/-- all ties of two arrays move -/
def Motion.Ties (m : Motion) (lon lat lon' lat' : Nat → Nat → ℝ) : Prop := ∀ i j, m.Tie (lon i j) (lat i j) (lon' i j) (lat' i j)

/-- the same for lists of `R` rows of `C` longitudes and latitudes -/
def Motion.Lists (m : Motion) (R C : Nat) (lons lats lons' lats' : List (List ℝ)) : Prop :=
  ∀ i < R, ∀ j < C, m.Tie ((lons.getD i []).getD j 0) ((lats.getD i []).getD j 0) ((lons'.getD i []).getD j 0) ((lats'.getD i []).getD j 0)

/-- ties moved without a change of longitude by whole turns -/
def Motion.Plain (m : Motion) (lon lat lon' lat' : ℝ) : Prop :=
  match m with
  | .turn d => lat' = lat ∧ lon' = lon + d
  | .eastWest => lat' = lat ∧ lon' = -lon
  | .northSouth => lat' = -lat ∧ lon' = lon

/-- a longitude reported before and after a turn by `d` degrees: numbers that differ by `d` modulo 360, where either may be 0 instead
of 180; or no number in both cases -/
def TurnedLon (d : ℝ) : FP ℝ → FP ℝ → Prop
  | val a, val a' => (∃ k : ℤ, a' = a + d + 360 * k) ∨ (a = 0 ∧ ∃ k : ℤ, a' = 180 + d + 360 * k) ∨
      (a' = 0 ∧ ∃ k : ℤ, 180 = a + d + 360 * k)
  | bad, bad => True
  | _, _ => False

/-- the position `q` reported after the motion is that of the position `p` reported before -/
def Motion.Reported (m : Motion) (p q : FP ℝ × FP ℝ) : Prop :=
  match m with
  | .turn d => TurnedLon d p.1 q.1 ∧ q.2 = p.2
  | .eastWest => q = (-p.1, p.2)
  | .northSouth => q = (p.1, -p.2)

end Verif.Spec
