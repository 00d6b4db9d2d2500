import Verif.Base.RealTrig
import Verif.Model.ModisSimple
import Mathlib.Algebra.Order.Floor.Ring
import Mathlib.Algebra.Order.Archimedean.Real.Basic

/-!
# Piecewise linear and bilinear interpolation over ℝ (specification), and `map_coordinates`
-/

namespace Verif.Spec
open Verif FP

/-- cell of `x` in a grid of `n` points `0, …, n-1`; the first/last cell outside the grid -/
noncomputable def cell1 (n : Nat) (x : ℝ) : Nat := min ⌊x⌋₊ (n - 2)

/-- piecewise linear interpolation of `g 0, …, g (n-1)` at `x`, the first and last pieces being continued outside -/
noncomputable def lin1 (n : Nat) (g : Nat → ℝ) (x : ℝ) : ℝ :=
  (1 - (x - cell1 n x)) * g (cell1 n x) + (x - cell1 n x) * g (cell1 n x + 1)

/-- piecewise bilinear interpolation on an `R × C` grid, at row `y` and column `x`, the border cells being continued
outside -/
noncomputable def bilinExt (R C : Nat) (V : Nat → Nat → ℝ) (y x : ℝ) : ℝ := lin1 R (fun a => lin1 C (V a) x) y

/-- coordinate limited to `[0, n-1]` -/
noncomputable def clampTo (n : Nat) (x : ℝ) : ℝ := max 0 (min x ((n : ℝ) - 1))

end Verif.Spec

namespace Verif.ModisSimple
open Verif FP Spec

/-- Model of `scipy.ndimage.map_coordinates(order=1, mode='nearest')` for one element, in exact arithmetic: the
coordinates are limited to the array, and the four neighbours (the index after the last being the last) are combined
with linear weights. -/
noncomputable def mcLinear : MapCoord (FP ℝ) := fun R C v y x =>
  match y, x with
  | .val y, .val x =>
    let yc := clampTo R y
    let xc := clampTo C x
    let t := yc - (⌊yc⌋₊ : ℝ)
    let s := xc - (⌊xc⌋₊ : ℝ)
    let at_ := fun a b => if h : a < R ∧ b < C then v ⟨a, h.1⟩ ⟨b, h.2⟩ else bad
    let a0 := ⌊yc⌋₊
    let a1 := min (a0 + 1) (R - 1)
    let b0 := ⌊xc⌋₊
    let b1 := min (b0 + 1) (C - 1)
    val ((1 - t) * (1 - s)) * at_ a0 b0 + val ((1 - t) * s) * at_ a0 b1
      + val (t * (1 - s)) * at_ a1 b0 + val (t * s) * at_ a1 b1
  | _, _ => .bad

end Verif.ModisSimple
