import Verif.Spec.Geo

/-!
# Great circle arcs (specification)
-/

namespace Verif.Spec
open Real

/-- scalar product -/
def dot (p q : ℝ × ℝ × ℝ) : ℝ := p.1 * q.1 + p.2.1 * q.2.1 + p.2.2 * q.2.2

/-- angle at the centre of the sphere of radius `R` between two points of the sphere -/
noncomputable def centralAngle (R : ℝ) (p q : ℝ × ℝ × ℝ) : ℝ := arccos (dot p q / R ^ 2)

/-- `r` is on the sphere, on the great circle arc from `p` to `q`, a fraction `f` of the way: its angles from `p` and to `q` are
`f` and `1 - f` times the angle between `p` and `q` -/
def OnArc (R : ℝ) (p q : ℝ × ℝ × ℝ) (f : ℝ) (r : ℝ × ℝ × ℝ) : Prop :=
  dot r r = R ^ 2 ∧ centralAngle R p r = f * centralAngle R p q ∧ centralAngle R r q = (1 - f) * centralAngle R p q

/-- the point a fraction `t` of the way along the great circle arc of angle `θ` from `p` to `q` -/
noncomputable def arcPoint (θ : ℝ) (p q : ℝ × ℝ × ℝ) (t : ℝ) : ℝ × ℝ × ℝ :=
  let f := fun c : ℝ × ℝ × ℝ → ℝ => (sin ((1 - t) * θ) * c p + sin (t * θ) * c q) / sin θ
  (f (·.1), f (·.2.1), f (·.2.2))

/-- the point a fraction `t` of the way along the straight line -/
def chordPoint (p q : ℝ × ℝ × ℝ) (t : ℝ) : ℝ × ℝ × ℝ :=
  ((1 - t) * p.1 + t * q.1, (1 - t) * p.2.1 + t * q.2.1, (1 - t) * p.2.2 + t * q.2.2)

/-- multiple of a point -/
def scale (c : ℝ) (p : ℝ × ℝ × ℝ) : ℝ × ℝ × ℝ := (c * p.1, c * p.2.1, c * p.2.2)

end Verif.Spec
