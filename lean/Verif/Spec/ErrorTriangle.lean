/-
Specification for the triangle of a rate: in logarithmic axes a right triangle with legs along the axes whose third
side has the rate as its slope.
-/
import Verif.Model.ErrorTriangle

namespace Verif.ErrorTriangle

/-- Slope between two points in a picture with logarithmic axes. -/
noncomputable def slope (p q : ℝ × ℝ) : ℝ := (Real.log p.2 - Real.log q.2) / (Real.log p.1 - Real.log q.1)

/-- Legs along the axes; the right angle is at `p1`: below `p0`, or above `p2` when mirrored. -/
def RightAngle (mirror : Bool) (t : Triangle) : Prop :=
  if mirror then t.p1.1 = t.p2.1 ∧ t.p1.2 = t.p0.2 else t.p1.1 = t.p0.1 ∧ t.p1.2 = t.p2.2

end Verif.ErrorTriangle
