/-
Specification vocabulary for C114.
-/
import Verif.Model.Manipulation

namespace Verif.Manip
open MeshBuild MeshGraph Trace MeshMetrics Geometry VertexOps

/-- The edge has the ends `x` and `y`, in one of the orders. -/
def Joins (x y : Pt ℝ) (e : BEdge) : Prop :=
  ∃ a b l, e.ends = a :: b :: l ∧ ((DefaultClose a.point x ∧ DefaultClose b.point y) ∨
    DefaultClose b.point x ∧ DefaultClose a.point y)

end Verif.Manip
