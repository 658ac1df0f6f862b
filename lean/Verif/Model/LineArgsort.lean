/-
Model of `points_line_argsort` (point_geometry_operations.py:85-93), which sorts points along a segment for the
meshes, the domains and the intersections, over the real numbers.

Simplifications: numpy's `argsort` is a parameter; an array of points is a list of points or the array without
axes of points that `np.array([])` gives.
-/
import Verif.Model.PointGeometry

namespace Verif.Geometry
open MeshBuild MeshGraph Trace MeshMetrics

/-- The argument `points`: `np.array([])`, or an array with one row for every point. -/
inductive PointArray where
  | nothing
  | rows (points : List (Pt ℝ))

/-- point_geometry_operations.py:85-93 `points_line_argsort`.  The difference of `np.array([])` and a point with
three coordinates cannot be broadcast. -/
noncomputable def pointsLineArgsort (argsort : List ℝ → List Nat) (points : PointArray) (a b : Pt ℝ)
    (baSorting : Bool) : Res (List Nat) :=
  match points with
  | .nothing => .error .valueError
  | .rows points =>
    if baSorting then .ok (argsort (points.map fun p => norm3 (p - b)))
    else .ok (argsort (points.map fun p => norm3 (p - a)))

/-- The array that point_geometry_operations.py:81 `np.array(list(filter(…)))` makes of points. -/
def PointArray.ofList : List (Pt ℝ) → PointArray
  | [] => .nothing
  | p :: ps => .rows (p :: ps)

end Verif.Geometry
