/-
Specification for C115: normals of segments, and points moved apart.
-/
import Verif.Model.FractureOpening

namespace Verif.FracOpen
open Trace MeshMetrics MeshOps

/-- `n` is the unit vector at a right angle to the segment from `a` to `b`, to its left in the plane. -/
structure LeftNormal (a b n : Pt ℝ) : Prop where
  unit : dot3 n n = 1
  right : dot3 n (b - a) = 0
  left : 0 < (b 0 - a 0) * n 1 - (b 1 - a 1) * n 0

/-- The points after the opening: a point numbered in `P` moves along `n`, one numbered in `N` against
it, by `factor` times the product of the distances to the ends over the square of the length. -/
def Opened (factor : ℝ) (n b e : Pt ℝ) (P N : List Nat) (points points' : Points ℝ) : Prop :=
  points'.length = points.length ∧ ∀ i x, points[i]? = some x →
    points'[i]? = some (fun k => x k + (if i ∈ P then factor * n k * bump b e x else 0) -
      (if i ∈ N then factor * n k * bump b e x else 0))

end Verif.FracOpen
