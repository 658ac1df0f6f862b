/-
Model of the basic tests of `TriangleTriangleIntersectionTest`
(src/geometry/operations/triangle_triangle_intersection_test.py), over the real numbers.  `pos` are
the two coordinates kept by the projection `[:, pos]`.
-/
import Verif.Model.PointGeometry

namespace Verif.Geometry
open Trace MeshMetrics
open scoped Classical

/-- `x[pos]` -/
def proj (pos : Fin 3 × Fin 3) (x : Pt ℝ) : ℝ × ℝ := (x pos.1, x pos.2)

/-- `np.linalg.det(np.array([u, v]).T)` -/
def det2 (u v : ℝ × ℝ) : ℝ := u.1 * v.2 - v.1 * u.2

/-- triangle_triangle_intersection_test.py:21-30 `colinear_measurement`: the norm of the cross
product of two vectors in the plane. -/
noncomputable def colinearTest (pos : Fin 3 × Fin 3) (a b p : Pt ℝ) : ℝ :=
  1 / 2 * |det2 (proj pos (a - p)) (proj pos (b - p))|

/-- triangle_triangle_intersection_test.py:32-59 `point_in_triangle`.  When `dv` is 0 numpy gets
`nan` or infinite values, which fail the test. -/
noncomputable def pointInTriangle (eps : ℝ) (pos : Fin 3 × Fin 3) (a b c p : Pt ℝ) : Bool :=
  if norm3 (a - p) < eps ∨ norm3 (b - p) < eps ∨ norm3 (c - p) < eps then true
  else if |colinearTest pos a b p| < eps ∨ |colinearTest pos b c p| < eps ∨
      |colinearTest pos c a p| < eps then true
  else
    let dot2 (u v : ℝ × ℝ) : ℝ := u.1 * v.1 + u.2 * v.2
    let v0 := proj pos c - proj pos a
    let v1 := proj pos b - proj pos a
    let v2 := proj pos p - proj pos a
    let dv := dot2 v0 v0 * dot2 v1 v1 - dot2 v0 v1 * dot2 v0 v1
    let u := (dot2 v1 v1 * dot2 v0 v2 - dot2 v0 v1 * dot2 v1 v2) / dv
    let v := (dot2 v0 v0 * dot2 v1 v2 - dot2 v0 v1 * dot2 v0 v2) / dv
    dv ≠ 0 ∧ u ≥ 0 ∧ v ≥ 0 ∧ u + v < 1

/-- triangle_triangle_intersection_test.py:72-130 `line_line_intersection`.  `none` is the answer
`(False, …)`, `some (x, none)` is `(True, x, np.array)` and `some (x, some y)` is `(True, x, y)`.
For `ar = br` numpy's `tau` is `nan` and `argmax` gives 0, as does 0 here. -/
noncomputable def lineLineTest (eps : ℝ) (pos : Fin 3 × Fin 3) (a b p q : Pt ℝ) :
    Option (Pt ℝ × Option (Pt ℝ)) :=
  let ar := proj pos a
  let br := proj pos b
  let pr := proj pos p
  let qr := proj pos q
  let dv := det2 (ar - br) (pr - qr)
  if |dv| < eps then
    if ¬ |colinearTest pos a b p| < eps ∧ ¬ |colinearTest pos a b q| < eps then none
    else
      let norm := Real.sqrt ((ar - br).1 ^ 2 + (ar - br).2 ^ 2)
      let n : ℝ × ℝ := ((ar - br).2 / norm, -((ar - br).1 / norm))
      let keep (x : ℝ × ℝ) : ℝ := if |n.1| ≥ |n.2| then x.2 else x.1
      let arMember := keep pr ≤ keep ar ∧ keep ar ≤ keep qr
      let brMember := keep pr ≤ keep br ∧ keep br ≤ keep qr
      if arMember ∨ brMember then
        if arMember ∧ brMember then some (a, some b)
        else if arMember then some (a, some q)
        else some (p, some b)
      else some (p, some q)
  else
    let tv := det2 (ar - pr) (pr - qr) / dv
    let uv := det2 (ar - pr) (ar - br) / dv
    if (0 ≤ tv ∧ tv ≤ 1) ∧ (0 ≤ uv ∧ uv ≤ 1) then some (a + tv • (b - a), none) else none

/-- triangle_triangle_intersection_test.py:132-147 `line_plane_intersection`, without the warning.
`none` stands for the `nan`s and infinities of a division by 0. -/
noncomputable def linePlaneIntersection (plane : Triangle) (p q : Pt ℝ) : Option (Pt ℝ) :=
  let (a, b, c) := plane
  let d := q - p
  let nEqu : ℝ := Matrix.det !![1, 1, 1, 1; a 0, b 0, c 0, p 0; a 1, b 1, c 1, p 1;
    a 2, b 2, c 2, p 2]
  let dEqu : ℝ := Matrix.det !![1, 1, 1, 0; a 0, b 0, c 0, d 0; a 1, b 1, c 1, d 1;
    a 2, b 2, c 2, d 2]
  if dEqu = 0 then none else some (p + (-nEqu / dEqu) • d)

end Verif.Geometry
