/-
Model of `PolygonPolygonIntersectionTest`
(src/geometry/operations/polygon_polygon_intersection_test.py:10-15, 43-113), over the real numbers.

* What is drawn is left out, and with it the attribute `poly_line`, which nothing else reads.
* Where a triangle test answers with something that is not a point (`np.array`, `None`),
  `np.array(points)` has rows of different shapes and numpy raises `ValueError`.
-/
import Verif.Model.TriangleTriangle
import Verif.Model.Polygon

namespace Verif.Geometry
open Trace MeshMetrics MeshBuild MeshGraph
open scoped Classical

/-- No answer: from a triangle test, or an exception. -/
inductive Fault where
  | stuck (s : Stuck)
  | err (e : Err)
  deriving DecidableEq

/-- An exception as a fault -/
def asFault {α : Type} : Res α → Except Fault α
  | .ok a => .ok a
  | .error e => .error (.err e)

/-- polygon_polygon_intersection_test.py:13-14, 85-86: the two triangles `polygon[[0, 1, 3]]` and
`polygon[[1, 2, 3]]`. -/
def halves (polygon : List (Pt ℝ)) : Res (List Triangle) := do
  let p0 ← getIdx polygon 0
  let p1 ← getIdx polygon 1
  let p3 ← getIdx polygon 3
  let p2 ← getIdx polygon 2
  pure [(p0, p1, p3), (p1, p2, p3)]

/-- polygon_polygon_intersection_test.py:101-104: the two points of an answer. -/
def chunkPoints : Answer ⊕ (Option (Pt ℝ) × Option (Pt ℝ)) → Res (List (Pt ℝ))
  | .inl none => .ok []
  | .inl (some (x, some y)) => .ok [x, y]
  | .inl (some (_, none)) => .error .valueError
  | .inr (some x, some y) => .ok [x, y]
  | .inr _ => .error .valueError

/-- polygon_polygon_intersection_test.py:43-79 `reduce_poly_line`, and the two points that are taken from the
result.  Where the first two points are projected to the same one, numpy's `tau` is `nan` and `argmax` gives 0, as
does 0 here. -/
noncomputable def reducePolyLine (t : Triangle) (line : List (Pt ℝ)) : Res (Pt ℝ × Pt ℝ) := do
  let (p, q, r) := t
  let pos := keptAxes (cross (p - q) (r - q))
  let a ← getIdx line 0
  let b ← getIdx line 1
  let d := proj pos a - proj pos b
  let norm := Real.sqrt (d.1 ^ 2 + d.2 ^ 2)
  let n : ℝ × ℝ := (d.2 / norm, -(d.1 / norm))
  let k := if |n.1| ≥ |n.2| then pos.2 else pos.1
  let c := line.map (· k)
  let x ← getIdx line (Polygon.argmin c)
  let y ← getIdx line (Polygon.argmax c)
  pure (x, y)

/-- polygon_polygon_intersection_test.py:81-113 `polygon_polygon_intersection`: `none` is `(False, …)` -/
noncomputable def polygonPolygon (eps : ℝ) (o t : List (Pt ℝ)) : Except Fault (Option (Pt ℝ × Pt ℝ)) := do
  let os ← asFault (halves o)
  let ts ← asFault (halves t)
  let pairs := os.flatMap fun ot => ts.map fun tt => (ot, tt)
  let data ← pairs.mapM fun x => match triangleTriangle eps x.1 x.2 with
    | .ok r => .ok r
    | .error s => .error (.stuck s)
  if data.all fun r => decide (r = .inl none) then pure none
  else do
    let points ← asFault (mapRes chunkPoints data)
    let first ← asFault (getIdx os 0)
    let r ← asFault (reducePolyLine first points.flatten)
    pure (some r)

end Verif.Geometry
