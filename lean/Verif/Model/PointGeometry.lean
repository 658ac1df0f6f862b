/-
Model of src/geometry/operations/point_geometry_operations.py, over the real numbers and for points
with three coordinates.  `ctol` is `geometry_collapse_tol`; the code's tolerances are all 1e-10.

Filtered lists of results are kept as lists: `np.array` of them may fail for results of different
shapes, which is left out.
-/
import Verif.Model.MeshMetrics
import Mathlib.Data.Fin.VecNotation
import Mathlib.LinearAlgebra.Matrix.Determinant.Basic

namespace Verif.Geometry
open MeshBuild MeshGraph Trace MeshMetrics
open scoped Classical

/-- `np.isclose(x, y, rtol, atol)` -/
def IsClose (rtol atol x y : ℝ) : Prop := |x - y| ≤ atol + rtol * |y|

/-- `np.all(np.isclose(x, y, rtol, atol))` on points -/
def Close (rtol atol : ℝ) (x y : Pt ℝ) : Prop := ∀ k, IsClose rtol atol (x k) (y k)

/-- `np.dot` -/
def dot (u v : Pt ℝ) : ℝ := u 0 * v 0 + u 1 * v 1 + u 2 * v 2

/-- `np.cross` -/
def cross (u v : Pt ℝ) : Pt ℝ :=
  ![u 1 * v 2 - u 2 * v 1, u 2 * v 0 - u 0 * v 2, u 0 * v 1 - u 1 * v 0]

/-- point_geometry_operations.py:9-14 `colinear_measurement` -/
noncomputable def colinearMeasurement (p a b : Pt ℝ) : ℝ := 1 / 2 * norm3 (cross (a - p) (b - p))

/-- point_geometry_operations.py:17-22 `point_line_incidence` -/
def PointLineIncidence (p a b : Pt ℝ) (eps : ℝ) : Prop :=
  IsClose eps eps (colinearMeasurement a b p) 0

/-- point_geometry_operations.py:25-62 `point_line_intersection` -/
noncomputable def pointLineIntersection (ctol : ℝ) (p a b : Pt ℝ) (eps : ℝ) : Option (Pt ℝ) :=
  if Close ctol ctol a p then some a
  else if Close ctol ctol b p then some b
  else if PointLineIncidence a b p eps then
    let aPredicate := norm3 (b - a) > norm3 (p - a) ∨ IsClose eps eps (norm3 (b - a)) (norm3 (p - a))
    let bPredicate := norm3 (a - b) > norm3 (p - b) ∨ IsClose eps eps (norm3 (a - b)) (norm3 (p - b))
    if aPredicate ∧ bPredicate then some p else none
  else none

/-- What the functions below return for one item: `None`, `False` or an array. -/
inductive Out (α : Type) where
  | none
  | false
  | array (x : α)

/-- `data_type` (point_geometry_operations.py:72-76) -/
def Out.isArray {α : Type} : Out α → Bool
  | .array _ => true
  | _ => .false

/-- `x is not None` -/
def Out.isNotNone {α : Type} : Out α → Bool
  | .none => .false
  | _ => true

/-- A returned point or `None`. -/
def Out.ofOption {α : Type} : Option α → Out α
  | some x => .array x
  | Option.none => .none

/-- point_geometry_operations.py:78-82 (and 177-181, 234-238, line_geometry_operations.py:246-250,
321-325): the results that are not `None`, and the mask. -/
def withMask {α : Type} (results : List (Out α)) : List (Out α) × List Bool :=
  (results.filter Out.isNotNone, results.map Out.isArray)

/-- point_geometry_operations.py:65-82 `points_line_intersection` -/
noncomputable def pointsLineIntersection (ctol : ℝ) (points : List (Pt ℝ)) (a b : Pt ℝ) (eps : ℝ) :
    List (Out (Pt ℝ)) × List Bool :=
  withMask (points.map fun p => .ofOption (pointLineIntersection ctol p a b eps))

/-- point_geometry_operations.py:96-99 `coplanar_measurement`: the determinant of the rows
`(a, 1), (b, 1), (c, 1), (p, 1)`, divided by 6. -/
noncomputable def coplanarMeasurement (p a b c : Pt ℝ) : ℝ :=
  Matrix.det !![a 0, a 1, a 2, 1; b 0, b 1, b 2, 1; c 0, c 1, c 2, 1; p 0, p 1, p 2, 1] / 6

/-- point_geometry_operations.py:102-107 `point_triangle_incidence` -/
def PointTriangleIncidence (p a b c : Pt ℝ) (eps : ℝ) : Prop :=
  IsClose eps eps (coplanarMeasurement p a b c) 0

/-- point_geometry_operations.py:110-161 `point_triangle_intersection`.  When `denom` is 0 numpy
gets `nan` or infinite coordinates, which fail the test. -/
noncomputable def pointTriangleIntersection (ctol : ℝ) (p a b c : Pt ℝ) (eps : ℝ) :
    Option (Pt ℝ) :=
  if Close ctol ctol a p then some a
  else if Close ctol ctol b p then some b
  else if Close ctol ctol c p then some c
  else if ¬ PointTriangleIncidence p a b c eps then none
  else match pointLineIntersection ctol p a b eps with
  | some x => some x
  | none => match pointLineIntersection ctol p b c eps with
    | some x => some x
    | none => match pointLineIntersection ctol p c a eps with
      | some x => some x
      | none =>
        let ab := b - a
        let ac := c - a
        let ap := p - a
        let denom := dot ab ab * dot ac ac - dot ab ac * dot ab ac
        let u := (dot ac ac * dot ap ab - dot ab ac * dot ap ac) / denom
        let v := (dot ab ab * dot ap ac - dot ab ac * dot ap ab) / denom
        if denom ≠ 0 ∧ u ≥ 0 ∧ v ≥ 0 ∧ u + v ≤ 1 then some p else none

/-- point_geometry_operations.py:164-181 `points_triangle_intersection` -/
noncomputable def pointsTriangleIntersection (ctol : ℝ) (points : List (Pt ℝ)) (a b c : Pt ℝ)
    (eps : ℝ) : List (Out (Pt ℝ)) × List Bool :=
  withMask (points.map fun p => .ofOption (pointTriangleIntersection ctol p a b c eps))

/-- A triangle -/
abbrev Triangle := Pt ℝ × Pt ℝ × Pt ℝ

/-- polygon_geometry_operations.py:103-125 `triangulate_convex_polygon` -/
noncomputable def triangulateConvexPolygon (points : List (Pt ℝ)) : Res (List Triangle) :=
  if points.length < 3 then .error .valueError
  else do
    let xc : Pt ℝ := fun k => (points.map (· k)).sum / points.length
    let first ← mapRes (fun i => do
      let v1 ← getIdx points i
      let v2 ← getIdx points (i + 1)
      pure (xc, v1, v2)) (List.range (points.length - 1))
    let v1 ← getIdx points (points.length - 1)
    let v2 ← getIdx points 0
    pure (first ++ [(xc, v1, v2)])

/-- polygon_geometry_operations.py:128-150 `triangulate_polygon`.  The convexity test and the
triangulation of polygons that are not convex (scipy's `Delaunay`) are parameters. -/
noncomputable def triangulatePolygon (convex : List (Pt ℝ) → Bool)
    (delaunay : List (Pt ℝ) → Res (List Triangle)) (points : List (Pt ℝ)) : Res (List Triangle) :=
  if convex points then triangulateConvexPolygon points else delaunay points

/-- point_geometry_operations.py:198-216 `point_polygon_intersection`, with the function that
triangulates the polygon. -/
noncomputable def pointPolygonIntersection (ctol : ℝ)
    (triangulate : List (Pt ℝ) → Res (List Triangle)) (p : Pt ℝ) (polygon : List (Pt ℝ))
    (eps : ℝ) : Res (Option (Pt ℝ)) := do
  let triangles ← triangulate polygon
  let results := triangles.map fun t => pointTriangleIntersection ctol p t.1 t.2.1 t.2.2 eps
  pure (if results.any Option.isSome then some p else none)

/-- point_geometry_operations.py:219-238 `points_polygon_intersection` -/
noncomputable def pointsPolygonIntersection (ctol : ℝ)
    (triangulate : List (Pt ℝ) → Res (List Triangle)) (points polygon : List (Pt ℝ))
    (eps : ℝ) : Res (List (Out (Pt ℝ)) × List Bool) := do
  let results ← mapRes (fun p => pointPolygonIntersection ctol triangulate p polygon eps) points
  pure (withMask (results.map .ofOption))

end Verif.Geometry
