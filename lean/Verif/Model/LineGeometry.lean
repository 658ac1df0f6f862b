/-
Model of src/geometry/operations/line_geometry_operations.py, over the real numbers.

Parameters of the model:
* `lstsq d1 d2 r` is the solution `(t, s)` of `np.linalg.lstsq` for the matrix with the columns
  `d1` and `-d2` and the right hand side `r`;
* `dedup` is the choice of the rows kept by `np.unique` of the rounded rows;
* `argsort` is numpy's.
-/
import Verif.Model.PointGeometry

namespace Verif.Geometry
open MeshBuild MeshGraph Trace MeshMetrics
open scoped Classical

/-- The tolerances: `geometry_collapse_tol`, `geometry_point_line_incidence_tol`. -/
structure Tol where
  collapse : ℝ
  pointLine : ℝ

/-- A segment -/
abbrev Line := Pt ℝ × Pt ℝ

/-- What `line_line_intersection` returns: `None`, an array of points, or the pair of the array and
the mask (line_geometry_operations.py:22). -/
inductive LineOut where
  | none
  | points (l : List (Pt ℝ))
  | both (l : List (Pt ℝ)) (mask : List Bool)

/-- The point in an array result. -/
def Out.toOption {α : Type} : Out α → Option α
  | .array x => some x
  | _ => Option.none

/-- `l[mask]` -/
def maskFilter {α : Type} (l : List α) (mask : List Bool) : List α :=
  ((l.zip mask).filter fun x => x.2).map Prod.fst

/-- line_geometry_operations.py:15-54 `line_line_intersection`.  `np.isclose` in the assertion has
its default tolerances. -/
noncomputable def lineLineIntersection (tol : Tol) (lstsq : Pt ℝ → Pt ℝ → Pt ℝ → ℝ × ℝ)
    (a b c d : Pt ℝ) (eps : ℝ) : Res LineOut :=
  let (out, intx) := pointsLineIntersection tol.collapse [a, b] c d tol.pointLine
  let out := out.filterMap Out.toOption
  if 0 < out.length ∧ intx.any id then
    if (intx.filter id).length > 1 then .ok (.both out intx)
    else if ∀ x ∈ out.zip (maskFilter [a, b] intx), Close (1 / 10 ^ 5) (1 / 10 ^ 8) x.1 x.2 then
      .ok (.points out)
    else .error .assertionError
  else
    let d1 := b - a
    let d2 := d - c
    let (t, s) := lstsq d1 d2 (c - a)
    let pa := a + t • d1
    let pc := c + s • d2
    let tl := 0 < t ∨ IsClose eps eps t 0
    let tr := t < 1 ∨ IsClose eps eps t 1
    let sl := 0 < s ∨ IsClose eps eps s 0
    let sr := s < 1 ∨ IsClose eps eps s 1
    if Close eps eps pa pc ∧ (tl ∧ tr) ∧ (sl ∧ sr) then .ok (.points [pa]) else .ok .none

/-- line_geometry_operations.py:57-66 `lines_line_intersection`, one entry per result that is not
`None`.  A pair among the results makes `np.array` fail (rows of different shapes). -/
noncomputable def linesLineIntersection (tol : Tol) (lstsq : Pt ℝ → Pt ℝ → Pt ℝ → ℝ × ℝ)
    (lines : List Line) (a b : Pt ℝ) (eps : ℝ) : Res (List (List (Pt ℝ))) := do
  let results ← mapRes (fun (l : Line) => lineLineIntersection tol lstsq l.1 l.2 a b eps) lines
  let rec collect : List LineOut → Res (List (List (Pt ℝ)))
    | [] => pure []
    | .none :: rs => collect rs
    | .points l :: rs => do
      let ls ← collect rs
      pure (l :: ls)
    | .both .. :: _ => .error .valueError
  collect results

/-- line_geometry_operations.py:69-105 `lines_lines_intersection` with
`deduplicate_points_q = False`: for every object the intersections with the tools that are not
close to it. -/
noncomputable def linesLinesIntersection (tol : Tol) (lstsq : Pt ℝ → Pt ℝ → Pt ℝ → ℝ × ℝ)
    (tools objects : List Line) (eps : ℝ) : Res (List (List (List (Pt ℝ)))) :=
  mapRes (fun (o : Line) =>
    linesLineIntersection tol lstsq
      (tools.filter fun t => ¬ (Close (1 / 10 ^ 5) (1 / 10 ^ 8) t.1 o.1 ∧
        Close (1 / 10 ^ 5) (1 / 10 ^ 8) t.2 o.2)) o.1 o.2 eps) objects

/-- line_geometry_operations.py:94-103: the same with `deduplicate_points_q = True`. -/
noncomputable def linesLinesPoints (tol : Tol) (lstsq : Pt ℝ → Pt ℝ → Pt ℝ → ℝ × ℝ)
    (dedup : List (Pt ℝ) → List (Pt ℝ)) (tools objects : List Line) (eps : ℝ) :
    Res (List (Pt ℝ)) := do
  let out ← linesLinesIntersection tol lstsq tools objects eps
  pure (dedup out.flatten.flatten)

/-- line_geometry_operations.py:150-168 `line_triangle_incidence` -/
def LineTriangleIncidence (p q a b c : Pt ℝ) (eps : ℝ) : Prop :=
  let mp := coplanarMeasurement p a b c
  let mq := coplanarMeasurement q a b c
  let pIn := IsClose eps eps mp 0
  let qIn := IsClose eps eps mq 0
  (pIn ∨ qIn) ∨ ((mp < 0 ∨ pIn) ∧ (mq > 0 ∨ qIn)) ∨ ((mp > 0 ∨ pIn) ∧ (mq < 0 ∨ qIn))

/-- line_geometry_operations.py:171-229 `line_triangle_intersection`.  The shape of the returned
array (rows of points, or rows of rows) is left out. -/
noncomputable def lineTriangleIntersection (tol : Tol) (lstsq : Pt ℝ → Pt ℝ → Pt ℝ → ℝ × ℝ)
    (dedup : List (Pt ℝ) → List (Pt ℝ)) (line : Line) (a b c : Pt ℝ) (eps : ℝ) :
    Res (Out (List (Pt ℝ))) :=
  let (p, q) := line
  if ¬ LineTriangleIncidence p q a b c eps then .ok .none
  else
    let pIn := pointTriangleIntersection tol.collapse p a b c eps
    let qIn := pointTriangleIntersection tol.collapse q a b c eps
    if pIn.isSome ∧ qIn.isSome then .ok (.array [p, q])
    else do
      let out ← linesLineIntersection tol lstsq [(a, b), (b, c), (c, a)] p q eps
      if out.length ≠ 0 then pure (.array (dedup out.flatten))
      else if pIn.isSome then pure (.array [p])
      else if qIn.isSome then pure (.array [q])
      else
        let normal := cross (b - a) (c - a)
        let denom := dot normal (q - p)
        if IsClose eps eps denom 0 then pure .none
        else
          let t := dot normal (a - p) / denom
          if t < 0 ∨ t > 1 then pure .false
          else match pointTriangleIntersection tol.collapse (p + t • (q - p)) a b c eps with
            | Option.none => pure .none
            | some x => pure (.array [x])

/-- line_geometry_operations.py:232-250 `lines_triangle_intersection` -/
noncomputable def linesTriangleIntersection (tol : Tol) (lstsq : Pt ℝ → Pt ℝ → Pt ℝ → ℝ × ℝ)
    (dedup : List (Pt ℝ) → List (Pt ℝ)) (lines : List Line) (a b c : Pt ℝ) (eps : ℝ) :
    Res (List (Out (List (Pt ℝ))) × List Bool) := do
  let results ← mapRes (fun l => lineTriangleIntersection tol lstsq dedup l a b c eps) lines
  pure (withMask results)

/-- line_geometry_operations.py:267-303 `line_polygon_intersection`, with the function that
triangulates the polygon. -/
noncomputable def linePolygonIntersection (tol : Tol) (lstsq : Pt ℝ → Pt ℝ → Pt ℝ → ℝ × ℝ)
    (dedup : List (Pt ℝ) → List (Pt ℝ)) (argsort : List ℝ → List Nat)
    (triangulate : List (Pt ℝ) → Res (List Triangle)) (line : Line) (polygon : List (Pt ℝ))
    (eps : ℝ) : Res (Out (List (Pt ℝ))) := do
  let triangles ← triangulate polygon
  let results ← mapRes (fun (t : Triangle) =>
    lineTriangleIntersection tol lstsq dedup line t.1 t.2.1 t.2.2 eps) triangles
  if results.any Out.isArray then do
    let pts := dedup (results.filterMap Out.toOption).flatten
    let idx := argsort (pts.map fun x => norm3 (x - line.1))
    if pts.length > 2 then do
      let i ← getIdx idx 0
      let j ← getIdx idx (idx.length - 1)
      let x ← getIdx pts i
      let y ← getIdx pts j
      pure (.array [x, y])
    else do
      let out ← fancy pts idx
      pure (.array out)
  else pure .none

/-- line_geometry_operations.py:306-325 `lines_polygon_intersection` -/
noncomputable def linesPolygonIntersection (tol : Tol) (lstsq : Pt ℝ → Pt ℝ → Pt ℝ → ℝ × ℝ)
    (dedup : List (Pt ℝ) → List (Pt ℝ)) (argsort : List ℝ → List Nat)
    (triangulate : List (Pt ℝ) → Res (List Triangle)) (lines : List Line) (polygon : List (Pt ℝ))
    (eps : ℝ) : Res (List (Out (List (Pt ℝ))) × List Bool) := do
  let results ← mapRes (fun l =>
    linePolygonIntersection tol lstsq dedup argsort triangulate l polygon eps) lines
  pure (withMask results)

end Verif.Geometry
