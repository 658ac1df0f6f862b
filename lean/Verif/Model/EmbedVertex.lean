/-
Model of `embed_vertex_in_edge` (src/topology/shape_manipulation.py:115-194), over the real numbers.

* Points are moved by `- translation` and back; over the real numbers this has no effect.
* Values stand for shapes: after repeated points have been removed all vertices are different
  objects.  The two vertices of the edge are different objects.
* `np.argsort` is a parameter.
-/
import Verif.Model.VertexOps

namespace Verif.VertexOps
open MeshBuild MeshGraph Trace MeshMetrics Geometry
open scoped Classical

/-- The order in which `np.unique` puts the rows of an array -/
def LexLe (x y : Pt ℝ) : Prop := x 0 < y 0 ∨ (x 0 = y 0 ∧ (x 1 < y 1 ∨ (x 1 = y 1 ∧ x 2 ≤ y 2)))

/-- The first vertex at each point -/
noncomputable def firstOnes : List Vtx → List Vtx
  | [] => []
  | v :: vs => v :: (firstOnes vs).filter fun w => decide (w.point ≠ v.point)

/-- shape_manipulation.py:150-152: `vertices[np.unique(points, return_index=True, axis=0)[1]]` -/
noncomputable def uniqueVertices (vs : List Vtx) : List Vtx :=
  (firstOnes vs).mergeSort fun v w => decide (LexLe v.point w.point)

/-- The ends of the edge, and which vertices were found to be there -/
structure Ends where
  first : Vtx
  second : Vtx
  onBc : List Nat

/-- shape_manipulation.py:115-122 `point_on_edge_boundary`, 137-145 `embed_vertex_in_edge_boundary` and
155-160: one pass of the loop. -/
noncomputable def endStep (s : Ends) (x : Vtx × Nat) : Ends :=
  if DefaultClose x.1.point s.first.point then ⟨x.1, s.second, s.onBc ++ [x.2]⟩
  else if DefaultClose x.1.point s.second.point then ⟨s.first, x.1, s.onBc ++ [x.2]⟩
  else s

/-- shape_manipulation.py:173-184: is the vertex embedded? -/
noncomputable def inside (s : Ends) (x : Vtx × Nat) : Bool :=
  let ra := norm3 (s.first.point - s.first.point)
  let rb := norm3 (s.second.point - s.first.point)
  let r := norm3 (x.1.point - s.first.point)
  decide (x.2 ∉ s.onBc ∧ (ra < r ∧ r < rb) ∧
    ¬ IsClose (1 / 10 ^ 5) (1 / 10 ^ 8) r ra ∧ ¬ IsClose (1 / 10 ^ 5) (1 / 10 ^ 8) r rb)

/-- The parts made of a list of vertices (lines 190-192) -/
def partsOf : Int → List Vtx → List Edg
  | tag, v :: w :: vs => mkEdge tag none v w :: partsOf (tag + 1) (w :: vs)
  | _, _ => []

/-- What `embed_vertex_in_edge` leaves: the ends of the edge, its immersed shapes, and the result. -/
structure Embedded where
  first : Vtx
  second : Vtx
  parts : List Edg
  chosen : List Vtx

/-- shape_manipulation.py:148-194 `embed_vertex_in_edge` -/
noncomputable def embedVertex (argsort : List ℝ → List Nat) (vertices : List Vtx) (first second : Vtx)
    (parts : List Edg) (tag : Int) : Res Embedded := do
  let vs := (uniqueVertices vertices).zipIdx
  let s := vs.foldl endStep ⟨first, second, []⟩
  let chosen := (vs.filter (inside s)).map Prod.fst
  let norms := ([s.first, s.second] ++ chosen).map fun v => norm3 (v.point - s.first.point)
  if norms.length > 2 then do
    let list ← fancy ([s.first, s.second] ++ chosen) (argsort norms)
    pure ⟨s.first, s.second, parts ++ partsOf tag list, chosen⟩
  else pure ⟨s.first, s.second, parts, chosen⟩

end Verif.VertexOps
