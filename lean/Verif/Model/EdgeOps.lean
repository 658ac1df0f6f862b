/-
Model of the operations on edges (src/topology/operations/edge_operations.py), of
`collapse_vertex` and `vertex_vertex_intersection` (vertex_operations.py:37-61) and of
`domain_intersection` (domain_operations.py:47-84), over the real numbers.

* Edges have no immersed shapes, and shapes are active and not composite; `shape_assignment` then copies
  the tag, the physical tag and the boundary or the point.
* Tags of made vertices are real numbers: `edge_edge_intersection` passes a tolerance as a tag.
* `Shape.dimension` has a setter without effect; the dimensions agree anyway.
-/
import Verif.Model.DomainOps

namespace Verif.EdgeOps
open MeshBuild MeshGraph Trace MeshMetrics Geometry VertexOps DomainOps
open scoped Classical

/-- vertex_operations.py:37-46 `collapse_vertex`: the object afterwards, if it is returned. -/
noncomputable def collapseVertex (P : Params) (tool object : Vtx) (eps : ℝ) : Option Vtx :=
  if StrongEquality P tool object then some object
  else if SameGeometry tool object eps then
    some { object with tag := tool.tag, physical := tool.physical, point := tool.point }
  else none

/-- A vertex that is returned: the given object, or a new one. -/
inductive Met where
  | object
  | made (v : Vtx)

/-- vertex_operations.py:49-61 `vertex_vertex_intersection` -/
noncomputable def vertexVertex (P : Params) (tool object : Vtx) (tag : Int) (eps : ℝ) : Option Met :=
  if StrongEquality P tool object then some .object
  else if SameGeometry tool object eps then some (.made ⟨tag, none, tool.point⟩)
  else none

/-- edge_operations.py:14-20 `edge_with_same_geometry_q` -/
def SameEdge (a b : Edg) (eps : ℝ) : Prop :=
  SameGeometry a.first b.first eps ∧ SameGeometry a.second b.second eps

/-- `Vertex.__eq__` (vertex.py:16-19) -/
def EqVertex (v w : Vtx) : Prop := v.tag = w.tag ∧ DefaultClose v.point w.point

/-- edge_operations.py:23-27 `edge_strong_equality_q` with `Shape.__eq__`; the tolerance is
`geometry_collapse_tol`. -/
def StrongEdge (P : Params) (a b : Edg) : Prop :=
  (a.tag = b.tag ∧ EqVertex a.first b.first ∧ EqVertex a.second b.second) ∧ SameEdge a b P.collapse

/-- edge_operations.py:30-37 `collapse_edge`: the object afterwards, if it is returned. -/
noncomputable def collapseEdge (P : Params) (tool object : Edg) (eps : ℝ) : Option Edg :=
  if StrongEdge P tool object then some object
  else if SameEdge tool object eps then
    some (mkEdge tool.tag tool.physical tool.first tool.second)
  else none

/-- A vertex that is found on an edge. -/
inductive Found where
  /-- the first or the second vertex of the edge itself -/
  | first
  | second
  /-- `Vertex(tag, x)` -/
  | made (tag : ℝ) (x : Pt ℝ)
  /-- `Vertex(tag, out)` with the value of `line_line_intersection` for the point -/
  | raw (tag : ℝ) (out : LineOut)

/-- vertex_operations.py:64-91 `vertex_edge_boundary_intersection` -/
noncomputable def onBoundary (P : Params) (v : Vtx) (e : Edg) (tag eps : ℝ) : Option Found :=
  if StrongEquality P v e.first then some .first
  else if StrongEquality P v e.second then some .second
  else if SameGeometry v e.first eps then some (.made tag e.first.point)
  else if SameGeometry v e.second eps then some (.made tag e.second.point)
  else none

/-- vertex_operations.py:94-111 `vertex_edge_intersection` -/
noncomputable def onEdge (P : Params) (v : Vtx) (e : Edg) (tag eps : ℝ) : Option Found :=
  match onBoundary P v e tag eps with
  | some f => some f
  | none => (pointLineIntersection P.collapse v.point e.first.point e.second.point P.incidence).map
      (.made tag)

/-- edge_operations.py:40-69 `edge_edge_boundary_intersection` -/
noncomputable def edgeEdgeBoundary (P : Params) (tool object : Edg) (tag eps : ℝ) : Option Found :=
  match onBoundary P tool.first object tag eps, onBoundary P tool.second object tag eps with
  | some f, _ => some f
  | none, some f => some f
  | none, none =>
    match onEdge P tool.first object tag eps, onEdge P tool.second object tag eps with
    | some f, _ => some f
    | none, some f => some f
    | none, none => none

/-- edge_operations.py:72-90 `edge_edge_intersection`.  The third argument of the first call is the
tag. -/
noncomputable def edgeEdge (P : Params) (lstsq : Pt ℝ → Pt ℝ → Pt ℝ → ℝ × ℝ) (tool object : Edg)
    (tag pEps lEps : ℝ) : Res (Option Found) :=
  match edgeEdgeBoundary P tool object pEps P.incidence with
  | some f => pure (some f)
  | none => do
    let out ← lineLineIntersection ⟨P.collapse, P.incidence⟩ lstsq tool.first.point tool.second.point
      object.first.point object.second.point lEps
    match out with
    | .none => pure none
    | out => pure (some (.raw tag out))

/-- domain_operations.py:47-84 `domain_intersection` of a domain with the vertices `tools` and a domain
with the edges `edges`, of which at least one has dimension one: the vertices of the result.  The tags
are read at the end, after all of them were set. -/
noncomputable def domainIntersection (P : Params) (hash : Nat → Int → Int) (s : List Vtx)
    (tools : List Nat) (edges : List ERef) (tag : Int) (eps : ℝ) : Res (Option (List Vtx)) := do
  let (s, out) ← verticesEdges P tools eps s tag edges
  if out.length = 0 then pure none
  else do
    let vs ← fancy s (out.flatMap fun o => o.2.1)
    pure (some (keepVertices hash vs))

end Verif.EdgeOps
