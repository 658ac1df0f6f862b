/-
Model of the repository's own tests of the operations on vertices and edges
(tests/test_topology/test_vertex_shapes_intersection.py, test_edge_shapes_intersection.py), over the real numbers.

A test is the list of the conditions that it asserts, in order.  A condition on a vertex that was not found is false:
`None` has no attribute `tag`.  `P` has the tolerances of `globals.py`, `f` is `np.linalg.lstsq`.
-/
import Verif.Model.EdgeOps

namespace Verif.VertexTests
open MeshBuild MeshGraph Trace MeshMetrics Geometry VertexOps EdgeOps
open scoped Classical

noncomputable section

/-- A vertex whose tag may be any number -/
structure TVtx where
  tag : ℝ
  point : Pt ℝ

def ofVtx (v : Vtx) : TVtx := ⟨v.tag, v.point⟩

/-- The vertex that `vertex_vertex_intersection` returns -/
def met (object : Vtx) : Met → TVtx
  | .object => ofVtx object
  | .made v => ofVtx v

/-- The vertex that is found on the edge `e`; the value of `line_line_intersection` is no point. -/
def found (e : Edg) : Found → Option TVtx
  | .first => some (ofVtx e.first)
  | .second => some (ofVtx e.second)
  | .made t x => some ⟨t, x⟩
  | .raw _ _ => none

/-- `vertex_with_same_geometry_q`, `==` and `vertex_strong_equality_q` (vertex_operations.py:21-34, vertex.py:16-19) -/
def Same (P : Params) (v w : TVtx) : Prop := Close P.incidence P.incidence v.point w.point
def Eq' (v w : TVtx) : Prop := v.tag = w.tag ∧ DefaultClose v.point w.point
def Strong (P : Params) (v w : TVtx) : Prop := Eq' v w ∧ Same P v w

/-- `Vertex(t, np.array([x, y, z]))` and `Edge(t, np.array([v, w]))` -/
def vtx (t : Int) (x y z : ℝ) : Vtx := ⟨t, none, ![x, y, z]⟩
def edge (t : Int) (v w : Vtx) : Edg := mkEdge t none v w

/-- test_vertex_shapes_intersection.py:10-18 `test_vertex_with_same_geometry` -/
def testSameGeometry (P : Params) : List Prop :=
  [SameGeometry (vtx 0 0 0 0) (vtx 1 0 0 0) P.incidence,
    ¬ SameGeometry (vtx 0 0 0 0) (vtx 1 (1 / 10 ^ 9) 0 0) P.incidence]

/-- test_vertex_shapes_intersection.py:21-31 `test_vertex_strong_equality` -/
def testStrongEquality (P : Params) : List Prop :=
  let v0 := vtx 0 0 0 0
  let v1 := vtx 1 0 0 0
  let v2 := vtx 0 (1 / 10 ^ 9) 0 0
  [StrongEquality P v0 v0, ¬ StrongEquality P v0 v1, EqVertex v0 v2, ¬ StrongEquality P v0 v2]

/-- test_vertex_shapes_intersection.py:34-55 `test_vertex_vertex_intersection` -/
def testVertexVertex (P : Params) : List Prop :=
  let v0 := vtx 0 0 0 0
  let v1 := vtx 1 1 0 0
  let v2 := vtx 2 0 0 0
  let v3 := vtx 1 (1 / 10) 0 0
  let v4 := vtx 2 0 (1 / 10) 0
  [vertexVertex P v1 v0 3 P.incidence = none,
    ∃ o, vertexVertex P v0 v2 2 P.incidence = some o ∧ Strong P (met v2 o) (ofVtx v2),
    ∃ o, vertexVertex P v0 v2 3 P.incidence = some o ∧ ¬ Strong P (met v2 o) (ofVtx v2),
    ∃ o, vertexVertex P v4 v3 2 (11 / 100) = some o ∧ Strong P (ofVtx v4) (met v3 o),
    vertexVertex P v4 v3 4 P.incidence = none]

/-- test_vertex_shapes_intersection.py:58-82 `test_vertex_edge_intersection` -/
def testVertexEdge (P : Params) : List Prop :=
  let v0 := vtx 0 0 0 0
  let v1 := vtx 1 (1 / 2) (1 / 2) (1 / 2)
  let v2 := vtx 2 (1 / 2) (1 / 2) (1 / 2)
  let v3 := vtx 2 (1 / 2) (1 / 2) 0
  let v4 := vtx 2 (1 / 4) (1 / 4) (1 / 4)
  let e0 := edge 0 v0 v1
  let out := fun v => (onEdge P v e0 minTag P.incidence).bind (found e0)
  [onEdge P v2 e0 minTag P.incidence ≠ none,
    ∃ o, out v2 = some o ∧ ¬ Eq' o (ofVtx v2),
    ∃ o, out v2 = some o ∧ Same P o (ofVtx v2),
    onEdge P v3 e0 minTag P.incidence = none,
    onEdge P v4 e0 minTag P.incidence ≠ none,
    ∃ o, out v4 = some o ∧ ¬ Eq' o (ofVtx v0),
    ∃ o, out v4 = some o ∧ ¬ Eq' o (ofVtx v1),
    ∃ o, out v4 = some o ∧ Same P o (ofVtx v4)]

/-- test_edge_shapes_intersection.py:11-27 `test_edge_with_same_geometry_q` -/
def testSameEdge (P : Params) : List Prop :=
  let e0 := edge 0 (vtx 0 0 0 0) (vtx 1 (1 / 2) (1 / 2) (1 / 2))
  let e1 := edge 1 (vtx 2 0 0 0) (vtx 3 (1 / 2) (1 / 2) (1 / 2))
  let e2 := edge 2 (vtx 4 (4 / 5) (4 / 5) (4 / 5)) (vtx 5 (1 / 2) (1 / 2) (1 / 2))
  [SameEdge e0 e1 P.collapse, ¬ SameEdge e0 e2 P.collapse, ¬ SameEdge e1 e2 P.collapse]

/-- test_edge_shapes_intersection.py:30-46 `test_edge_strong_equality_q` -/
def testStrongEdge (P : Params) : List Prop :=
  let e0 := edge 0 (vtx 0 0 0 0) (vtx 1 (1 / 2) (1 / 2) (1 / 2))
  let e1 := edge 0 (vtx 0 0 0 0) (vtx 1 (1 / 2) (1 / 2) (1 / 2))
  let e2 := edge 2 (vtx 2 (4 / 5) (4 / 5) (4 / 5)) (vtx 3 (1 / 2) (1 / 2) (1 / 2))
  [StrongEdge P e0 e1, ¬ StrongEdge P e0 e2, ¬ StrongEdge P e1 e2]

/-- The four vertices of the first case of `test_edge_edge_intersection` and those of the second. -/
def apart0 : Edg := edge 0 (vtx 0 0 0 (1 / 2)) (vtx 1 (1 / 2) (1 / 2) (1 / 2))
def apart1 : Edg := edge 1 (vtx 2 0 0 0) (vtx 3 (1 / 2) (1 / 2) 0)
def corner0 : Edg := edge 0 (vtx 0 0 0 0) (vtx 1 (1 / 2) (1 / 2) (1 / 2))
def corner1 : Edg := edge 1 (vtx 2 0 0 0) (vtx 3 (1 / 2) (1 / 2) 0)

/-- test_edge_shapes_intersection.py:49-86 `test_edge_edge_intersection`, for a function `inter` that intersects two
edges and gives new vertices the tag. -/
def testEdgeEdgeOf (P : Params) (inter : Edg → Edg → ℝ → Res (Option Found)) : List Prop :=
  let out0 := fun o => ∃ r, inter corner0 corner1 2 = .ok (some r) ∧ found corner1 r = some o
  let out1 := fun o => ∃ r, inter corner1 corner0 2 = .ok (some r) ∧ found corner0 r = some o
  [inter apart0 apart1 2 = inter apart1 apart0 2, inter apart0 apart1 2 = .ok none,
    ∃ o o', out0 o ∧ out1 o' ∧ Strong P o o',
    ∃ o, out0 o ∧ ¬ Strong P o (ofVtx (vtx 0 0 0 0)),
    ∃ o, out0 o ∧ ¬ Strong P o (ofVtx (vtx 2 0 0 0)),
    ∃ o, out0 o ∧ Same P o (ofVtx (vtx 0 0 0 0)),
    ∃ o, out1 o ∧ Same P o (ofVtx (vtx 2 0 0 0))]

/-- The test as it is. -/
def testEdgeEdge (P : Params) (f : Pt ℝ → Pt ℝ → Pt ℝ → ℝ × ℝ) : List Prop :=
  testEdgeEdgeOf P fun a b tag => edgeEdge P f a b tag P.incidence P.incidence

/-- `edge_edge_intersection` with the tag in the place of the tag: not in the repository. -/
def edgeEdgeMeant (P : Params) (f : Pt ℝ → Pt ℝ → Pt ℝ → ℝ × ℝ) (tool object : Edg)
    (tag pEps lEps : ℝ) : Res (Option Found) :=
  match edgeEdgeBoundary P tool object tag pEps with
  | some v => pure (some v)
  | none => do
    let out ← lineLineIntersection ⟨P.collapse, P.incidence⟩ f tool.first.point tool.second.point
      object.first.point object.second.point lEps
    match out with
    | .none => pure none
    | out => pure (some (.raw tag out))

end

end Verif.VertexTests
