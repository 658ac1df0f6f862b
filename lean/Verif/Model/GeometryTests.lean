/-
Model of the tests of the domains without lines in tests/test_geometry/test_geometry.py (15-26, 37-130).

A test is the list of the conditions that it asserts, in order; a position of a list that is not there raises
`IndexError`.

Simplifications: numpy's `argsort` of fewer than 17 integers is an insertion sort, which is stable (see
Model/ShapeTests.lean); that of real numbers is a parameter.  The points of the first test are any.
-/
import Verif.Model.DomainMarket
import Verif.Model.EmbedVertex
import Verif.Model.ShapeTests

namespace Verif.GeometryTests
open Verif.Topology Verif.Topology.Shape Verif.VertexOps

/-- `(codimension, shape.tag)` -/
def node {P : Type} (codim : Int) (s : Shape P) : Int × Int := (codim, s.tag)

/-- `domain.shapes[dim][i]` -/
def shapeAt {P : Type} (d : Domain P) (dim i : Nat) : Res (Shape P) := do
  let l ← getIdx d.shapes dim
  getIdx l i

/-- test_geometry.py:37-49 `test_domain_1d` -/
def test1d {P : Type} (x y : P) : Res (List Bool) := do
  let d ← buildBox1D ShapeTests.argsort [x, y] none
  let g ← d.buildGraph 1
  let v0 ← shapeAt d 0 0
  let v1 ← shapeAt d 0 1
  let e0 ← shapeAt d 1 0
  let p0 ← g.predecessors (node 1 v0)
  let p0 ← getIdx p0 0
  let p1 ← g.predecessors (node 1 v1)
  let p1 ← getIdx p1 0
  let s ← g.successors (node 0 e0)
  let s0 ← getIdx s 0
  let s1 ← getIdx s 1
  pure [p0 == p1, node 1 v0 == s0, node 1 v1 == s1]

/-- A vertex as a shape, and an edge -/
def ofVtx (v : Vtx) : Shape (Trace.Pt ℝ) := .vertex v.tag v.physical v.point
def ofEdg (e : Edg) : Shape (Trace.Pt ℝ) := .composed .edge e.tag e.physical [ofVtx e.first, ofVtx e.second] []

/-- A shape as a vertex; others have no `point`. -/
def toVtx : Shape (Trace.Pt ℝ) → Res Vtx
  | .vertex t p x => .ok ⟨t, p, x⟩
  | .composed .. => .error .attributeError

/-- The points (x, 0, 0) -/
def onAxis (x : ℝ) : Trace.Pt ℝ := ![x, 0, 0]

/-- test_geometry.py:60-70: the vertices with their physical tags -/
def newOnes (maxVertexTag : Nat) (xs : List ℝ) (physicalTags : List Int) : List Vtx :=
  (xs.zipIdx.zip physicalTags).map fun x => ⟨x.1.2 + maxVertexTag, some x.2, onAxis x.1.1⟩

/-- test_geometry.py:52-77: the domain with the vertices embedded in its edge -/
noncomputable def domainWith (argsort : List ℝ → List Nat) (xs : List ℝ) : Res (Domain (Trace.Pt ℝ)) := do
  let d ← buildBox1D ShapeTests.argsort [onAxis 0, onAxis 1] none
  let vertices ← getIdx d.shapes 0
  let edges ← getIdx d.shapes 1
  let edge ← getIdx edges 0
  let a ← getIdx edge.boundary 0
  let a ← toVtx a
  let b ← getIdx edge.boundary 1
  let b ← toVtx b
  let e ← embedVertex argsort (newOnes vertices.length xs [4, 5, 6, 7, 8]) a b [] edges.length
  let edge := .composed .edge edge.tag edge.physicalTag [ofVtx e.first, ofVtx e.second] (e.parts.map ofEdg)
  let d : Domain (Trace.Pt ℝ) := { d with shapes := d.shapes.set 1 (edges.set 0 edge) }
  let d ← d.append (e.chosen.map ofVtx)
  d.append (e.parts.map ofEdg)

/-- test_geometry.py:78-106: the assertions of `test_domain_1d_vertex_in_edge` -/
def assertions {P : Type} (d : Domain P) : Res (List Bool) := do
  let g ← d.buildGraph 1
  let v0 ← shapeAt d 0 0
  let v1 ← shapeAt d 0 1
  let v2 ← shapeAt d 0 2
  let v3 ← shapeAt d 0 3
  let e0 ← shapeAt d 1 0
  let e1 ← shapeAt d 1 1
  let e2 ← shapeAt d 1 2
  let e3 ← shapeAt d 1 3
  let p0 ← g.predecessors (node 1 v0)
  let p1 ← g.predecessors (node 1 v1)
  let p00 ← getIdx p0 0
  let p10 ← getIdx p1 0
  let p01 ← getIdx p0 1
  let p11 ← getIdx p1 1
  let p2 ← g.predecessors (node 1 v2)
  let p20 ← getIdx p2 0
  let p21 ← getIdx p2 1
  let p3 ← g.predecessors (node 1 v3)
  let p30 ← getIdx p3 0
  let p31 ← getIdx p3 1
  let s ← g.successors (node 0 e0)
  let s0 ← getIdx s 0
  let s1 ← getIdx s 1
  let s2 ← getIdx s 2
  let s3 ← getIdx s 3
  let s4 ← getIdx s 4
  pure [p00 == p10, node 0 e1 == p01, node 0 e3 == p11, node 0 e1 == p20, node 0 e2 == p21, node 0 v2 == p30,
    node 0 v3 == p31, node 1 v0 == s0, node 1 v1 == s1, node 0 e1 == s2, node 0 e2 == s3, node 0 e3 == s4]

/-- test_geometry.py:52-106 `test_domain_1d_vertex_in_edge` -/
noncomputable def testVertexInEdge (argsort : List ℝ → List Nat) : Res (List Bool) := do
  let d ← domainWith argsort [1 / 4, 3 / 4, 7 / 4]
  assertions d

/-- test_geometry.py:23 -/
def square : List (Fin 3 → ℚ) := [![0, 0, 0], ![1, 0, 0], ![1, 1, 0], ![0, 1, 0]]

/-- test_geometry.py:109-130 `test_domain_2d`; `face_0` is `domain.shapes[0][0]` -/
def test2d (faceDim : Nat) : Res (List Bool) := do
  let d ← buildBox2D closePoints ShapeTests.argsort square none
  let g ← d.buildGraph 2
  let w ← shapeAt d 1 4
  let f ← shapeAt d faceDim 0
  let ps ← [0, 1, 2, 3].mapM fun i => do
    let e ← shapeAt d 1 i
    let p ← g.predecessors (node 1 e)
    let p ← getIdx p 0
    pure (node 1 w == p)
  let s ← g.successors (node 0 f)
  let s ← getIdx s 0
  pure (ps ++ [node 1 w == s])

end Verif.GeometryTests
