/-
Model of the splitting of edges at vertices and of the intersection of vertices with edges
(src/topology/operations/vertex_operations.py), over the real numbers.

* `np.unique(np.round(points), axis=0, return_index=True)` and `np.argsort` are parameters.
* The tolerances of `globals.py` are parameters: `collapse` and `incidence`, both 1e-10 in the code.
-/
import Verif.Model.LineGeometry

namespace Verif.VertexOps
open MeshBuild MeshGraph Trace MeshMetrics Geometry
open scoped Classical

/-- `Vertex` -/
structure Vtx where
  tag : Int
  physical : Option Int
  point : Pt ℝ

/-- `Edge`, with its two boundary shapes. -/
structure Edg where
  tag : Int
  physical : Option Int
  first : Vtx
  second : Vtx

/-- `Edge(tag, np.array([v0, v1]))`: the boundary is sorted by tags (shape.py:71-90; `np.argsort` of
two entries keeps equal ones in order). -/
def mkEdge (tag : Int) (physical : Option Int) (v0 v1 : Vtx) : Edg :=
  if v1.tag < v0.tag then ⟨tag, physical, v1, v0⟩ else ⟨tag, physical, v0, v1⟩

/-- What the functions depend on. -/
structure Params where
  uniqueIdx : List (Pt ℝ) → List Nat
  argsort : List ℝ → List Nat
  collapse : ℝ
  incidence : ℝ

/-- `np.all(np.isclose(x, y))` with numpy's default tolerances -/
def DefaultClose (x y : Pt ℝ) : Prop := Close (1 / 10 ^ 5) (1 / 10 ^ 8) x y

/-- One new edge with its vertices `v0` and `v1`. -/
structure Seg where
  v0 : Vtx
  v1 : Vtx
  edge : Edg

/-- vertex_operations.py:204-230: the new shapes between consecutive points.  `startV` and `endV`
are the vertices used at the ends of the edge. -/
noncomputable def chainSegs (tol : ℝ) (edge : Edg) (startV endV : Vtx) :
    Int → List (Pt ℝ × Pt ℝ) → List Seg
  | _, [] => []
  | tag, (x, y) :: rest =>
    let atA : Prop := Close tol tol x edge.first.point
    let v0 : Vtx := if atA then startV else ⟨tag, edge.physical, x⟩
    let tag := if atA then tag else tag + 1
    let atB : Prop := Close tol tol y edge.second.point
    let v1 : Vtx := if atB then endV else ⟨tag, edge.physical, y⟩
    let tag := if atB then tag else tag + 1
    ⟨v0, v1, mkEdge tag edge.physical v0 v1⟩ :: chainSegs tol edge startV endV (tag + 1) rest

/-- vertex_operations.py:157-232 `vertices_edge_difference`: new edges and new vertices.  The
vertices used at the ends (lines 207, 217) are looked up before the loop. -/
noncomputable def verticesEdgeDifference (P : Params) (tools : List Vtx) (edge : Edg) (tag : Int)
    (eps : ℝ) : Res (List Edg × List Vtx) := do
  let pts := tools.map Vtx.point
  let uidx := P.uniqueIdx pts
  let pts ← fancy pts uidx
  let a := edge.first.point
  let b := edge.second.point
  let (out, mask) := pointsLineIntersection P.collapse pts a b eps
  let points := out.filterMap Out.toOption
  if points = [] then pure ([], [])
  else do
    let idx := P.argsort (points.map fun x => norm3 (x - a))
    let sorted ← fancy points idx
    let first ← getIdx sorted 0
    let last ← getIdx sorted (sorted.length - 1)
    let onA : Prop := DefaultClose first a
    let onB : Prop := DefaultClose last b
    let internal := if onA then idx.tail else idx
    if onB ∧ internal = [] then .error .indexError          -- `np.delete([], -1)`
    else do
      let internal := if onB then internal.dropLast else internal
      let inner ← fancy points internal
      let expanded := a :: inner ++ [b]
      let uniqueTools ← fancy tools uidx
      let sortedTools ← fancy (maskFilter uniqueTools mask) idx
      let toolA ← getIdx sortedTools 0
      let toolB ← getIdx sortedTools (sortedTools.length - 1)
      let segs := chainSegs P.incidence edge (if onA then toolA else edge.first)
        (if onB then toolB else edge.second) tag (expanded.zip expanded.tail)
      pure (segs.map Seg.edge, segs.flatMap fun s => [s.v0, s.v1])

/-- `np.max` of a non-empty list of tags -/
def maxTag : List Int → Res Int
  | [] => .error .valueError
  | t :: ts => pure (ts.foldl max t)

/-- vertex_operations.py:235-255 `vertices_edges_difference`: one triple per edge. -/
noncomputable def verticesEdgesDifference (P : Params) (tools : List Vtx) (eps : ℝ) :
    Int → List Edg → Res (List (Edg × List Edg × List Vtx))
  | _, [] => pure []
  | tag, edge :: edges => do
    let (newEdges, newVertices) ← verticesEdgeDifference P tools edge tag eps
    let tag ← (if newVertices.length ≠ 0 ∧ newEdges.length ≠ 0 then do
        let t ← maxTag (newVertices.map Vtx.tag ++ newEdges.map Edg.tag)
        pure (t + 1)
      else pure tag)
    let rest ← verticesEdgesDifference P tools eps tag edges
    pure ((edge, newEdges, newVertices) :: rest)

/-! ### Intersection of vertices with edges

The vertices that are returned may be the boundary vertices of the edge themselves, and their tags
are overwritten.  So vertices are kept in a store, and referred to by their position. -/

/-- An edge with references to its boundary vertices. -/
structure ERef where
  tag : Int
  first : Nat
  second : Nat

/-- vertex_operations.py:21-27 `vertex_with_same_geometry_q` -/
def SameGeometry (v w : Vtx) (eps : ℝ) : Prop := Close eps eps v.point w.point

/-- vertex_operations.py:30-34 `vertex_strong_equality_q`, with `Vertex.__eq__` (vertex.py:16-19) -/
def StrongEquality (P : Params) (v w : Vtx) : Prop :=
  (v.tag = w.tag ∧ DefaultClose v.point w.point) ∧ SameGeometry v w P.incidence

/-- `np.iinfo(np.int32).min`, the tag of the vertices before the loop of lines 129-134 -/
def minTag : Int := -2147483648

/-- `Vertex(tag, x)`: a new object -/
def alloc (s : List Vtx) (tag : Int) (x : Pt ℝ) : List Vtx × Option Nat :=
  (s ++ [⟨tag, none, x⟩], some s.length)

/-- vertex_operations.py:64-91 `vertex_edge_boundary_intersection` -/
noncomputable def vertexEdgeBoundary (P : Params) (s : List Vtx) (v : Vtx) (edge : ERef) (tag : Int)
    (eps : ℝ) : Res (List Vtx × Option Nat) := do
  let a ← getIdx s edge.first
  let b ← getIdx s edge.second
  if StrongEquality P v a then pure (s, some edge.first)
  else if StrongEquality P v b then pure (s, some edge.second)
  else if SameGeometry v a eps then pure (alloc s tag a.point)
  else if SameGeometry v b eps then pure (alloc s tag b.point)
  else pure (s, none)

/-- vertex_operations.py:94-111 `vertex_edge_intersection`; `point_line_intersection` is called
with its default tolerance. -/
noncomputable def vertexEdge (P : Params) (s : List Vtx) (tool : Nat) (edge : ERef) (tag : Int)
    (eps : ℝ) : Res (List Vtx × Option Nat) := do
  let v ← getIdx s tool
  let (s, bc) ← vertexEdgeBoundary P s v edge tag eps
  match bc with
  | some r => pure (s, some r)
  | none =>
    let a ← getIdx s edge.first
    let b ← getIdx s edge.second
    match pointLineIntersection P.collapse v.point a.point b.point P.incidence with
    | some x => pure (alloc s tag x)
    | none => pure (s, none)

/-- `list(map(intersect_with_line, vertices_tool))` -/
noncomputable def mapVertexEdge (P : Params) (edge : ERef) (eps : ℝ) :
    List Vtx → List Nat → Res (List Vtx × List (Option Nat))
  | s, [] => pure (s, [])
  | s, t :: tools => do
    let (s, r) ← vertexEdge P s t edge minTag eps
    let (s, rs) ← mapVertexEdge P edge eps s tools
    pure (s, r :: rs)

/-- `shape.tag = tag` -/
def setTag (s : List Vtx) (r : Nat) (tag : Int) : List Vtx :=
  s.modify r fun v => { v with tag := tag }

/-- vertex_operations.py:129-134: the results get consecutive tags -/
def retag : List Vtx → Int → List Nat → List Vtx
  | s, _, [] => s
  | s, tag, r :: rs => retag (setTag s r tag) (tag + 1) rs

/-- vertex_operations.py:114-137 `vertices_edge_intersection`: the store, the intersections and the
tools that have one. -/
noncomputable def verticesEdge (P : Params) (s : List Vtx) (tools : List Nat) (edge : ERef)
    (tag : Int) (eps : ℝ) : Res (List Vtx × List Nat × List Nat) := do
  let (s, rs) ← mapVertexEdge P edge eps s tools
  let refs := rs.filterMap id
  pure (retag s tag refs, refs, maskFilter tools (rs.map Option.isSome))

/-- vertex_operations.py:140-154 `vertices_edges_intersection` -/
noncomputable def verticesEdges (P : Params) (tools : List Nat) (eps : ℝ) :
    List Vtx → Int → List ERef → Res (List Vtx × List (ERef × List Nat × List Nat))
  | s, _, [] => pure (s, [])
  | s, tag, edge :: edges => do
    let (s, refs, ts) ← verticesEdge P s tools edge tag eps
    let vs ← fancy s refs
    let tag ← maxTag (vs.map Vtx.tag)
    let (s, rest) ← verticesEdges P tools eps s tag edges
    pure (s, (edge, refs, ts) :: rest)

end Verif.VertexOps
