/-
Model of `domain_difference` and `domain_union`
(src/topology/operations/domain_operations.py:87-218) for domains of dimension one, over the real
numbers.

Edges have no immersed shapes.  `copy.copy` of a shape keeps its boundary, so values stand for
shapes.  In `domain_union` the boundary of an edge may get any number of vertices.
-/
import Verif.Model.VertexOps
import Verif.Model.MeshOps

namespace Verif.DomainOps
open MeshBuild MeshGraph Trace Geometry VertexOps
open scoped Classical

/-- `Domain(dimension=1)`: `shapes[0]` and `shapes[1]`. -/
structure Dom where
  vertices : List Vtx
  edges : List Edg

/-- `shapes_by_co_dimension[0][(0, tag)] = edge` -/
def putEdge (d : Dict Int Edg) (e : Edg) : Dict Int Edg := d.set e.tag e

/-- `shapes_by_co_dimension[1][(1, tag)] = vertex` -/
def putVertex (d : Dict Int Vtx) (v : Vtx) : Dict Int Vtx := d.set v.tag v

/-- Lines 117-138: one pass of the loop. -/
def diffStep (st : Dict Int Edg × Dict Int Vtx) (r : Edg × List Edg × List Vtx) :
    Dict Int Edg × Dict Int Vtx :=
  let st := (r.2.1.foldl putEdge st.1, r.2.2.foldl putVertex st.2)
  if r.2.1.length = 0 ∧ r.2.2.length = 0 then
    (putEdge st.1 r.1, putVertex (putVertex st.2 r.1.first) r.1.second)
  else st

/-- domain_operations.py:87-149 `domain_difference` of a domain with the edges `edges` and a domain
with the vertices `tools`.  The result is never `None`: a domain has a list for every
dimension. -/
noncomputable def domainDifference (P : Params) (edges : List Edg) (tools : List Vtx) (tag : Int)
    (eps : ℝ) : Res Dom := do
  let out ← verticesEdgesDifference P tools eps tag edges
  if edges.length ≠ out.length then .error .assertionError
  else
    let st := out.foldl diffStep ([], [])
    pure ⟨Dict.values st.2, Dict.values st.1⟩

/-! ### Union -/

/-- An edge after its boundary was swapped. -/
structure UEdge where
  tag : Int
  physical : Option Int
  boundary : List Vtx

/-- The result of `domain_union`. -/
structure UDom where
  vertices : List Vtx
  edges : List UEdge

/-- An index `(co-dimension, tag)`. -/
abbrev Idx := Nat × Int

/-- domain.py:88-123 `build_grahp` for edges. -/
def edgeGraph (edges : List Edg) : DiGraph Idx :=
  DiGraph.ofEdges (edges.flatMap fun e =>
    [((0, e.tag), (1, e.first.tag)), ((0, e.tag), (1, e.second.tag))])

/-- `list(md_G_partial.predecessors(index))[0]` -/
def firstPredecessor (g : DiGraph Idx) (i : Idx) : Res Idx := do
  let l ← g.predecessors i
  getIdx l 0

/-- Lines 180-190: one pass of the loop over the vertices of the second domain. -/
noncomputable def unionStep (P : Params) (c0 : Dom) (g : DiGraph Idx) (v : Vtx) :
    Res (DiGraph Idx) := do
  let chunk := (c0.vertices.filter fun w => SameGeometry w v P.incidence).map fun w =>
    ((1, w.tag) : Idx)
  let chunk := chunk.filter fun i => i ≠ (1, v.tag)
  let preds ← mapRes (firstPredecessor g) chunk
  let g := preds.foldl (fun g p => g.addEdge (p, (1, v.tag))) g
  pure (chunk.foldl DiGraph.removeNode g)

/-- The boundary setter (shape.py:71-90): sorted by tag. -/
def sortByTag (l : List Vtx) : List Vtx := l.insertionSort fun v w => v.tag ≤ w.tag

/-- Lines 203-212: the new boundary of one edge; `dfs_successors` has no entry for an edge without
successors. -/
def swapBoundary (g : DiGraph Idx) (all0 : Dict Int Edg) (all1 : Dict Int Vtx) (i : Idx) :
    Res UEdge := do
  let e ← all0.getItem i.2
  let succ ← g.successors i
  if succ = [] then .error .keyError
  else
    let b ← mapRes (fun j : Idx => all1.getItem j.2) succ
    pure ⟨e.tag, e.physical, sortByTag b⟩

/-- `create_domain` of vertices and edges: shapes are kept by the hash of dimension and tag. -/
def keepVertices (hash : Nat → Int → Int) (l : List Vtx) : List Vtx :=
  Dict.values (l.foldl (fun (d : Dict Int Vtx) v => d.set (hash 0 v.tag) v) [])

/-- See `keepVertices`. -/
def keepEdges (hash : Nat → Int → Int) (l : List UEdge) : List UEdge :=
  Dict.values (l.foldl (fun (d : Dict Int UEdge) e => d.set (hash 1 e.tag) e) [])

/-- domain_operations.py:152-218 `domain_union` -/
noncomputable def domainUnion (P : Params) (hash : Nat → Int → Int) (c0 c1 : Dom) : Res UDom := do
  let all0 := c1.edges.foldl putEdge (c0.edges.foldl putEdge [])
  let all1 := c1.vertices.foldl putVertex (c0.vertices.foldl putVertex [])
  let g ← c1.vertices.foldlM (unionStep P c0) (edgeGraph c0.edges)
  let c0Idx := g.nodes.filter fun i => i.1 = 0
  let c1Idx := g.nodes.filter fun i => i.1 = 1
  let vs ← mapRes (fun i : Idx => all1.getItem i.2) c1Idx
  let es ← mapRes (swapBoundary g all0 all1) c0Idx
  pure ⟨keepVertices hash vs, keepEdges hash es⟩

end Verif.DomainOps
