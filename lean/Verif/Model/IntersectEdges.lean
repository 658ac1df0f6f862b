/-
Model of `intersect_edges` (src/topology/shape_manipulation.py:197-289) for one array of edges and wires, which is
passed as `edges_obj` and as `edges_tool` (the one call is domain_market.py:349-357), over the real numbers.

* Nothing is drawn.
* `np.argsort` is a parameter.
-/
import Verif.Model.EmbedVertex
import Verif.Model.TriangleTest

namespace Verif.VertexOps
open MeshBuild MeshGraph Trace MeshMetrics Geometry
open scoped Classical

/-- An edge with its immersed shapes -/
structure LEdge where
  tag : Int
  physical : Option Int
  first : Vtx
  second : Vtx
  parts : List Edg

/-- An entry of the array; `none` is a wire. -/
abbrev Item := Option LEdge

/-- shape_manipulation.py:206-210: the coordinates that are kept -/
def axesOf (axis : Int) : Fin 3 × Fin 3 := if axis = 0 then (1, 2) else if axis = 1 then (0, 2) else (0, 1)

/-- The edges with their numbers -/
def numbered (items : List Item) : List (Nat × LEdge) :=
  items.zipIdx.filterMap fun x => x.1.map fun e => (x.2, e)

/-- shape_manipulation.py:225-234: the pairs in the order of the loops -/
def edgePairs (items : List Item) : List ((Nat × LEdge) × (Nat × LEdge)) :=
  (numbered items).flatMap fun x => ((numbered items).filter fun y => decide (x.1 < y.1)).map fun y => (x, y)

/-- shape_manipulation.py:115-122 `point_on_edge_boundary` -/
noncomputable def endAt (x : Pt ℝ) (e : LEdge) : Option Vtx :=
  if DefaultClose x e.first.point then some e.first
  else if DefaultClose x e.second.point then some e.second
  else none

/-- vertex.py:16-19 `Vertex.__eq__` -/
def SameVertex (v w : Vtx) : Prop := v.tag = w.tag ∧ DefaultClose v.point w.point

/-- A row: the point, and the numbers of the two edges -/
abbrev Row := Pt ℝ × (Nat × Nat)

/-- shape_manipulation.py:238-245: is there an intersection that is not a common vertex? -/
noncomputable def crossing (pos : Fin 3 × Fin 3) (x : (Nat × LEdge) × (Nat × LEdge)) : Option (Pt ℝ) :=
  match lineLineTest (1 / 10 ^ 12) pos x.1.2.first.point x.1.2.second.point x.2.2.first.point x.2.2.second.point with
  | none => none
  | some (p, _) =>
    match endAt p x.1.2, endAt p x.2.2 with
    | some v, some w => if SameVertex v w then none else some p
    | _, _ => some p

/-- shape_manipulation.py:235-257: one pass of the inner loop -/
noncomputable def rowStep (pos : Fin 3 × Fin 3) (rows : List Row) (x : (Nat × LEdge) × (Nat × LEdge)) : List Row :=
  match crossing pos x with
  | none => rows
  | some p =>
    match rows.find? fun r => decide (DefaultClose p r.1) with
    | some r => rows ++ [(r.1, (x.1.1, x.2.1))]
    | none => rows ++ [(p, (x.1.1, x.2.1))]

/-- `np.unique(points, axis=0)` -/
noncomputable def uniquePoints (points : List (Pt ℝ)) : List (Pt ℝ) :=
  (uniqueVertices (points.map fun p => ⟨0, none, p⟩)).map Vtx.point

/-- shape_manipulation.py:266-271: vertices at these points -/
noncomputable def newVertices (vtag ptag : Int) (points : List (Pt ℝ)) : List Vtx :=
  points.zipIdx.map fun x => ⟨vtag + x.2, some (ptag + 1 + x.2), x.1⟩

/-- shape_manipulation.py:273-274: `vertices[inv_indices]` -/
noncomputable def vertexAt (vertices : List Vtx) (p : Pt ℝ) : Res Vtx :=
  match vertices.find? fun v => decide (v.point = p) with
  | some v => .ok v
  | none => .error .indexError

/-- shape_manipulation.py:275-287: the loop over the edges, from edge `i` on.  The result is the edges as they are
left and the new edges. -/
noncomputable def cutEdges (argsort : List ℝ → List Nat) (rows : List Row) (vertices : List Vtx) :
    Int → Nat → List Item → Res (List Item × List Edg)
  | _, _, [] => pure ([], [])
  | etag, i, none :: items => do
    let (items, edges) ← cutEdges argsort rows vertices etag (i + 1) items
    pure (none :: items, edges)
  | etag, i, some e :: items => do
    let cases := rows.filter fun r => decide (r.2.1 = i ∨ r.2.2 = i)
    if cases = [] then do
      let (items, edges) ← cutEdges argsort rows vertices etag (i + 1) items
      pure (some e :: items, edges)
    else do
      let vs ← mapRes (fun r : Row => vertexAt vertices r.1) cases
      let c ← embedVertex argsort vs e.first e.second e.parts etag
      let e : LEdge := ⟨e.tag, e.physical, c.first, c.second, c.parts⟩
      if e.parts.length > 0 then do
        let t ← maxTag (e.parts.map Edg.tag)
        let (items, edges) ← cutEdges argsort rows vertices (t + 1) (i + 1) items
        pure (some e :: items, e.parts ++ edges)
      else do
        let (items, edges) ← cutEdges argsort rows vertices etag (i + 1) items
        pure (some e :: items, edges)

/-- What `intersect_edges` leaves and returns -/
structure Fragments where
  items : List Item
  edges : List Edg
  vertices : List Vtx

/-- shape_manipulation.py:197-289 `intersect_edges` -/
noncomputable def intersectEdges (argsort : List ℝ → List Nat) (items : List Item) (axis etag vtag ptag : Int) :
    Res Fragments := do
  let rows := (edgePairs items).foldl (rowStep (axesOf axis)) []
  if rows.length > 0 then do
    let vertices := newVertices vtag ptag (uniquePoints (rows.map Prod.fst))
    let (items, edges) ← cutEdges argsort rows vertices etag 0 items
    pure ⟨items, edges, vertices⟩
  else pure ⟨items, [], []⟩

end Verif.VertexOps
