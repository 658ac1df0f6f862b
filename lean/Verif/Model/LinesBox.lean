/-
Model of `build_disjoint_lines` and `build_box_2D_with_lines` (src/topology/domain_market.py:305-370) with
`embed_edge_in_face` (shape_manipulation.py:292-293) and `refresh_wires`, `retag_shapes` and `remove_vertex`
(src/topology/domain.py:48-65, 79-84), over the real numbers.

* The lines are given, not read from a file.
* Shapes are values.  A mutable edge is told from others by its tag while tags differ, which they do until
  `retag_shapes`: `current` looks an edge up, and retagging is renaming by the last assignment to a dimension and tag.
* The sortings are parameters.
-/
import Verif.Model.IntersectEdges
import Verif.Model.MdBox

namespace Verif.LinesBox
open MeshBuild MeshGraph Trace MeshMetrics Geometry VertexOps Topology
open MdBox (asEdg vertexShape close)
open scoped Classical

/-- An edge without immersed shapes as a shape -/
def partShape (e : Edg) : Shape (Pt ℝ) :=
  .composed .edge e.tag e.physical [vertexShape e.first, vertexShape e.second] []

/-- An edge as a shape -/
def edgeShape (e : LEdge) : Shape (Pt ℝ) :=
  .composed .edge e.tag e.physical [vertexShape e.first, vertexShape e.second] (e.parts.map partShape)

/-- A shape read as an entry of the array that is passed to `intersect_edges` -/
def asItem (s : Shape (Pt ℝ)) : Res Item :=
  if s.composite then pure none
  else do
    let e ← asEdg s
    let parts ← mapRes asEdg s.immersed
    pure (some ⟨e.tag, e.physical, e.first, e.second, parts⟩)

/-- domain_market.py:311-323: the loop of `build_disjoint_lines`, the two vertices and the edge of each line -/
def disjointLines : Int → Int → Int → List Line → List (Vtx × Vtx × Edg)
  | _, _, _, [] => []
  | v, e, p, l :: ls =>
    let v0 : Vtx := ⟨v, none, l.1⟩
    let v1 : Vtx := ⟨v + 1, none, l.2⟩
    (v0, v1, mkEdge e (some p) v0 v1) :: disjointLines (v + 2) (e + 1) (p + 1) ls

/-- shape_manipulation.py:292-293 `embed_edge_in_face` -/
def embedEdges (edges : List (Shape (Pt ℝ))) : Shape (Pt ℝ) → Res (Shape (Pt ℝ))
  | .vertex .. => .error .attributeError
  | .composed k t p b i => do
    let i ← Shape.setImmersed k (i ++ edges)
    pure (.composed k t p b i)

/-- The array of edges and wires after the edges were changed to `items` -/
def writeEdges : List (Shape (Pt ℝ)) → List Item → List (Shape (Pt ℝ))
  | _ :: ss, some e :: items => edgeShape e :: writeEdges ss items
  | s :: ss, none :: items => s :: writeEdges ss items
  | _, _ => []

/-- The edge `s` as it is now -/
def current (edges : List (Shape (Pt ℝ))) (s : Shape (Pt ℝ)) : Shape (Pt ℝ) :=
  (edges.find? fun x => decide (x.composite = false ∧ x.tag = s.tag)).getD s

/-- A wire with its edges as they are now -/
def updateWire (edges : List (Shape (Pt ℝ))) : Shape (Pt ℝ) → Shape (Pt ℝ)
  | .vertex t p x => .vertex t p x
  | .composed k t p b i => if k.composite then .composed k t p b (i.map (current edges)) else .composed k t p b i

/-- A face with its wires and edges as they are now -/
def updateFace (edges : List (Shape (Pt ℝ))) : Shape (Pt ℝ) → Shape (Pt ℝ)
  | .vertex t p x => .vertex t p x
  | .composed k t p b i => .composed k t p (b.map (updateWire edges)) (i.map (current edges))

/-- The domain after its edges were changed to `items` -/
def update (d : Domain (Pt ℝ)) (items : List Item) : Res (Domain (Pt ℝ)) := do
  let s1 ← getIdx d.shapes 1
  let s2 ← getIdx d.shapes 2
  let edges := writeEdges s1 items
  pure { d with shapes := (d.shapes.set 1 (edges.map (updateWire edges))).set 2 (s2.map (updateFace edges)) }

/-- domain.py:48-49 `refresh_wires`: the orientations of the wires -/
noncomputable def refreshWires (d : Domain (Pt ℝ)) : Res (List (List Int)) := do
  let s1 ← getIdx d.shapes 1
  mapRes (fun s => Shape.orientEdges close s.view.immersed) (s1.filter fun s => s.composite)

/-- domain.py:79-84 `remove_vertex` -/
def removeVertex (d : Domain (Pt ℝ)) (g : DiGraph (Int × Int)) : Res (Domain (Pt ℝ)) := do
  let s0 ← getIdx d.shapes 0
  pure { d with shapes := d.shapes.set 0 (s0.filter fun s => decide (((d.dimension : Int), s.tag) ∈ g.nodes)) }

/-- domain.py:53-61: the shapes that get tags 0, 1, …, in this order; the guard on line 58 never holds. -/
def taggedShapes (shapes : List (Shape (Pt ℝ))) : List (Shape (Pt ℝ)) :=
  shapes.flatMap fun s => s :: s.view.immersed

/-- domain.py:51-61 `retag_shapes_with_dimension`, as the list of assignments -/
def assignments (shapes : List (Shape (Pt ℝ))) : List ((Nat × Int) × Int) :=
  (taggedShapes shapes).zipIdx.map fun x => (x.1.identity, (x.2 : Int))

/-- The tag that the shape with this dimension and tag has after the assignments -/
def newTag (l : List ((Nat × Int) × Int)) (i : Nat × Int) : Int :=
  match l.reverse.find? fun a => decide (a.1 = i) with
  | some a => a.2
  | none => i.2

mutual
/-- A shape with other tags -/
def rename (f : Nat × Int → Int) : Shape (Pt ℝ) → Shape (Pt ℝ)
  | .vertex t p x => .vertex (f (0, t)) p x
  | .composed k t p b i => .composed k (f (k.dimension, t)) p (renameAll f b) (renameAll f i)
def renameAll (f : Nat × Int → Int) : List (Shape (Pt ℝ)) → List (Shape (Pt ℝ))
  | [] => []
  | s :: ss => rename f s :: renameAll f ss
end

/-- domain.py:63-65 `retag_shapes` -/
def retagShapes (d : Domain (Pt ℝ)) : Domain (Pt ℝ) :=
  { d with shapes := d.shapes.map (renameAll (newTag (d.shapes.flatMap assignments))) }

/-- What is built: the domain, with the orientations of its wires and its graph -/
structure Built where
  domain : Domain (Pt ℝ)
  orientations : List (List Int)
  graph : DiGraph (Int × Int)

/-- domain_market.py:326-370 `build_box_2D_with_lines` -/
noncomputable def buildBoxWithLines (argsort : List ℝ → List Nat) (argsortTag : List Int → List Nat)
    (points : List (Pt ℝ)) (lines : List Line) (physicalTags : Option (Dict String Int)) : Res Built := do
  let tags := physicalTags.getD defaultTags2
  let d ← buildBox2D close argsortTag points (some tags)
  let s0 ← getIdx d.shapes 0
  let s1 ← getIdx d.shapes 1
  let p ← d.maxPhysicalTag
  let s2 ← getIdx d.shapes 2
  let face ← getIdx s2 0
  let new := disjointLines s0.length s1.length (p + 1) lines
  let face ← embedEdges (new.map fun x => partShape x.2.2) face
  let d : Domain (Pt ℝ) := { d with shapes := d.shapes.set 2 (s2.set 0 face) }
  let d ← d.append (new.flatMap fun x => [vertexShape x.1, vertexShape x.2.1])
  let d ← d.append (new.map fun x => partShape x.2.2)
  let s0 ← getIdx d.shapes 0
  let s1 ← getIdx d.shapes 1
  let p ← d.maxPhysicalTag
  let items ← mapRes asItem s1
  let out ← intersectEdges argsort items 2 s1.length s0.length p
  let d ← update d out.items
  let d ← d.append (out.vertices.map vertexShape)
  let d ← d.append (out.edges.map partShape)
  let orientations ← refreshWires d
  let g ← d.buildGraph 2
  let d ← removeVertex d g
  let d := retagShapes d
  let g ← d.buildGraph 2
  pure ⟨d, orientations, g⟩

end Verif.LinesBox
