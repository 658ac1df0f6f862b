/-
What a box with lines is expected to be.
-/
import Verif.Model.LinesBox
import Verif.Spec.IntersectEdges
import Verif.Spec.MdBox
import Mathlib.Order.Bounds.Basic

namespace Verif.LinesBox
open MeshBuild MeshGraph Trace MeshMetrics Geometry VertexOps Topology
open MdBox (vertexShape close corners IsBox)
open scoped Classical

/-- An edge without immersed shapes -/
def bare (e : Edg) : LEdge := ⟨e.tag, e.physical, e.first, e.second, []⟩

/-- The edge of line `j`, for a box with `n` corners whose greatest physical tag is `p` -/
def lineEdge (n : Nat) (p : Int) (j : Nat) (l : Line) : Edg :=
  ⟨n + 1 + j, some (p + 1 + j), ⟨n + 2 * j, none, l.1⟩, ⟨n + 2 * j + 1, none, l.2⟩⟩

/-- The edges of the lines -/
def lineEdges (n : Nat) (p : Int) (lines : List Line) : List Edg := lines.zipIdx.map fun x => lineEdge n p x.2 x.1

/-- The greatest of the physical tags of the box -/
def IsMaxTag (n : Nat) (tags : Dict String Int) (p : Int) : Prop :=
  IsGreatest {t | tags.get? "area" = some t ∨ ∃ i < n, tags.get? (bcLabel i) = some t} p

/-- The sides, the wire and the lines before anything is cut -/
def drawn (rock ls : List Edg) : List Item := rock.map (fun e => some (bare e)) ++ none :: ls.map fun e => some (bare e)

/-- All vertices: the corners, the ends of the lines, and the new ones -/
def allVertices (points : List (Pt ℝ)) (ls : List Edg) (new : List Vtx) : List Vtx :=
  corners points ++ (ls.flatMap fun e => [e.first, e.second]) ++ new

/-- The vertices that stay: corner 0, the new ones and those at which nothing is cut -/
noncomputable def keptVertices (points : List (Pt ℝ)) (rock ls : List Edg) (new : List Vtx) : List Vtx :=
  (allVertices points ls new).filter fun v =>
    decide (v.tag = 0 ∨ v ∈ new ∨ ¬ ∃ i, CutAt (drawn rock ls) i v.point)

/-- The pieces of edges -/
def allPieces (es : List LEdge) : List Edg := es.flatMap LEdge.pieces

/-- The parts of edges that are cut -/
def allParts (es : List LEdge) : List Edg := es.flatMap LEdge.parts

def relabelVtx (f : Int → Int) (v : Vtx) : Vtx := ⟨f v.tag, v.physical, v.point⟩
def relabelEdg (f g : Int → Int) (e : Edg) : Edg := ⟨g e.tag, e.physical, relabelVtx f e.first, relabelVtx f e.second⟩
def relabelEdge (f g : Int → Int) (e : LEdge) : LEdge :=
  ⟨g e.tag, e.physical, relabelVtx f e.first, relabelVtx f e.second, e.parts.map (relabelEdg f g)⟩

/-- The tags in the end: `f` for vertices, `g` for edges and the wire. -/
structure Numbering (n : Nat) (kept : List Vtx) (sides ls : List LEdge) (f g : Int → Int) : Prop where
  vertices : ∀ (k : Nat) v, kept[k]? = some v → f v.tag = k
  wire : g n = n + (allParts sides).length
  uncut : ∀ (k : Nat) e, (allPieces sides)[k]? = some e → e.tag < n → g e.tag = n + (allParts sides).length + 1 + k
  lines : ∀ (j : Nat) e, ls[j]? = some e → g e.tag = 1 + j
  parts : ∀ (k : Nat) e, (allParts sides ++ allParts ls)[k]? = some e → g e.tag =
    n + (allParts sides).length + 1 + (allPieces sides).length + ls.length + (allParts ls).length + k

/-- The wire around the box -/
def wireOf (f g : Int → Int) (v : Vtx) (sides : List LEdge) : Shape (Pt ℝ) :=
  .composed .wire (g sides.length) none [vertexShape (relabelVtx f v), vertexShape (relabelVtx f v)]
    (sides.map fun e => edgeShape (relabelEdge f g e))

/-- The face -/
def faceOf (f g : Int → Int) (area : Option Int) (v : Vtx) (sides ls : List LEdge) : Shape (Pt ℝ) :=
  .composed .face 0 area [wireOf f g v sides] (ls.map fun e => edgeShape (relabelEdge f g e))

/-- The domain -/
def domainOf (f g : Int → Int) (area : Option Int) (v : Vtx) (vs : List Vtx) (sides ls : List LEdge) :
    Domain (Pt ℝ) :=
  ⟨2, [vs.map fun v => vertexShape (relabelVtx f v),
    (sides.map fun e => edgeShape (relabelEdge f g e)) ++ [wireOf f g v sides] ++
      (ls.map fun e => edgeShape (relabelEdge f g e)) ++
      (allParts sides ++ allParts ls).map fun e => partShape (relabelEdg f g e),
    [faceOf f g area v sides ls]]⟩

/-- The domain that is built from the fragments `out` of the box and the lines -/
structure IsBuilt (points : List (Pt ℝ)) (tags : Dict String Int) (rock ls : List Edg) (out : Fragments)
    (sides cut : List LEdge) (f g : Int → Int) (r : Built) : Prop where
  items : out.items = sides.map some ++ none :: cut.map some
  length : sides.length = points.length ∧ cut.length = ls.length
  numbering : Numbering points.length (keptVertices points rock ls out.vertices) sides cut f g
  domain : ∃ v, (corners points)[0]? = some v ∧ r.domain = domainOf f g (tags.get? "area") v
    (keptVertices points rock ls out.vertices) sides cut
  oriented : ∃ signs, r.orientations = [signs] ∧ Shape.orientEdges close ((allPieces sides).map partShape) = .ok signs
  graph : r.domain.buildGraph 2 = .ok r.graph

/-- The arguments: a box whose sides, with the lines, are a drawing. -/
structure IsScene (argsort : List ℝ → List Nat) (argsortTag : List Int → List Nat) (points : List (Pt ℝ))
    (lines : List Line) (physicalTags : Option (Dict String Int)) (rock : List Edg) (p : Int) : Prop where
  argsort : Fracture.IsArgsort argsort
  argsortTag : IsArgsort argsortTag
  enough : 2 ≤ points.length
  max : IsMaxTag points.length (physicalTags.getD defaultTags2) p
  box : IsBox points (physicalTags.getD defaultTags2) rock
  drawing : Drawing (axesOf 2) (drawn rock (lineEdges points.length p lines))

/-! ### Reading the domain -/

/-- The parts of the sides that are cut -/
def sideParts (face : Shape (Pt ℝ)) : List (Shape (Pt ℝ)) := (face.boundary.flatMap Shape.immersed).flatMap Shape.immersed

/-- The tags of the wires, edges and parts that are in a face -/
def lineTags (face : Shape (Pt ℝ)) : List Int :=
  (face.view.boundary ++ face.view.immersed).flatMap fun s => s.tag :: s.immersed.map Shape.tag

/-- The pieces in a face: the edges of its wires, and its edges or their parts -/
def pieceShapes (face : Shape (Pt ℝ)) : List (Shape (Pt ℝ)) :=
  (face.view.boundary.flatMap Shape.immersed) ++ Shape.expand face.view.immersed

end Verif.LinesBox
