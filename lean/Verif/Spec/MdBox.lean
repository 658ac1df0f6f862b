/-
What a box with fractures is expected to be.
-/
import Verif.Model.MdBox
import Verif.Spec.DomainOps
import Verif.Spec.DomainMarket
import Verif.Spec.Geometry

namespace Verif.MdBox
open MeshBuild MeshGraph Trace MeshMetrics Geometry VertexOps DomainOps Topology
open scoped Classical

/-- The corners of the box, numbered from 0. -/
def corners (points : List (Pt ℝ)) : List Vtx := points.zipIdx.map fun p => ⟨p.2, none, p.1⟩

/-- The sides of the box: side `i` joins the corner `i` to the next one, the lower number first. -/
structure IsBox (points : List (Pt ℝ)) (tags : Dict String Int) (rock : List Edg) : Prop where
  length : rock.length = points.length
  side : ∀ (i : Nat) e, rock[i]? = some e → e.tag = i ∧ e.physical = tags.get? (bcLabel i) ∧
    ∃ v w, (corners points)[i]? = some v ∧
      (corners points)[if i + 1 = points.length then 0 else i + 1]? = some w ∧
      if i + 1 = points.length then e.first = w ∧ e.second = v else e.first = v ∧ e.second = w

/-- The fractures: the edge `i` has the ends and the tags given by line `i`. -/
def IsFractures (bc ln : Int) (tag : Int) (lines : List Line) (fractures : List Edg) : Prop :=
  fractures.length = lines.length ∧ ∀ (i : Nat) e l, fractures[i]? = some e → lines[i]? = some l →
    e = ⟨tag + 3 * (i : Int) + 2, some ln, ⟨tag + 3 * (i : Int), some bc, l.1⟩,
      ⟨tag + 3 * (i : Int) + 1, some bc, l.2⟩⟩

/-- The vertex at a corner in the end: the tool there, if there is one. -/
noncomputable def final (tools : List Vtx) (v : Vtx) : Vtx :=
  (tools.find? fun t => t.point = v.point).getD v

/-- The vertex at a point of an edge in the end: the tool there, or else the end of the edge. -/
noncomputable def finalAt (tools : List Vtx) (e : Edg) (x : Pt ℝ) : Vtx :=
  (tools.find? fun t => t.point = x).getD (if x = e.first.point then e.first else e.second)

/-- The points at which an edge is cut, and its ends. -/
def IsStop (tools : List Vtx) (e : Edg) (x : Pt ℝ) : Prop :=
  x = e.first.point ∨ x = e.second.point ∨ ∃ v, OnEdge tools e v ∧ v.point = x

/-- The parts of an edge, in order from its first to its second end: they form a chain through the
tools on the edge. -/
def IsSide (tools : List Vtx) (e : Edg) (es : List UEdge) : Prop :=
  ∃ chain, VertexOps.IsChain tools e chain ∧ (∀ u ∈ es, u.physical = e.physical) ∧
    Topology.IsChain (es.map edgeShape) (chain.map fun x => vertexShape (finalAt tools e x))

/-- The input is in general position, and the tolerances, the hash, the sorting and the
triangulation do what they are for. -/
structure Ready (E : Env) (points : List (Pt ℝ)) (rock fractures : List Edg) (tools : List Vtx)
    (tag : Int) : Prop where
  clear : ∀ e ∈ rock ++ fractures, Clear E.P tools e E.eps
  separated : Separated E.P (rock ++ fractures) tools
  hashTools : ∀ v ∈ tools, ∀ w ∈ tools, E.hash 0 v.tag = E.hash 0 w.tag → v.tag = w.tag
  hash : ∀ d, domainDifference E.P (rock ++ fractures) tools tag E.eps = .ok d →
    (∀ v w, (v ∈ d.vertices ∨ v ∈ tools) → (w ∈ d.vertices ∨ w ∈ tools) →
      E.hash 0 v.tag = E.hash 0 w.tag → v.tag = w.tag) ∧
    ∀ e ∈ d.edges, ∀ e' ∈ d.edges, E.hash 1 e.tag = E.hash 1 e'.tag → e.tag = e'.tag
  triangles : ∃ triangles, E.triangulate points = .ok triangles ∧
    ∀ e ∈ rock, ∀ x ∈ DomainOps.points e, ∃ t ∈ triangles, InTriangle x t.1 t.2.1 t.2.2

/-- The physical tags tell the sides apart, and from the fractures. -/
structure TagsDiffer (rock fractures : List Edg) : Prop where
  sides : rock.Pairwise fun e e' => e.physical ≠ e'.physical
  fractures : ∀ e ∈ rock, ∀ f ∈ fractures, f.physical ≠ e.physical

/-- The box, the fractures and the points where they meet, as they are found from the input. -/
structure IsSetup (E : Env) (points : List (Pt ℝ)) (tags fractureTags : Dict String Int)
    (lines : List Line) (rock fractures : List Edg) (c1 : List Vtx) : Prop where
  enough : 2 ≤ points.length
  argsort : IsArgsort E.argsortTag
  box : IsBox points tags rock
  isTools : tools E rock lines fractureTags (points.length + 1) = .ok c1
  isFractures : fractureEdges fractureTags (points.length + 1 + c1.length) lines = .ok fractures
  ready : Ready E points rock fractures c1
    (points.length + 1 + c1.length + 3 * (lines.length : Int))
  differ : TagsDiffer rock fractures

/-- The sum of the ends of signed edges, at the vertices with the tag `t`: how often one arrives
minus how often one leaves. -/
def flow (t : Int) : List (Shape (Pt ℝ)) → List Int → Int
  | e :: es, s :: ss =>
    (match e.boundary with
      | [v, w] => s * ((if w.tag = t then 1 else 0) - if v.tag = t then 1 else 0)
      | _ => 0) + flow t es ss
  | _, _ => 0

end Verif.MdBox
