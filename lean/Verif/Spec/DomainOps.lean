/-
What the difference and the union of one-dimensional domains are expected to do.
-/
import Verif.Model.DomainOps
import Verif.Spec.VertexOps

namespace Verif.DomainOps
open MeshBuild MeshGraph Trace Geometry VertexOps
open scoped Classical

/-- An end of an edge. -/
def Edg.Ends (e : Edg) (v : Vtx) : Prop := v = e.first ∨ v = e.second

/-- Shapes of one dimension with one tag are the same shape. -/
def OneTag (S : Vtx → Prop) : Prop := ∀ v w, S v → S w → v.tag = w.tag → v = w

/-- The vertices that exist before the difference: ends of edges, and tools. -/
def Old (edges : List Edg) (tools : List Vtx) (v : Vtx) : Prop :=
  v ∈ tools ∨ ∃ e ∈ edges, Edg.Ends e v

/-- A domain: no tag twice, and the vertices are the ends of the edges. -/
structure IsClosed (d : Dom) : Prop where
  edgeTags : (d.edges.map Edg.tag).Nodup
  vertexTags : (d.vertices.map Vtx.tag).Nodup
  ends : ∀ v, v ∈ d.vertices ↔ ∃ e ∈ d.edges, Edg.Ends e v

/-- The points of an edge. -/
def points (e : Edg) : Set (Pt ℝ) := segment ℝ e.first.point e.second.point

/-- What remains of an edge: itself, or its parts. -/
def parts (r : Edg × List Edg × List Vtx) : List Edg :=
  if r.2.1.length = 0 ∧ r.2.2.length = 0 then [r.1] else r.2.1

/-- The vertex that a vertex is replaced with by the vertices `tools`. -/
noncomputable def merge (P : Params) (tools : List Vtx) (w : Vtx) : Vtx :=
  (tools.find? fun v => SameGeometry w v P.incidence).getD w

/-- The union can replace vertices: the first domain is closed, every vertex is near at most one
tool, tags identify vertices, and a vertex that is replaced is the end of one edge, whose other end
is replaced by something else. -/
structure Mergeable (P : Params) (c0 c1 : Dom) : Prop where
  closed : IsClosed c0
  tools : (c1.vertices.map Vtx.tag).Nodup
  tag : OneTag fun v => v ∈ c0.vertices ∨ v ∈ c1.vertices
  one : ∀ w ∈ c0.vertices, ∀ v ∈ c1.vertices, ∀ v' ∈ c1.vertices,
    SameGeometry w v P.incidence → SameGeometry w v' P.incidence → v = v'
  self : ∀ w ∈ c0.vertices, w ∈ c1.vertices → SameGeometry w w P.incidence
  hanging : ∀ w ∈ c0.vertices, merge P c1.vertices w ≠ w → ∀ e ∈ c0.edges, ∀ e' ∈ c0.edges,
    Edg.Ends e w → Edg.Ends e' w → e = e'
  proper : ∀ e ∈ c0.edges,
    (merge P c1.vertices e.first).tag ≠ (merge P c1.vertices e.second).tag
  edges : ∀ e ∈ c0.edges, ∀ e' ∈ c1.edges, e.tag = e'.tag → e = e'

/-- Points are well separated: vertices within the tolerance of a tool are at the tool, and no two
tools are at one point. -/
structure Separated (P : Params) (edges : List Edg) (tools : List Vtx) : Prop where
  incidence : 0 ≤ P.incidence
  near : ∀ w, Old edges tools w → ∀ v ∈ tools, Close P.incidence P.incidence w.point v.point →
    w.point = v.point
  one : ∀ v ∈ tools, ∀ w ∈ tools, v.point = w.point → v = w

/-- The result of the union: the edges of the first domain with merged ends. -/
structure IsUnion (P : Params) (c0 c1 : Dom) (d : UDom) : Prop where
  edges : List.Forall₂ (fun e u => u.tag = e.tag ∧ u.physical = e.physical ∧
    u.boundary = sortByTag [merge P c1.vertices e.first, merge P c1.vertices e.second])
    c0.edges d.edges
  vertexTags : (d.vertices.map Vtx.tag).Nodup
  ends : ∀ v, v ∈ d.vertices ↔ ∃ u ∈ d.edges, v ∈ u.boundary

end Verif.DomainOps
