/-
What the splitting of edges at vertices is expected to do.
-/
import Verif.Model.VertexOps
import Verif.Spec.FractureNetwork

namespace Verif.VertexOps
open MeshBuild MeshGraph Trace MeshMetrics Geometry

/-- The indices chosen by `np.unique`: one for each point. -/
structure UniqueOn (uniqueIdx : List (Pt ℝ) → List Nat) (pts : List (Pt ℝ)) : Prop where
  valid : ∀ i ∈ uniqueIdx pts, i < pts.length
  covers : ∀ x ∈ pts, ∃ i ∈ uniqueIdx pts, pts[i]? = some x
  once : (uniqueIdx pts).Pairwise fun i j => pts[i]? ≠ pts[j]?

/-- No tool is within the tolerances of an end of the edge or of the edge, unless it is on it. -/
structure Clear (P : Params) (tools : List Vtx) (edge : Edg) (eps : ℝ) : Prop where
  ne : edge.first.point ≠ edge.second.point
  eps_nonneg : 0 ≤ eps
  incidence : 0 ≤ P.incidence
  unique : UniqueOn P.uniqueIdx (tools.map Vtx.point)
  argsort : Fracture.IsArgsort P.argsort
  off : ∀ v ∈ tools, v.point ∉ segment ℝ edge.first.point edge.second.point →
    pointLineIntersection P.collapse v.point edge.first.point edge.second.point eps = none
  first : ∀ v ∈ tools, v.point ≠ edge.first.point → ¬ DefaultClose v.point edge.first.point ∧
    ¬ Close P.incidence P.incidence v.point edge.first.point ∧
    ¬ Close P.collapse P.collapse edge.first.point v.point
  second : ∀ v ∈ tools, v.point ≠ edge.second.point → ¬ DefaultClose v.point edge.second.point ∧
    ¬ Close P.incidence P.incidence v.point edge.second.point ∧
    ¬ Close P.collapse P.collapse edge.second.point v.point

/-- The tools on the edge. -/
def OnEdge (tools : List Vtx) (edge : Edg) (v : Vtx) : Prop :=
  v ∈ tools ∧ v.point ∈ segment ℝ edge.first.point edge.second.point

/-- `chain` are the points at which the edge is split, from one end to the other. -/
structure IsChain (tools : List Vtx) (edge : Edg) (chain : List (Pt ℝ)) : Prop where
  first : chain.head? = some edge.first.point
  last : chain.getLast? = some edge.second.point
  mem : ∀ x, x ∈ chain ↔ x = edge.first.point ∨ x = edge.second.point ∨
    ∃ v, OnEdge tools edge v ∧ v.point = x
  ordered : chain.Pairwise fun x y =>
    norm3 (x - edge.first.point) < norm3 (y - edge.first.point)

/-- Vertex at an end of the edge: the tool there if there is one. -/
def IsEnd (tools : List Vtx) (old : Vtx) (v : Vtx) : Prop :=
  v.point = old.point ∧ if ∃ t ∈ tools, t.point = old.point then v ∈ tools else v = old

/-- The new vertices: all but the first and the last, which are at the ends of the edge. -/
def created (vertices : List Vtx) : List Vtx := vertices.tail.dropLast

/-- The integers `tag`, `tag + 1`, …, `tag + n - 1` -/
def consec (tag : Int) (n : Nat) : List Int := (List.range n).map fun i : Nat => tag + (i : Int)

/-- The edges and vertices made by splitting `edge` at the points of the chain. -/
structure IsSplitting (tools : List Vtx) (edge : Edg) (tag : Int) (chain : List (Pt ℝ))
    (edges : List Edg) (vertices : List Vtx) : Prop where
  count : edges.length + 1 = chain.length
  size : vertices.length = 2 * edges.length
  joined : ∀ (i : Nat) (e : Edg), edges[i]? = some e → e.physical = edge.physical ∧
    ∃ v w, vertices[2 * i]? = some v ∧ vertices[2 * i + 1]? = some w ∧
      chain[i]? = some v.point ∧ chain[i + 1]? = some w.point ∧
      (e.first = v ∧ e.second = w ∨ e.first = w ∧ e.second = v)
  startV : ∃ v, vertices.head? = some v ∧ IsEnd tools edge.first v
  endV : ∃ v, vertices.getLast? = some v ∧ IsEnd tools edge.second v
  physical : ∀ v ∈ created vertices, v.physical = edge.physical
  tags : ((created vertices).map Vtx.tag ++ edges.map Edg.tag).Perm
    (consec tag (3 * edges.length - 2))

/-- The tags of the shapes made for one edge. -/
def newTags (r : Edg × List Edg × List Vtx) : List Int :=
  (created r.2.2).map Vtx.tag ++ r.2.1.map Edg.tag

/-- What is made of one edge. -/
def IsResult (tools : List Vtx) (edge : Edg) (r : Edg × List Edg × List Vtx) : Prop :=
  r.1 = edge ∧ (((¬ ∃ v, OnEdge tools edge v) ∧ r.2.1 = [] ∧ r.2.2 = []) ∨
    ((∃ v, OnEdge tools edge v) ∧ ∃ start chain, IsChain tools edge chain ∧
      IsSplitting tools edge start chain r.2.1 r.2.2))

end Verif.VertexOps
