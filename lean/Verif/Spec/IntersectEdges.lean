/-
What the intersection of edges is expected to do.
-/
import Verif.Model.IntersectEdges
import Verif.Spec.EmbedVertex
import Verif.Spec.Geometry

namespace Verif.VertexOps
open MeshBuild MeshGraph Trace MeshMetrics Geometry

/-- The points of an edge -/
def LEdge.span (e : LEdge) : Set (Pt ℝ) := segment ℝ e.first.point e.second.point

/-- The two edges have a common vertex at `z`. -/
def Linked (e f : LEdge) (z : Pt ℝ) : Prop :=
  ∃ v ∈ [e.first, e.second], ∃ w ∈ [f.first, f.second], v.point = z ∧ w.point = z ∧ v.tag = w.tag

/-- `z` is a point of edge `i` and of another one. -/
def Meets (items : List Item) (i : Nat) (z : Pt ℝ) : Prop :=
  ∃ e j f, items[i]? = some (some e) ∧ items[j]? = some (some f) ∧ j ≠ i ∧ z ∈ e.span ∧ z ∈ f.span

/-- `z` is a point of edge `i` and of another one with which it has no common vertex there. -/
def CutAt (items : List Item) (i : Nat) (z : Pt ℝ) : Prop :=
  ∃ e j f, items[i]? = some (some e) ∧ items[j]? = some (some f) ∧ j ≠ i ∧ z ∈ e.span ∧ z ∈ f.span ∧ ¬ Linked e f z

/-- The test of two segments is not within its tolerance: they are not parallel, or parallel and apart. -/
def Tested (pos : Fin 3 × Fin 3) (e f : LEdge) : Prop :=
  let d := det2 (proj pos e.first.point - proj pos e.second.point) (proj pos f.first.point - proj pos f.second.point)
  1 / 10 ^ 12 ≤ |d| ∨ (d = 0 ∧ 1 / 10 ^ 12 ≤ |colinearTest pos e.first.point e.second.point f.first.point| ∧
    1 / 10 ^ 12 ≤ |colinearTest pos e.first.point e.second.point f.second.point|)

/-- Edges in a plane, none of them with immersed shapes, such that no two of their ends and common points are
within the tolerances of each other unless they are equal. -/
structure Drawing (pos : Fin 3 × Fin 3) (items : List Item) : Prop where
  plane : ∃ (n : Pt ℝ) (h : ℝ), Keeps pos n ∧ ∀ e : LEdge, some e ∈ items →
    dot n e.first.point = h ∧ dot n e.second.point = h
  tested : ∀ (i j : Nat) (e f : LEdge), i < j → items[i]? = some (some e) → items[j]? = some (some f) → Tested pos e f
  apart : ∀ i j z z', CutAt items i z → CutAt items j z' → DefaultClose z z' → z = z'
  clear : ∀ (i : Nat) (e : LEdge) (z : Pt ℝ), items[i]? = some (some e) → Meets items i z →
    Separated [⟨0, none, z⟩] e.first.point e.second.point
  fresh : ∀ e : LEdge, some e ∈ items → e.parts = [] ∧ e.first.point ≠ e.second.point

/-- The vertex at an end after cutting: one of the new ones if the edge is cut there. -/
def NewEnd (vertices : List Vtx) (cut : Prop) (old new : Vtx) : Prop :=
  new.point = old.point ∧ (cut → new ∈ vertices) ∧ (¬ cut → new = old)

/-- Edge `e` cut at the points `N`: `chain` are the vertices along it. -/
structure IsCut (vertices : List Vtx) (N : Set (Pt ℝ)) (e e' : LEdge) (tag : Int) : Prop where
  same : e'.tag = e.tag ∧ e'.physical = e.physical
  first : NewEnd vertices (e.first.point ∈ N) e.first e'.first
  second : NewEnd vertices (e.second.point ∈ N) e.second e'.second
  chain : ∃ inner : List Vtx, (∀ v ∈ inner, v ∈ vertices) ∧
    (∀ z, (∃ v ∈ inner, v.point = z) ↔ z ∈ N ∧ z ≠ e.first.point ∧ z ≠ e.second.point) ∧
    ((e'.first :: inner ++ [e'.second]).Pairwise fun v w =>
      norm3 (v.point - e.first.point) < norm3 (w.point - e.first.point)) ∧
    (if inner = [] then e'.parts = [] else Joins (e'.first :: inner ++ [e'.second]) tag e'.parts)

/-- The pieces of an edge: its parts, or the edge itself. -/
def LEdge.pieces (e : LEdge) : List Edg := if e.parts = [] then [⟨e.tag, e.physical, e.first, e.second⟩] else e.parts

/-- The parts of all edges -/
def newEdges (items : List Item) : List Edg := items.flatMap fun x => x.elim [] LEdge.parts

/-- The result for edges that are cut at the points `N i`: the vertices are one at each of these points, in the order
of `np.unique`, and the edges and wires are those given, with every edge cut. -/
structure IsFragments (N : Nat → Set (Pt ℝ)) (items : List Item) (etag vtag ptag : Int) (out : Fragments) : Prop where
  points : ∀ z, (∃ v ∈ out.vertices, v.point = z) ↔ ∃ i, z ∈ N i
  sorted : out.vertices.Pairwise fun v w => LexLe v.point w.point ∧ v.point ≠ w.point
  vtags : out.vertices.map Vtx.tag = consec vtag out.vertices.length
  ptags : out.vertices.map Vtx.physical = (consec (ptag + 1) out.vertices.length).map some
  length : out.items.length = items.length
  wires : ∀ k : Nat, items[k]? = some none → out.items[k]? = some none
  cut : ∀ (k : Nat) (e : LEdge), items[k]? = some (some e) → ∃ e', out.items[k]? = some (some e') ∧
    IsCut out.vertices (N k) e e' (etag + (newEdges (out.items.take k)).length)
  edges_eq : out.edges = newEdges out.items
  etags : out.edges.map Edg.tag = consec etag out.edges.length

/-- Two pieces have in common at most a vertex. -/
def MeetAtEnds (p q : Edg) : Prop :=
  ∀ z ∈ segment ℝ p.first.point p.second.point, z ∈ segment ℝ q.first.point q.second.point →
    ∃ v ∈ [p.first, p.second], ∃ w ∈ [q.first, q.second], v.point = z ∧ w.point = z ∧ v.tag = w.tag

end Verif.VertexOps
