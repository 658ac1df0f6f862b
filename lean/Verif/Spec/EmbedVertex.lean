/-
What embedding vertices in an edge is expected to do.
-/
import Verif.Model.EmbedVertex
import Verif.Spec.VertexOps

namespace Verif.VertexOps
open MeshBuild MeshGraph Trace MeshMetrics Geometry

/-- No vertex is within the tolerances of an end of the edge, or as far from its first end as an end, unless it
is. -/
structure Separated (vs : List Vtx) (a b : Pt ℝ) : Prop where
  ne : a ≠ b
  first : ∀ v ∈ vs, v.point ≠ a → ¬ DefaultClose v.point a
  second : ∀ v ∈ vs, v.point ≠ b → ¬ DefaultClose v.point b
  near : ∀ v ∈ vs, v.point ≠ a → ¬ IsClose (1 / 10 ^ 5) (1 / 10 ^ 8) (norm3 (v.point - a)) 0
  far : ∀ v ∈ vs, norm3 (v.point - a) ≠ norm3 (b - a) →
    ¬ IsClose (1 / 10 ^ 5) (1 / 10 ^ 8) (norm3 (v.point - a)) (norm3 (b - a))

open scoped Classical in
/-- `v` is the first of the vertices at its point. -/
def IsFirst (vs : List Vtx) (v : Vtx) : Prop := vs.find? (fun w => decide (w.point = v.point)) = some v

/-- `new` is at the end that was `old`: the first of the vertices there, if there is one. -/
def IsNewEnd (vs : List Vtx) (old new : Vtx) : Prop :=
  new.point = old.point ∧ (IsFirst vs new ∨ (new = old ∧ ∀ v ∈ vs, v.point ≠ old.point))

/-- Edges that join consecutive vertices of a list, with consecutive tags -/
structure Joins (chain : List Vtx) (tag : Int) (parts : List Edg) : Prop where
  count : parts.length + 1 = chain.length
  joined : ∀ (i : Nat) (e : Edg), parts[i]? = some e → e.tag = tag + i ∧ e.physical = none ∧
    e.first.tag ≤ e.second.tag ∧ ∃ v w, chain[i]? = some v ∧ chain[i + 1]? = some w ∧
      (e.first = v ∧ e.second = w ∨ e.first = w ∧ e.second = v)

/-- What is chosen: the vertices nearer to the first end than the second end is, one at each point, in the order of
`np.unique`. -/
structure IsChoice (vs : List Vtx) (a b : Pt ℝ) (chosen : List Vtx) : Prop where
  mem : ∀ v, v ∈ chosen ↔ IsFirst vs v ∧ v.point ≠ a ∧ norm3 (v.point - a) < norm3 (b - a)
  once : chosen.Pairwise fun v w => LexLe v.point w.point ∧ v.point ≠ w.point

/-- The parts: none if nothing was chosen, and else a chain between the ends through all that was chosen, in the
order of the distance from the first end. -/
def AreParts (e : Embedded) (tag : Int) (parts : List Edg) : Prop :=
  if e.chosen = [] then parts = []
  else ∃ inner, inner.Perm e.chosen ∧
    (inner.Pairwise fun v w => norm3 (v.point - e.first.point) ≤ norm3 (w.point - e.first.point)) ∧
    Joins (e.first :: inner ++ [e.second]) tag parts

end Verif.VertexOps
