/-
Specification vocabulary for C30-C33.
-/
import Verif.Spec.MeshGraph
import Verif.Model.MeshOps

namespace Verif.MeshOps
open MeshBuild MeshGraph MeshStore Trace MeshMetrics

/-- The copy of a cell under a new id: only its id, its own entry among its sub-cells and its
material change. -/
structure IsCopy (tagMap : Dict (Option Int) (Option Int)) (n : Nat) (c c' : Cell) : Prop where
  dimension : c'.dimension = c.dimension
  id : c'.id = n
  nodeTags : c'.nodeTags = c.nodeTags
  subSelf : c'.sub[c.dimension]? = some [n]
  subOther : ∀ e : Nat, e ≠ c.dimension → c'.sub[e]? = c.sub[e]?
  mapped : ∀ t, tagMap.get? c.material = some t → c'.material = t
  unmapped : tagMap.get? c.material = none → c'.material = c.material

/-- Where the copy of a point is put. -/
noncomputable def displaced : Option Bump → Pt ℝ → Pt ℝ
  | none, p => p
  | some b, p => bumped b p

/-- `t` is the node tag of vertex `v`. -/
def VTag (cells : Cells) (v t : Nat) : Prop :=
  ∃ c, Stored cells v c ∧ c.dimension = 0 ∧ c.nodeTags = [t]

/-- The node tags of every cell are those of its vertices, in order, and different vertices have
different tags. -/
structure NodesOK (cells : Cells) : Prop where
  aligned : ∀ i c, Stored cells i c → ∀ vs, c.sub[0]? = some vs →
    List.Forall₂ (VTag cells) vs c.nodeTags
  distinct : ∀ v w t, VTag cells v t → VTag cells w t → v = w

/-- The id a pair list gives to a sub-cell: that of the new cell paired with it, if any. -/
def newId (pairs : List (Cell × Cell)) (x : Nat) : Nat :=
  match pairs.find? fun p => p.1.id = x with
  | some p => p.2.id
  | none => x

/-- What `update_cells_with_cell_pairs` expects of its arguments: a non-empty list of cells of one
dimension `k`; for each dimension `e < k` a list of pairs of cells of dimension `e`, the old ones
distinct, the new ones in the mesh and distinct, and not old ones, nor sub-cells of given
cells. -/
structure UpdateOK (cells : Cells) (targets : List Cell) (pairs : Pairs) (k : Nat)
    (P : Nat → List (Cell × Cell)) : Prop where
  nonempty : targets ≠ []
  dim : ∀ c ∈ targets, c.dimension = k ∧ HasDim cells k c.id
  entry : ∀ e < k, pairs[k - e]? = some (some (P e))
  oldDim : ∀ e < k, ∀ p ∈ P e, p.1.dimension = e
  newDim : ∀ e < k, ∀ p ∈ P e, p.2.dimension = e ∧ HasDim cells e p.2.id
  oldNodup : ∀ e < k, ((P e).map (·.1.id)).Nodup
  newNodup : ∀ e < k, ((P e).map (·.2.id)).Nodup
  fresh : ∀ e < k, ∀ p ∈ P e, ∀ q ∈ P e, p.2.id ≠ q.1.id
  unused : ∀ e < k, ∀ p ∈ P e, ∀ c ∈ targets, ¬ SubEntity cells c.id e p.2.id

/-- Every old cell is a sub-cell of one of the given cells. -/
def Found (cells : Cells) (targets : List Cell) (k : Nat) (P : Nat → List (Cell × Cell)) : Prop :=
  ∀ e < k, ∀ p ∈ P e, ∃ c ∈ targets, SubEntity cells c.id e p.1.id

/-- The cell `c'` is `c` with its proper sub-cells replaced according to the pairs. -/
structure Updated (P : Nat → List (Cell × Cell)) (c c' : Cell) : Prop where
  dimension : c'.dimension = c.dimension
  id : c'.id = c.id
  material : c'.material = c.material
  self : c'.sub[c.dimension]? = c.sub[c.dimension]?
  sub : ∀ e < c.dimension, c'.sub[e]? = (c.sub[e]?).map (·.map (newId (P e)))
  len : c'.sub.length = c.sub.length

end Verif.MeshOps
