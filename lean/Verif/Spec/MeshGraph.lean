/-
Specification vocabulary for C07-C09 (and everything built on mesh topologies): well-formed
meshes and the sub-entity relation.
-/
import Verif.Spec.Mesh
import Verif.Model.MeshGraph

namespace Verif.MeshGraph
open MeshBuild

/-- A well-formed mesh: every slot holds a cell, ids are positions, dimensions are at most 3,
`sub_cells_ids` has one list per dimension, the lists name cells of the right dimension, and the
top list names the cell itself.  This is what `build_conformal_mesh` produces whenever it fills
every slot (`wellFormed_of_build`). -/
structure WellFormed (cells : Cells) : Prop where
  filled : ∀ i < cells.length, ∃ c, Stored cells i c
  ids : ∀ i c, Stored cells i c → c.id = i
  dims : ∀ i c, Stored cells i c → c.dimension ≤ 3
  subLen : ∀ i c, Stored cells i c → c.sub.length = c.dimension + 1
  subOk : ∀ i c, Stored cells i c → ∀ e ids, c.sub[e]? = some ids →
    ∀ id ∈ ids, ∃ s, Stored cells id s ∧ s.dimension = e
  subNe : ∀ i c, Stored cells i c → ∀ ids ∈ c.sub, ids ≠ []
  self : ∀ i c, Stored cells i c → c.sub[c.dimension]? = some [i]

/-- No sub-entity list of a cell names the same entity twice (holds for meshes of non-degenerate
simplices, `subNodup_of_build`). -/
def SubNodup (cells : Cells) : Prop :=
  ∀ i c, Stored cells i c → ∀ ids ∈ c.sub, ids.Nodup

/-- Sub-entities of a sub-entity are sub-entities (`subClosed_of_build`). -/
def SubClosed (cells : Cells) : Prop :=
  ∀ i c j s, Stored cells i c → Stored cells j s → (∃ ids ∈ c.sub, j ∈ ids) →
    ∀ (e : Nat) jds, s.sub[e]? = some jds → ∃ ids, c.sub[e]? = some ids ∧ ∀ x ∈ jds, x ∈ ids

/-- `j` is listed among the sub-entities of dimension `e` of cell `i`. -/
def SubEntity (cells : Cells) (i e j : Nat) : Prop :=
  ∃ c, Stored cells i c ∧ ∃ ids, c.sub[e]? = some ids ∧ j ∈ ids

/-- Cell `i` has the given dimension and its material is one of the tags. -/
def Tagged (cells : Cells) (tags : List (Option Int)) (dim i : Nat) : Prop :=
  ∃ c, Stored cells i c ∧ c.dimension = dim ∧ c.material ∈ tags

/-- `g` is the sub-entity relation between the selected cells of dimension `dim` and their
sub-entities of dimension `e`: these edges, each once, and no other nodes than their ends. -/
structure IsSubEntityGraph (cells : Cells) (sel : Nat → Prop) (dim e : Nat) (g : DiGraph Node) :
    Prop where
  edges : ∀ u v, (u, v) ∈ g.edges ↔
    ∃ i j, u = (dim, i) ∧ v = (e, j) ∧ sel i ∧ SubEntity cells i e j
  edgesNodup : g.edges.Nodup
  nodes : ∀ n, n ∈ g.nodes ↔ ∃ u v, (u, v) ∈ g.edges ∧ (n = u ∨ n = v)
  nodesNodup : g.nodes.Nodup

/-- Cell `i` has dimension `dim`. -/
def HasDim (cells : Cells) (dim i : Nat) : Prop := ∃ c, Stored cells i c ∧ c.dimension = dim

end Verif.MeshGraph
