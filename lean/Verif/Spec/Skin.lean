/-
What a closed internal boundary is.
-/
import Verif.Model.Skin
import Verif.Spec.Mesh

namespace Verif.Skin
open MeshBuild MeshGraph

/-- `c` is a cell stored in the mesh whose material is none of the tags. -/
def SkinCell (cells : Cells) (tags : List (Option Int)) (c : Node) : Prop :=
  ∃ x, Stored cells c.2 x ∧ x.material ∉ tags

/-- `c` is a skin cell at the vertex `v`. -/
def SkinAt (cells : Cells) (tags : List (Option Int)) (graph : DiGraph Node) (v c : Node) : Prop :=
  (c, v) ∈ graph.edges ∧ SkinCell cells tags c

/-- A closed skin through `seed`: the vertices `v 0 = seed, v 1, …, v n = seed` and the cells
`c 0, c 1, …, c n = c 0`, where the cell `c (i + 1)` has exactly the ends `v i` and `v (i + 1)`, the
only skin cells at `v i` are `c i` and `c (i + 1)`, and neither a vertex nor a cell is used twice. -/
structure ClosedSkin (cells : Cells) (tags : List (Option Int)) (graph : DiGraph Node) (seed : Node)
    (n : Nat) (v c : Nat → Node) : Prop where
  two : 2 ≤ n
  start : v 0 = seed
  closed : v n = seed
  first : c n = c 0
  ends : ∀ i < n, ∀ w, (c (i + 1), w) ∈ graph.edges ↔ w = v i ∨ w = v (i + 1)
  neighs : ∀ i < n, ∀ x, SkinAt cells tags graph (v i) x ↔ x = c i ∨ x = c (i + 1)
  vertices : ∀ i < n, ∀ j < n, v i = v j → i = j
  cells : ∀ i < n, ∀ j < n, c (i + 1) = c (j + 1) → i = j

/-- At every vertex of a skin cell there are exactly two skin cells, and skin cells have two ends. -/
structure Manifold (cells : Cells) (tags : List (Option Int)) (graph : DiGraph Node) : Prop where
  edgesNodup : graph.edges.Nodup
  nodes : ∀ u v, (u, v) ∈ graph.edges → u ∈ graph.nodes ∧ v ∈ graph.nodes
  stored : ∀ u v, (u, v) ∈ graph.edges → ∃ x, Stored cells u.2 x
  neighs : ∀ v, (∃ c, SkinAt cells tags graph v c) →
    ∃ a b, a ≠ b ∧ ∀ x, SkinAt cells tags graph v x ↔ x = a ∨ x = b
  ends : ∀ c, SkinCell cells tags c → (∃ v, (c, v) ∈ graph.edges) →
    ∃ a b, a ≠ b ∧ ∀ x, (c, x) ∈ graph.edges ↔ x = a ∨ x = b

end Verif.Skin
