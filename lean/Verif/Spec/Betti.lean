/-
The Betti numbers of a graph.
-/
import Verif.Model.Betti

namespace Verif.Betti
variable {N : Type} [DecidableEq N]

/-- The number of connected components: the edges identify their ends. -/
noncomputable def components (g : DiGraph N) : Nat := Nat.card (Quot fun u v : Node g => (u.1, v.1) ∈ g.edges)

/-- The first two Betti numbers: components, and edges outside of a spanning forest. -/
noncomputable def betti (g : DiGraph N) : Int × Int :=
  (components g, g.edges.length - (g.nodes.length - components g))

/-- A graph as networkx stores it. -/
structure Proper (g : DiGraph N) : Prop where
  nodes : g.nodes.Nodup
  edges : g.edges.Nodup
  ends : ∀ u v, (u, v) ∈ g.edges → u ∈ g.nodes ∧ v ∈ g.nodes

/-- Some number grows along the edges. -/
def Graded (g : DiGraph N) : Prop := ∃ r : N → Int, ∀ u v, (u, v) ∈ g.edges → r u < r v

end Verif.Betti
