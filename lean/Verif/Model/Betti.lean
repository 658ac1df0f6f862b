/-
Model of the graphs of the repository's own tests of domain operations
(tests/test_topology/test_domain_operations.py): `__betti_numbers` (333-341) and the reconstruction of a graph
(157-179).

Simplifications: graphs have no attributes; `networkx.number_strongly_connected_components` is the number of classes
of nodes that reach each other.
-/
import Mathlib.Logic.Relation
import Mathlib.SetTheory.Cardinal.Finite
import Verif.Prelude

namespace Verif.Betti

variable {N : Type} [DecidableEq N]

/-- The nodes of a graph. -/
abbrev Node (g : DiGraph N) := {n : N // n ∈ g.nodes}

/-- `nx.has_path(G, u, v)` -/
def Reach (g : DiGraph N) (u v : N) : Prop := Relation.ReflTransGen (fun a b => (a, b) ∈ g.edges) u v

/-- `nx.number_strongly_connected_components(G)` -/
noncomputable def strongComponents (g : DiGraph N) : Nat :=
  Nat.card (Quot fun u v : Node g => Reach g u v ∧ Reach g v u)

/-- test_domain_operations.py:333-341 `__betti_numbers` -/
noncomputable def bettiNumbers (g : DiGraph N) : Int × Int :=
  (strongComponents g, g.edges.length - g.nodes.length + strongComponents g)

/-- `nx.intersection(G, H)` of two directed graphs -/
def intersection (g h : DiGraph N) : DiGraph N :=
  ⟨g.nodes.filter fun n => n ∈ h.nodes, g.edges.filter fun e => e ∈ h.edges⟩

/-- `G.remove_edges_from(l)` -/
def removeEdges (g : DiGraph N) (l : List (N × N)) : DiGraph N :=
  { g with edges := g.edges.filter fun e => e ∉ l }

/-- `G.remove_nodes_from(list(nx.isolates(G)))` -/
def removeIsolates (g : DiGraph N) : DiGraph N :=
  { g with nodes := g.nodes.filter fun n => g.edges.any fun e => e.1 = n ∨ e.2 = n }

/-- test_domain_operations.py:158-174: the graph of the difference is rebuilt from that of the union `md`, of the
difference `c0` and of the tool `c1`. -/
def reconstruct (md c0 c1 : DiGraph N) : DiGraph N :=
  let i := intersection md c0
  let associated := md.edges.filter fun e => e.1 ∈ c1.nodes ∨ e.2 ∈ c1.nodes
  let g := removeIsolates (removeEdges md associated)
  let internal := removeEdges c0 i.edges
  internal.edges.foldl DiGraph.addEdge g

/-- test_domain_operations.py:177-179: what is asserted of the union and of the difference. -/
def Asserted (md c0 c1 : DiGraph N) : Prop :=
  (∃ n, (intersection md c1).nodes.head? = some n ∧ n ∈ c1.nodes) ∧
  (∀ n, n ∈ c0.nodes ↔ n ∈ (reconstruct md c0 c1).nodes) ∧
  ∀ e, e ∈ c0.edges ↔ e ∈ (reconstruct md c0 c1).edges

end Verif.Betti
