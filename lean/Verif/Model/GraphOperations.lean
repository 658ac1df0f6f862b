/-
Model of examples/domains/graph_operations.py: `md_sequence` (17-51) and `md_conformal_to_no_conformal` (54-87), the
cut of a graph at the nodes of another one and the new coupling.

Simplifications
* A graph has nodes and edges in insertion order; an edge of an undirected graph is stored as first given.
* Nodes and edges have no attributes.
* The drawing is left out; `nx.chordless_cycles` is replaced by the absence of closed walks.
-/
import Verif.Prelude

namespace Verif.GraphOperations

/-- `nx.Graph` (`directed = false`) or `nx.DiGraph` -/
structure Graph (N : Type) where
  directed : Bool
  nodes : List N
  edges : List (N × N)

variable {N : Type} [DecidableEq N]

/-- `v in G.adj[u]` -/
def Graph.adj (g : Graph N) (u v : N) : Bool :=
  decide ((u, v) ∈ g.edges) || (!g.directed && decide ((v, u) ∈ g.edges))

/-- `nx.Graph()`, `nx.DiGraph()` -/
def Graph.new (directed : Bool) : Graph N := ⟨directed, [], []⟩

/-- `G.add_node(u)` -/
def Graph.addNode (g : Graph N) (u : N) : Graph N := { g with nodes := addNew g.nodes u }

/-- `G.add_edge(u, v)` -/
def Graph.addEdge (g : Graph N) (e : N × N) : Graph N :=
  { g with
    nodes := addNew (addNew g.nodes e.1) e.2
    edges := if g.adj e.1 e.2 then g.edges else g.edges ++ [e] }

/-- `G.add_edges_from(l)` -/
def Graph.addEdges (g : Graph N) (l : List (N × N)) : Graph N := l.foldl Graph.addEdge g

/-- `G.remove_nodes_from(l)`: nodes that are not there are passed over -/
def Graph.removeNodes (g : Graph N) (l : List N) : Graph N :=
  { g with
    nodes := g.nodes.filter fun n => n ∉ l
    edges := g.edges.filter fun e => e.1 ∉ l ∧ e.2 ∉ l }

/-- `nx.intersection(G, H)`: graphs of two kinds are refused -/
def intersection (g h : Graph N) : Res (Graph N) :=
  if g.directed ≠ h.directed then .error .networkXError
  else .ok ⟨g.directed, g.nodes.filter fun n => n ∈ h.nodes, g.edges.filter fun e => h.adj e.1 e.2⟩

/-- lines 34-47 and 69-83: the nodes common to both are removed, the coupling is added -/
def cut (g g' h c : Graph N) : Res (Graph N) := do
  let i ← intersection g h
  let d := g'.removeNodes (g'.nodes.filter fun n => n ∈ i.nodes)
  pure (d.addEdges c.edges)

/-- `nx.utils.graphs_equal` -/
def graphsEqual (g h : Graph N) : Prop :=
  g.directed = h.directed ∧ (∀ n, n ∈ g.nodes ↔ n ∈ h.nodes) ∧ ∀ u v, g.adj u v = h.adj u v

/-- subdomains: co-dimension and number -/
abbrev Sub := Nat × Nat

/-- lines 19-29 -/
def sequenceGraph : Graph Sub :=
  (Graph.new false).addEdges [((0, 1), (0, 2)), ((0, 1), (0, 3)), ((0, 2), (1, 1)), ((0, 2), (1, 4)), ((0, 3), (1, 5)),
    ((0, 3), (1, 2)), ((1, 4), (1, 3)), ((1, 5), (1, 3))]

/-- lines 31-32 and 65-66 -/
def fracture (directed : Bool) : Graph Sub := (Graph.new directed).addNode (1, 3)

/-- lines 42-44 and 71-73 -/
def coupling (directed : Bool) : Graph Sub := (Graph.new directed).addEdges [((1, 3), (1, 4)), ((1, 3), (1, 5))]

/-- lines 34-47: `U` of `md_sequence` -/
def sequenceUnion : Res (Graph Sub) := cut sequenceGraph sequenceGraph (fracture false) (coupling false)

/-- lines 56-62 -/
def conformal : Graph Sub :=
  (Graph.new true).addEdges [((0, 1), (0, 2)), ((0, 1), (0, 3)), ((0, 2), (1, 1)), ((0, 2), (1, 3)), ((0, 3), (1, 3)),
    ((0, 3), (1, 2))]

/-- lines 75-76: the duplicates; the intersection (line 69) is taken before -/
def withDuplicates : Graph Sub := conformal.addEdges [((0, 2), (1, 4)), ((0, 3), (1, 5))]

/-- lines 69-83: `U` of `md_conformal_to_no_conformal` -/
def nonConformal : Res (Graph Sub) := cut conformal withDuplicates (fracture true) (coupling true)

end Verif.GraphOperations
