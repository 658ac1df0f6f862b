/-
Specification for the operations on graphs of subdomains.
-/
import Verif.Model.GraphOperations
import Mathlib.Logic.Relation

namespace Verif.GraphOperations

variable {N : Type} [DecidableEq N]

/-- Edges join nodes of the graph. -/
def Proper (g : Graph N) : Prop := ∀ e ∈ g.edges, e.1 ∈ g.nodes ∧ e.2 ∈ g.nodes

/-- a walk of one edge or more -/
def Reaches (g : Graph N) : N → N → Prop := Relation.TransGen fun u v => g.adj u v = true

/-- No closed walk along the edges. -/
def Acyclic (g : Graph N) : Prop := ∀ u, ¬ Reaches g u u

end Verif.GraphOperations
