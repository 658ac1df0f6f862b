/-
What domains should contain.
-/
import Verif.Model.Domain
import Mathlib.Logic.Relation

namespace Verif.Topology
open Shape
variable {P : Type}

/-- Each list of the domain holds shapes of its own dimension, and there is one list per
dimension. -/
structure Grouped (d : Domain P) : Prop where
  length : d.shapes.length = d.dimension + 1
  dim : ∀ (k : Nat) (l : List (Shape P)), d.shapes[k]? = some l → ∀ s ∈ l, s.dimension = k

/-- `c` is a boundary or immersed shape of `s`. -/
def Child (s c : Shape P) : Prop := c ∈ s.boundary ∨ c ∈ s.immersed

/-- `c` is reached from `s` through boundary and immersed shapes. -/
abbrev Below (s c : Shape P) : Prop := Relation.ReflTransGen Child s c

/-- `s` is the last shape of the list with its dimension and tag. -/
def IsLast (shapes : List (Shape P)) (s : Shape P) : Prop :=
  ∃ before after, shapes = before ++ s :: after ∧ ∀ t ∈ after, t.identity ≠ s.identity

end Verif.Topology
