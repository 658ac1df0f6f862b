/-
What the assignment of shapes should do.
-/
import Verif.Spec.Shape
import Verif.Model.ShapeAssignment

namespace Verif.Topology.Shape
variable {P : Type}

/-- The class of a shape, `none` for a vertex. -/
def kindOf : Shape P → Option Kind
  | vertex .. => none
  | composed k .. => some k

/-- A shape as the constructors and the setters leave it, with different tags in the boundary: the shapes have
admissible dimensions, and the boundary is in the order of the tags. -/
structure WellFormed (s : Shape P) : Prop where
  boundary : ∀ k, s.kindOf = some k → ∀ x ∈ s.boundary, x.dimension ≤ k.dimension
  immersed : ∀ k, s.kindOf = some k → ∀ x ∈ shown s, x.dimension ≤ k.dimension
  ordered : (s.boundary.map tag).Pairwise (· < ·)

/-- The shapes that a wire shows are not divided further. -/
def Undivided (s : Shape P) : Prop := s.kindOf = some .wire → ∀ x ∈ shown s, shown x = []

end Verif.Topology.Shape
