/-
Specification of the advective flux through a facet in dimension one.
-/
import Verif.Model.ThreeFieldsForm

namespace Verif.ThreeFields
variable {K : Type} [Field K] [LinearOrder K]

/-- The value of the side from which the velocity comes: `left` is the cell on the left of the facet. -/
def upstream (velocity left right : K) : K := if 0 ≤ velocity then left else right

/-- The facet has the degree of freedom `d` only, its basis function does not vanish there. -/
structure OneDof (s : Side K) (d : Nat) : Prop where
  dofs : s.dofs = [d]
  lt : d < s.nM
  ne : s.dm 0 ≠ 0

/-- The advective flux of the degrees of freedom `alpha` in the facet with the degree of freedom `d` -/
def flux (s : Side K) (d : Nat) (alpha : Nat → K) : K := alpha (s.nQ + d) * s.dm 0

end Verif.ThreeFields
