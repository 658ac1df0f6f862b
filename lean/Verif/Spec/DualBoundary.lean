/-
Specification vocabulary for C80: the traces of stresses on a facet.
-/
import Verif.Model.DualBoundary
import Verif.Spec.Dual

namespace Verif.Dual
open Laplace

variable {K : Type} [Field K]

/-- `φ_a · n` for the basis function `a` of the facet, in the point `i`. -/
def normalTrace (side : Side K) (tr : Trace K) (i a : Nat) : K :=
  ∑ d ∈ Finset.range side.dim, tr.tab.val 0 i (tr.dofs.getD a 0) d * side.normal d

/-- Component `c` of `σ n` for the degree of freedom `p`, with a field of `comps` rows that starts at
`b`. -/
def traction (side : Side K) (tr : Trace K) (b comps i p c : Nat) : K :=
  comp b tr.nPhi comps (normalTrace side tr i) p c

/-- `∫ g · σ_p n` -/
def boundaryWork (side : Side K) (tr : Trace K) (b comps : Nat) (g : Nat → Nat → K) (p : Nat) : K :=
  ∑ i ∈ Finset.range side.nPts, side.det i * side.weights i *
    ∑ c ∈ Finset.range comps, g i c * traction side tr b comps i p c

/-- `∫ σ_q n · σ_p n` -/
def boundaryMass (side : Side K) (tr : Trace K) (b comps p q : Nat) : K :=
  ∑ i ∈ Finset.range side.nPts, side.det i * side.weights i *
    ∑ c ∈ Finset.range comps, traction side tr b comps i q c * traction side tr b comps i p c

/-- The positions are in the basis of the neighbour, there is one for every function of the facet, and
the functions have a component in every direction. -/
structure TraceFits (side : Side K) (tr : Trace K) : Prop where
  dofs : ∀ d ∈ tr.dofs, d < tr.tab.nPhi
  length : tr.dofs.length = tr.nPhi
  val : side.dim ≤ tr.tab.nVal

end Verif.Dual
