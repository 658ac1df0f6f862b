/-
Specification for the stress in the nodes: the mean of the stress over the elements around a node.
-/
import Verif.Model.StressRecovery
import Verif.Spec.Elasticity
import Verif.Lemmas.Elasticity

namespace Verif.StressRecovery
open Assembly L2Form Laplace Elasticity

variable {K X : Type} [Field K]

/-- The coefficients of the element. -/
def coeffs (alpha : List K) (dest : List Nat) (p : Nat) : K := alpha.getD (dest.getD p 0) 0

/-- The volume of an element, by quadrature. -/
def volume (e : SEl K X) : K := ∑ i ∈ Finset.range e.el.nPts, e.el.det i * e.el.weights i

/-- Hooke's law for the displacement of the element, in the point `i`. -/
def hooke (dim : Nat) (lam mu : K) (alpha : List K) (e : SEl K X) (i k l : Nat) : K :=
  2 * mu * sym (fieldGrad dim e.el (coeffs alpha e.dest) i) k l +
    lam * tr dim (fieldGrad dim e.el (coeffs alpha e.dest) i) * if k = l then 1 else 0

/-- The integral of the stress over an element. -/
def stressIntegral (dim : Nat) (lam mu : K) (alpha : List K) (e : SEl K X) (k l : Nat) : K :=
  ∑ i ∈ Finset.range e.el.nPts, e.el.det i * e.el.weights i * hooke dim lam mu alpha e i k l

/-- Shapes that fit: as many components as dimensions, a degree of freedom for each function and component, all of
them in the global vector, all nodes among the points. -/
structure Fits (nPoints dim : Nat) (alpha : List K) (e : SEl K X) : Prop where
  shapes : Shapes e.el
  hdim : e.el.dim = dim
  dest : e.dest.length = e.el.tab.nPhi * dim
  bound : ∀ d ∈ e.dest, d < alpha.length
  nodes : ∀ n ∈ e.nodes, n < nPoints

variable [LinearOrder K]

/-- The sum of `f e` over the elements with a volume, as often as the node occurs in them. -/
def around (els : List (SEl K X)) (p : Nat) (f : SEl K X → K) : K :=
  (els.map fun e => if 0 < volume e then (e.nodes.count p : K) * f e else 0).sum

end Verif.StressRecovery
