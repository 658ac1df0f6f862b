/-
Specification vocabulary for C71 and C72: linear elasticity on one element, by quadrature.
-/
import Verif.Model.Elasticity
import Verif.Spec.Laplace

namespace Verif.Elasticity
open Assembly L2Form Laplace

variable {K X : Type} [Field K]

/-- Symmetric part of a tensor. -/
def sym (g : Nat → Nat → K) (k l : Nat) : K := (g k l + g l k) / 2

/-- Skew part of a tensor. -/
def skew (g : Nat → Nat → K) (k l : Nat) : K := (g k l - g l k) / 2

/-- `g : h`, for tensors of size `m`. -/
def contract (m : Nat) (g h : Nat → Nat → K) : K :=
  ∑ k ∈ Finset.range m, ∑ l ∈ Finset.range m, g k l * h k l

/-- `tr g` -/
def tr (m : Nat) (g : Nat → Nat → K) : K := ∑ k ∈ Finset.range m, g k k

/-- `2μ ε(u) : ε(v) + λ div u div v`, from the gradients `g` of `u` and `h` of `v`. -/
def elasticPower (m : Nat) (mu lam : K) (g h : Nat → Nat → K) : K :=
  2 * mu * contract m (sym g) (sym h) + lam * (tr m g * tr m h)

/-- The gradient of the vector field number `p`: basis function `p / m` in component `p % m`. -/
def basisGrad (m : Nat) (el : PElem K X) (i p k l : Nat) : K :=
  if p % m = k then gradAt el i (p / m) l else 0

/-- The gradient of the field with the coefficients `v`: component `k`, direction `l`. -/
def fieldGrad (m : Nat) (el : PElem K X) (v : Nat → K) (i k l : Nat) : K :=
  ∑ a ∈ Finset.range el.tab.nPhi, v (a * m + k) * gradAt el i a l

/-- `∫ 2μ ε(φ_p) : ε(φ_q) + λ div φ_p div φ_q` -/
def elasticMatrix (m : Nat) (el : PElem K X) (mu lam : X → Nat → K) (p q : Nat) : K :=
  ∑ i ∈ Finset.range el.nPts, el.det i * el.weights i *
    elasticPower m (mu el.x i) (lam el.x i) (basisGrad m el i p) (basisGrad m el i q)

/-- `∫ f · φ_p` -/
def bodyLoad (m : Nat) (el : PElem K X) (rhs : X → Nat → Nat → K) (p : Nat) : K :=
  ∑ i ∈ Finset.range el.nPts, el.det i * el.weights i * el.tab.val 0 i (p / m) 0 * rhs el.x (p % m) i

/-- `∫ s : ∇φ_p` for a given stress `s` -/
def stressLoad (m : Nat) (el : PElem K X) (s : X → Nat → Nat → Nat → K) (p : Nat) : K :=
  ∑ i ∈ Finset.range el.nPts, el.det i * el.weights i *
    contract m (fun k l => s el.x k l i) (basisGrad m el i p)

/-- Mass of the basis functions `a` and `b` on a facet. -/
def facetMass (f : Facet K) (a b : Nat) : K :=
  ∑ i ∈ Finset.range f.nPts, f.det i * f.weights i * (f.phi i a * f.phi i b)

/-- The field with coefficients `v` on a facet, component `c` in the point `i`. -/
def facetField (f : Facet K) (comps : Nat) (v : Nat → K) (i c : Nat) : K :=
  ∑ b ∈ Finset.range f.nPhi, v (b * comps + c) * f.phi i b

end Verif.Elasticity
