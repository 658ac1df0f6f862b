/-
Specification vocabulary for C65 and C66: the systems of the mixed and of the primal Laplace problem
on one element, by quadrature.
-/
import Verif.Model.Laplace

namespace Verif.Laplace
open Assembly L2Form

variable {K X : Type} [Field K]

/-! ### Mixed problem -/

/-- Divergence of the basis function `a` in the point `i`; the derivatives are those on the
reference cell. -/
def divAt (u : Elem K X) (i a : Nat) : K :=
  (∑ k ∈ Finset.range u.dim, u.tab.val (k + 1) i a k) / u.det i

/-- `∫ κ⁻¹ ψ_a · ψ_b` -/
def fluxMass (u : Elem K X) (kappa : X → Nat → K) (a b : Nat) : K :=
  ∑ i ∈ Finset.range u.nPts, u.det i * u.weights i *
    (1 / kappa u.x i * ∑ d ∈ Finset.range u.dim, u.tab.val 0 i a d * u.tab.val 0 i b d)

/-- `∫ φ_b div ψ_a` -/
def divPair (u : Elem K X) (p : Tab K) (b a : Nat) : K :=
  ∑ i ∈ Finset.range u.nPts, u.det i * u.weights i * (p.val 0 i b 0 * divAt u i a)

/-- `∫ f φ_b` -/
def source (u : Elem K X) (p : Tab K) (rhs : X → Nat → Nat → K) (b : Nat) : K :=
  ∑ i ∈ Finset.range u.nPts, u.det i * u.weights i * p.val 0 i b 0 * rhs u.x 0 i

/-- The matrix of the saddle point problem. -/
def mixedMatrix (u : Elem K X) (p : Tab K) (kappa : X → Nat → K) (a b : Nat) : K :=
  if a < u.tab.nPhi then
    if b < u.tab.nPhi then fluxMass u kappa b a else - divPair u p (b - u.tab.nPhi) a
  else if b < u.tab.nPhi then divPair u p (a - u.tab.nPhi) b else 0

/-- The right hand side. -/
def mixedSource (u : Elem K X) (p : Tab K) (rhs : X → Nat → Nat → K) (a : Nat) : K :=
  if a < u.tab.nPhi then 0 else source u p rhs (a - u.tab.nPhi)

/-- The residual of the mixed problem in `alpha`. -/
def mixedResidual (u : Elem K X) (p : Tab K) (rhs : X → Nat → Nat → K) (kappa : X → Nat → K)
    (alpha : Nat → K) (a : Nat) : K :=
  ∑ b ∈ Finset.range (u.tab.nPhi + p.nPhi), mixedMatrix u p kappa a b * alpha b -
    mixedSource u p rhs a

/-- The shapes of the arrays fit: vector valued fluxes, scalar pressures. -/
structure MixedShapes (u : Elem K X) (p : Tab K) : Prop where
  dim : 0 < u.dim
  values : u.dim ≤ u.tab.nVal
  derivatives : u.dim ≤ u.tab.nDer
  scalar : p.nVal = 1

/-- `u_h` in the point `i`, component `d`. -/
def fluxAt (u : Elem K X) (v : Nat → K) (i d : Nat) : K :=
  ∑ a ∈ Finset.range u.tab.nPhi, v a * u.tab.val 0 i a d

/-- `∫ p_D ψ · n` on a facet, component `c`: `at a i` is the normal component of the trace of the
basis function `a` in the point `i`. -/
def boundaryFlux (nPts : Nat) (weights det : Nat → K) (pD : Nat → Nat → K) (flux : Nat → Nat → K)
    (c a : Nat) : K :=
  ∑ i ∈ Finset.range nPts, det i * weights i * pD i c * flux a i

/-! ### Primal problem -/

/-- Number of components of the gradients the code uses. -/
def gradComps (el : PElem K X) : Nat := if el.dim = 2 then 2 else 3

/-- Component `l` of the gradient of the basis function `a` in the point `i`: the transposed
pseudo-inverse applied to the derivatives on the reference cell. -/
def gradAt (el : PElem K X) (i a l : Nat) : K :=
  ∑ k ∈ Finset.range el.dim, el.inv i k l * el.tab.val (k + 1) i a 0

/-- `∫ κ ∇φ_a · ∇φ_b`, with gradients of `comps` components. -/
def stiffness (comps : Nat) (el : PElem K X) (kappa : X → Nat → K) (a b : Nat) : K :=
  ∑ i ∈ Finset.range el.nPts, el.det i * el.weights i *
    (kappa el.x i * ∑ l ∈ Finset.range comps, gradAt el i a l * gradAt el i b l)

/-- `∫ f φ_a` -/
def primalSource (el : PElem K X) (rhs : X → Nat → Nat → K) (a : Nat) : K :=
  ∑ i ∈ Finset.range el.nPts, el.det i * el.weights i * el.tab.val 0 i a 0 * rhs el.x 0 i

end Verif.Laplace
