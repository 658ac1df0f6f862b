/-
Specification vocabulary for C129: the mixed form of `κ⁻¹ q + ∇u = 0`, `div q + div m = f`, by quadrature on one element.
-/
import Verif.Model.ThreeFieldsDiffusion

namespace Verif.ThreeFields.Diffusion
open Assembly L2Form Laplace

variable {K X : Type} [Field K]

/-- The fields in a point: the diffusive flux, the divergences of both fluxes and the scalar -/
structure Fields (K : Type) where
  q : Nat → K
  divQ : K
  divM : K
  u : K

/-- Divergence of the basis function `a` of a flux -/
def divOf (s : Spaces K X) (t : Tab K) (i a : Nat) : K :=
  (∑ k ∈ Finset.range s.q.dim, t.val (k + 1) i a k) / s.q.det i

/-- The number of degrees of freedom -/
def size (s : Spaces K X) : Nat := s.q.tab.nPhi + s.m.nPhi + s.u.nPhi

/-- The basis function of the degree of freedom `a`: first `q`, then `m` and `u` -/
def basis (s : Spaces K X) (i a : Nat) : Fields K :=
  if a < s.q.tab.nPhi then ⟨fun d => s.q.tab.val 0 i a d, divOf s s.q.tab i a, 0, 0⟩
  else if a < s.q.tab.nPhi + s.m.nPhi then ⟨fun _ => 0, 0, divOf s s.m i (a - s.q.tab.nPhi), 0⟩
  else ⟨fun _ => 0, 0, 0, s.u.val 0 i (a - (s.q.tab.nPhi + s.m.nPhi)) 0⟩

/-- The fields with the degrees of freedom `alpha` -/
def state (s : Spaces K X) (alpha : Nat → K) (i : Nat) : Fields K where
  q d := ∑ b ∈ Finset.range (size s), alpha b * (basis s i b).q d
  divQ := ∑ b ∈ Finset.range (size s), alpha b * (basis s i b).divQ
  divM := ∑ b ∈ Finset.range (size s), alpha b * (basis s i b).divM
  u := ∑ b ∈ Finset.range (size s), alpha b * (basis s i b).u

/-- The equations in a point, tested with `z` -/
def weak (dim : Nat) (kappa f : K) (w z : Fields K) : K :=
  (∑ d ∈ Finset.range dim, w.q d / kappa * z.q d - w.u * z.divQ) + (w.divQ + w.divM - f) * z.u

/-- The residual of the test function `a` -/
def residual (s : Spaces K X) (rhs : X → Nat → Nat → K) (kappa : X → Nat → K) (alpha : Nat → K) (a : Nat) : K :=
  ∑ i ∈ Finset.range s.q.nPts, s.q.det i * s.q.weights i *
    weak s.q.dim (kappa s.q.x i) (rhs s.q.x 0 i) (state s alpha i) (basis s i a)

/-- The entry of the matrix: the form without source for two basis functions -/
def matrix (s : Spaces K X) (kappa : X → Nat → K) (a b : Nat) : K :=
  ∑ i ∈ Finset.range s.q.nPts, s.q.det i * s.q.weights i *
    weak s.q.dim (kappa s.q.x i) 0 (basis s i b) (basis s i a)

/-- The shapes of the arrays fit: vector valued fluxes with at least as many functions as dimensions, a scalar `u`, one
component each. -/
structure Shapes (s : Spaces K X) : Prop where
  dim : 0 < s.q.dim
  qValues : s.q.dim ≤ s.q.tab.nVal
  qDer : s.q.dim ≤ s.q.tab.nDer
  qMany : s.q.dim ≤ s.q.tab.nPhi
  mValues : s.q.dim ≤ s.m.nVal
  mDer : s.q.dim ≤ s.m.nDer
  mMany : s.q.dim ≤ s.m.nPhi
  uScalar : s.u.nVal = 1
  qOne : s.qComp = 1
  mOne : s.mComp = 1
  uOne : s.uComp = 1

end Verif.ThreeFields.Diffusion
