/-
Specification vocabulary for C74: mixed linear elasticity in the plane with a pressure.
-/
import Verif.Model.TaylorHood
import Verif.Spec.Elasticity

namespace Verif.TaylorHood
open Assembly L2Form Laplace Elasticity

variable {K X : Type} [Field K]

/-- Deviatoric part of the symmetric part of a plane tensor. -/
def deviator (g : Nat → Nat → K) (k l : Nat) : K := sym g k l - if k = l then tr 2 g / 2 else 0

/-- Number of degrees of freedom. -/
def dofs (u : PElem K X) (p : Tab K) : Nat := u.tab.nPhi * 2 + p.nPhi

/-- Displacement gradient of the degree of freedom `a`. -/
def gradOf (u : PElem K X) (i a : Nat) (k l : Nat) : K :=
  if a < u.tab.nPhi * 2 then basisGrad 2 u i a k l else 0

/-- Pressure of the degree of freedom `a`. -/
def pressureOf (u : PElem K X) (p : Tab K) (i a : Nat) : K :=
  if a < u.tab.nPhi * 2 then 0 else p.val 0 i (a - u.tab.nPhi * 2) 0

/-- `2μ dev ε(u) : dev ε(v) + p div v + q div u - p q / (λ + μ)` -/
def mixedPower (mu lam : K) (g : Nat → Nat → K) (p : K) (h : Nat → Nat → K) (q : K) : K :=
  2 * mu * contract 2 (deviator g) (deviator h) + q * tr 2 g + p * tr 2 h - p * q / (lam + mu)

/-- The matrix of the mixed form. -/
def mixedMatrix (u : PElem K X) (p : Tab K) (mu lam : X → Nat → K) (a b : Nat) : K :=
  ∑ i ∈ Finset.range u.nPts, u.det i * u.weights i *
    mixedPower (mu u.x i) (lam u.x i) (gradOf u i a) (pressureOf u p i a) (gradOf u i b)
      (pressureOf u p i b)

/-- The load acts on the displacements only. -/
def mixedLoad (u : PElem K X) (rhs : X → Nat → Nat → K) (a : Nat) : K :=
  if a < u.tab.nPhi * 2 then bodyLoad 2 u rhs a else 0

/-- Pressure of the field with the coefficients `v`. -/
def fieldPressure (u : PElem K X) (p : Tab K) (v : Nat → K) (i : Nat) : K :=
  ∑ a ∈ Finset.range p.nPhi, v (u.tab.nPhi * 2 + a) * p.val 0 i a 0

end Verif.TaylorHood
