/-
Specification vocabulary for C110: the coupling of the two sides of a fracture with the pressure in the fracture.
-/
import Verif.Model.Coupling

namespace Verif.Coupling
open Laplace

/-- Values in a point: the fluxes that leave the bulk on the two sides, and the pressure in the fracture. -/
structure Fields (K : Type) where
  fluxP : K
  fluxN : K
  pres : K

variable {K X : Type} [Field K]

/-- The law of Robin, `c (u · n) + p = …` on both sides, tested with fluxes, and a term `s (u · n)` with the sign `s` in
the balance of the fracture. -/
def pairing (c s : K) (u v : Fields K) : K :=
  c * (u.fluxP * v.fluxP + u.fluxN * v.fluxN) + u.pres * (v.fluxP + v.fluxN) + s * ((u.fluxP + u.fluxN) * v.pres)

/-- `ψ_a · n` on one side -/
def Side.normalFlux (s : Side K X) (dim i a : Nat) : K :=
  ∑ d ∈ Finset.range (min dim s.trace.nVal), s.trace.val 0 i (s.dofs.getD a 0) d * s.normal d

/-- The fields of the degree of freedom `a` in the point `i` -/
def dofFields (p n : Side K X) (dim i a : Nat) : Fields K :=
  if a < p.dofs.length then ⟨p.normalFlux dim i a, 0, 0⟩
  else if a < p.dofs.length + n.dofs.length then ⟨0, n.normalFlux dim i (a - p.dofs.length), 0⟩
  else ⟨0, 0, n.pTab.val 0 i (a - (p.dofs.length + n.dofs.length)) 0⟩

/-- The number of the degrees of freedom -/
def size (p n : Side K X) : Nat := p.dofs.length + n.dofs.length + n.pTab.nPhi

/-- The matrix: row of the test function `a`, column of the trial function `b` -/
def couplingMatrix (p n : Side K X) (dim : Nat) (c : Nat → K) (s : K) (a b : Nat) : K :=
  ∑ i ∈ Finset.range n.nPts, n.det i * n.weights i * pairing (c i) s (dofFields p n dim i b) (dofFields p n dim i a)

/-- The fields with the coefficients `x` -/
def combine (m : Nat) (x : Nat → K) (f : Nat → Fields K) : Fields K :=
  ⟨∑ b ∈ Finset.range m, x b * (f b).fluxP, ∑ b ∈ Finset.range m, x b * (f b).fluxN,
    ∑ b ∈ Finset.range m, x b * (f b).pres⟩

/-- The two sides agree, as the `assert`s of the code demand. -/
structure Matching (close : K → K → Bool) (closeX : X → X → Bool) (p n : Side K X) : Prop where
  tabs : closeTabs close p n = true
  points : closeX p.x n.x = true
  weights : closeVecs close p.nPts p.weights n.weights = true
  det : closeVecs close p.nPts p.det n.det = true
  size : p.dofs.length = n.dofs.length

/-- The positions of the degrees of freedom of the facets exist, and the pressure has one component. -/
structure Shapes (p n : Side K X) : Prop where
  left : ∀ d ∈ p.dofs, d < p.trace.nPhi
  right : ∀ d ∈ n.dofs, d < n.trace.nPhi
  scalar : n.pTab.nVal = 1

end Verif.Coupling
