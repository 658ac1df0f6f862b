/-
Specification vocabulary for C119: two fluxes and a multiplier on their interface.
-/
import Verif.Spec.Coupling
import Verif.Model.Multiplier

namespace Verif.Multiplier
open Coupling

variable {X : Type}

/-- The fields of the degree of freedom `a` in the point `i`: first the fluxes of the side `n`, then those of the side
`p`, then the multipliers. -/
noncomputable def dofFields (n p : Side ℝ X) (dim i a : Nat) : Fields ℝ :=
  if a < n.dofs.length then ⟨0, n.normalFlux dim i a, 0⟩
  else if a < n.dofs.length + p.dofs.length then ⟨p.normalFlux dim i (a - n.dofs.length), 0, 0⟩
  else ⟨0, 0, n.pTab.val 0 i (a - (n.dofs.length + p.dofs.length)) 0⟩

/-- The number of degrees of freedom -/
def size (n p : Side ℝ X) : Nat := n.dofs.length + p.dofs.length + n.pTab.nPhi

/-- The multiplier of `w` acts with the pressure `b` times itself on the flux `d v` of the side `n` and with the
pressure `c` times itself on the flux `u` of the side `p`; it demands that the flux `d v + u` out of both sides
vanishes. -/
def pairing (d b c : ℝ) (w z : Fields ℝ) : ℝ :=
  b * w.pres * (d * z.fluxN) + c * w.pres * z.fluxP + (d * w.fluxN + w.fluxP) * z.pres

/-- The matrix: row of the test function `k`, column of the trial function `l` -/
noncomputable def multiplierMatrix (n p : Side ℝ X) (dim : Nat) (d b c : Nat → ℝ) (k l : Nat) : ℝ :=
  ∑ i ∈ Finset.range n.nPts, n.det i * n.weights i *
    pairing (d i) (b i) (c i) (dofFields n p dim i l) (dofFields n p dim i k)

end Verif.Multiplier
