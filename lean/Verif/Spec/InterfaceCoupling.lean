/-
Specification vocabulary for C111: the coupling of a fracture in scaled variables.
-/
import Verif.Spec.Coupling
import Verif.Model.InterfaceCoupling

namespace Verif.Interface
open Coupling

/-- The physical fields `u = d v` and `p = q / s` of the scaled ones -/
noncomputable def physical (d s : ℝ) (f : Fields ℝ) : Fields ℝ := ⟨d * f.fluxP, d * f.fluxN, f.pres / s⟩

/-- Fluxes against fluxes with the factor `c`, and pressures against fluxes with the factor `b` -/
def scaledPairing (c b : ℝ) (u v : Fields ℝ) : ℝ :=
  c * (u.fluxP * v.fluxP + u.fluxN * v.fluxN) +
    b * (u.pres * (v.fluxP + v.fluxN) + (u.fluxP + u.fluxN) * v.pres)

variable {X : Type}

/-- The matrix with the factors `c` and `b` in the points -/
noncomputable def scaledMatrix (p n : Side ℝ X) (dim : Nat) (c b : Nat → ℝ) (k l : Nat) : ℝ :=
  ∑ i ∈ Finset.range n.nPts, n.det i * n.weights i *
    scaledPairing (c i) (b i) (dofFields p n dim i l) (dofFields p n dim i k)

/-- The matrix of the law of Robin with the coefficient `1 / α` for the physical fields, with the sign `s` of the exchange
in the balance of the fracture -/
noncomputable def physicalMatrix (p n : Side ℝ X) (dim : Nat) (alpha d root : Nat → ℝ) (s : ℝ) (k l : Nat) : ℝ :=
  ∑ i ∈ Finset.range n.nPts, n.det i * n.weights i *
    pairing (1 / alpha i) s (physical (d i) (root i) (dofFields p n dim i l))
      (physical (d i) (root i) (dofFields p n dim i k))

end Verif.Interface
