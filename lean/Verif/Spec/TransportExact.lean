/-
Specification vocabulary for C121: the equations of diffusion and of diffusion with reaction, in strong form.
-/
import Verif.Model.TransportExact
import Verif.Spec.Strong
import Verif.Spec.Transport

namespace Verif.Transport.Exact
open Strong

/-- In the point: the flux `m` is minus the gradient of `u`, and `∂u/∂t + div m + s` is `f`. -/
structure Diffusion {n : Nat} (u : ℝ → ℝ → ℝ → ℝ → ℝ) (m : ℝ → ℝ → ℝ → ℝ → Fin n → ℝ) (s f x y z t : ℝ) : Prop where
  flux : ∀ j : Fin n, HasPartial j (fun x y z => u x y z t) (-m x y z t j) x y z
  balance : ∃ du, ∃ dm : Fin n → ℝ, HasDerivAt (fun t => u x y z t) du t ∧
    (∀ j : Fin n, HasPartial j (fun x y z => m x y z t j) (dm j) x y z) ∧ du + ∑ j, dm j + s = f

/-- The point is on the boundary of the unit cube of dimension `n`. -/
def OnBoundary (n : Nat) (x y z : ℝ) : Prop :=
  x = 0 ∨ x = 1 ∨ (2 ≤ n ∧ (y = 0 ∨ y = 1)) ∨ (3 ≤ n ∧ (z = 0 ∨ z = 1))

/-- The exact fields in a point; `d` and `e` are the divergences of the fluxes. -/
def Case.fields (k : Case) (x y z t d e : ℝ) : Fields ℝ :=
  ⟨vec (k.mp x y z t), d, vec (k.mc x y z t), e, k.p x y z t, k.c x y z t⟩

/-- The divergence of `p z.mp + c z.mc` by the rule of the product, with the gradients `g` and `h` of `p` and `c` -/
def productRule {n : Nat} (p c : ℝ) (g h : Fin n → ℝ) (z : Fields ℝ) : ℝ :=
  (∑ j : Fin n, g j * z.mp j + p * z.divMp) + (∑ j : Fin n, h j * z.mc j + c * z.divMc)

end Verif.Transport.Exact
