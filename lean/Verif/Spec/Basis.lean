/-
Notions for C90: vectors of the space, fluxes and circulations.
-/
import Verif.Model.Basis

namespace Verif.Basis

variable {K : Type} [Field K]

/-- The first three components -/
def vec (v : Nat → K) : Fin 3 → K := fun i => v i

/-- The scalar product -/
def dot (a b : Fin 3 → K) : K := a 0 * b 0 + a 1 * b 1 + a 2 * b 2

/-- The vector product -/
def cross (a b : Fin 3 → K) : Fin 3 → K :=
  ![a 1 * b 2 - a 2 * b 1, a 2 * b 0 - a 0 * b 2, a 0 * b 1 - a 1 * b 0]

/-- The image of a direction of the reference cell -/
def image {d : Nat} (J : Matrix (Fin 3) (Fin d) K) (a : Fin d → K) : Fin 3 → K :=
  fun i => ∑ k, J i k * a k

/-- The determinant belongs to the Jacobian, as C57 proves of what the code computes. -/
structure FitsDet {d : Nat} [LinearOrder K] (g : Geo K d) : Prop where
  pos : 0 < g.det
  square : g.det ^ 2 = (g.jac.transpose * g.jac).det

/-- The inverse belongs to the Jacobian. -/
def FitsInv {d : Nat} (g : Geo K d) : Prop := g.inv * g.jac = 1

/-- What one function `psi` of the result has to be for the function `phi` on the reference cell with
`n` components: its values are mapped, and its derivatives are the ones on the reference cell, extended by 0. -/
structure Mapped {d : Nat} (m : MapType) (geo : Nat → Geo K d) (n : Nat)
    (phi psi : Nat → Nat → Nat → K) : Prop where
  values : ∀ p c, psi 0 p c = m.push (geo p) (phi 0 p) c
  derivatives : ∀ k, k ≠ 0 → ∀ p c, c < n → psi k p c = phi k p c
  rest : ∀ k, k ≠ 0 → ∀ p c, n ≤ c → c < m.size n → psi k p c = 0

end Verif.Basis
