/-
Specification of Newton's method and of a sequence of time steps.
-/
import Verif.Model.TimeLoop

namespace Verif.TimeLoop

variable {V M : Type} [AddCommGroup V]

/-- One step of Newton's method -/
def newton (residual : V → V) (jacobian : V → M) (solve : M → V → V) (a : V) : V :=
  a + solve (jacobian a) (-residual a)

/-- The states `a 0 = 0`, `a 1`, … follow one another: the iteration of the time `t i` leads from `a i` to `a (i + 1)`. -/
def Chain (step : ℚ → V → V) (dt : ℚ) (n : Nat) (a : Nat → V) : Prop :=
  a 0 = 0 ∧ ∀ i < n, a (i + 1) = step ((i + 1 : ℕ) * dt) (a i)

end Verif.TimeLoop
