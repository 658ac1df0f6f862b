/-
Specification of the solutions of `-Δu + u = f` with the flux `q = -∇u`, at one point.
-/
import Verif.Model.OdenExact
import Verif.Spec.Strong

namespace Verif.Oden.Exact
open Strong

/-- `q = -∇u`, `divQ = div q` and `div q + u = f` -/
structure Solves (k : Case) (x y z : ℝ) : Prop where
  flux : ∀ j : Fin k.n, HasPartial j k.u (-k.q x y z j) x y z
  divergence : ∃ d : Fin k.n → ℝ, (∀ j : Fin k.n, HasPartial j (fun x y z => k.q x y z j) (d j) x y z) ∧
    k.divQ x y z = ∑ j, d j
  balance : k.divQ x y z + k.u x y z = k.f x y z

/-- The point is on the boundary of the unit cube of dimension `n`. -/
def OnBoundary (n : Nat) (x y : ℝ) : Prop := x = 0 ∨ x = 1 ∨ (2 ≤ n ∧ (y = 0 ∨ y = 1))

/-- The mixed form in a point: flux `q` with divergence `dq`, scalar `u`, source `f`, test flux `v` with divergence `dv`
and test function `w` -/
def weak {n : Nat} (q : Fin n → ℝ) (dq u f : ℝ) (v : Fin n → ℝ) (dv w : ℝ) : ℝ :=
  (∑ j, q j * v j - u * dv) + ((dq + u) * w - f * w)

end Verif.Oden.Exact
