/-
Model of the time loop and the Newton iteration of examples/parabolic_diffusive_problem/mixed_transport_model.py
(lines 252-350), in exact arithmetic.

* The assembled residual and Jacobian of a time, the test of the norm and the linear solver are parameters.
* The time step and the end are rational numbers; `np.arange` has no rounding.
-/
import Verif.Prelude
import Mathlib.Algebra.Order.Archimedean.Basic
import Mathlib.Algebra.Order.Floor.Semiring
import Mathlib.Algebra.Module.Defs
import Mathlib.Data.Rat.Floor

namespace Verif.TimeLoop

/-- `np.arange(start, stop, step)` -/
def arange (start stop step : ℚ) : Res (List ℚ) :=
  if step = 0 then .error .zeroDivisionError
  else .ok ((List.range ⌈(stop - start) / step⌉.toNat).map fun (i : Nat) => start + (i : ℚ) * step)

section
variable {K V M : Type} [Field K] [AddCommGroup V] [Module K V] [AddCommGroup M] [Module K M]

/-- What the iteration changes: `alpha_n_p_1`, `res_g` and `jac_g` -/
structure State (V M : Type) where
  alpha : V
  res : V
  jac : M

/-- Lines 301-348: `n` iterations.  `residual` and `jacobian` are what the assembly adds, `small` is the test of the
norm, `solve` the linear solver. -/
def iterate (K : Type) {V M : Type} [Field K] [AddCommGroup V] [Module K V] [AddCommGroup M] [Module K M]
    (residual : V → V) (jacobian : V → M) (small : V → Bool) (solve : M → V → V) : Nat → State V M → State V M
  | 0, s => s
  | n + 1, s =>
    let s : State V M := ⟨s.alpha, s.res + residual s.alpha, s.jac + jacobian s.alpha⟩
    if small s.res then s
    else iterate K residual jacobian small solve n
      ⟨s.alpha + solve s.jac (-s.res), (0 : K) • s.res, (0 : K) • s.jac⟩

/-- Lines 293-350: one time step from `old`, with the residual of this time.  The iteration starts in a copy of `old`. -/
def timeStep (K : Type) {V M : Type} [Field K] [AddCommGroup V] [Module K V] [AddCommGroup M] [Module K M]
    (iterations : Nat) (residual : V → V → V) (jacobian : V → V → M) (small : V → Bool) (solve : M → V → V) (old : V) : V :=
  (iterate K (fun a => residual a old) (fun a => jacobian a old) small solve iterations ⟨old, 0, 0⟩).alpha

/-- Lines 252-350: `alpha_n_p_1` after the loop over the times.  Without a time step the name is not defined. -/
def run (K : Type) {V M : Type} [Field K] [AddCommGroup V] [Module K V] [AddCommGroup M] [Module K M]
    (iterations : Nat) (dt tEnd : ℚ) (residual : ℚ → V → V → V) (jacobian : ℚ → V → V → M) (small : V → Bool)
    (solve : M → V → V) : Res V := do
  let times ← arange dt (tEnd + dt) dt
  let last := times.foldl (fun (s : V × Option V) t =>
    let a := timeStep K iterations (residual t) (jacobian t) small solve s.1
    (a, some a)) (0, none)
  match last.2 with
  | some a => .ok a
  | none => .error .nameError

end
end Verif.TimeLoop
