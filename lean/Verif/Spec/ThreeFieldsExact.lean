/-
Specification of the stationary advection and diffusion in the unit interval with Robin conditions.
-/
import Verif.Model.ThreeFieldsExact
import Mathlib.MeasureTheory.Integral.IntervalIntegral.FundThmCalculus

namespace Verif.ThreeFields

/-- `q = -κ u'`, `m = v u` and `(q + m)' = f` in a point of the interval -/
structure Solves (p : Params) (k : Case) (x y z : ℝ) : Prop where
  flux : ∃ d : ℝ, HasDerivAt (fun s => k.u s y z) d x ∧ k.q x y z = -(kappaFn p x y z) * d
  advection : k.m x y z = velocityFn p x y z * k.u x y z
  balance : HasDerivAt (fun s => k.q s y z + k.m s y z) (k.f x y z) x

/-- The condition imposed by the Robin form in a boundary point with the outward normal `n`: the scalar equals the factor
of the trace of the test function. -/
def RobinHolds (p : Params) (k : Case) (n x y z : ℝ) : Prop :=
  k.u x y z = robinValue (betaFn p x y z) (gammaFn p x y z) (cFn p x y z) (n * k.q x y z) (n * k.m x y z)

/-- The equation of the diffusive flux for the test function `w` with derivative `dw`: the integral over the interval and
the Robin terms in both end points -/
noncomputable def fluxEquation (p : Params) (k : Case) (w dw : ℝ → ℝ) : ℝ :=
  (∫ x in (0 : ℝ)..1, (1 / kappaFn p x 0 0 * k.q x 0 0) * w x - k.u x 0 0 * dw x) +
    (robinValue (betaFn p 1 0 0) (gammaFn p 1 0 0) (cFn p 1 0 0) (k.q 1 0 0) (k.m 1 0 0) * w 1 +
      robinValue (betaFn p 0 0 0) (gammaFn p 0 0 0) (cFn p 0 0 0) (-k.q 0 0 0) (-k.m 0 0 0) * -w 0)

end Verif.ThreeFields
