/-
Model of the data and the exact solution of
examples/geothermal_flow/three_fields_advection_diffusion.py (lines 118-289), over the real numbers, at one point; the
shapes of the arrays are left out.  The condition imposed by the Robin form is that of
examples/geothermal_flow/ThreeFieldsAdvectionDiffusionWeakForm.py:245-255.
-/
import Verif.Prelude
import Mathlib.Analysis.SpecialFunctions.Exp
import Mathlib.Analysis.Real.Pi.Bounds

namespace Verif.ThreeFields

/-- Lines 118-134: the scalars of the example -/
structure Params where
  kappa : ℝ
  velocity : ℝ
  betaL : ℝ
  betaR : ℝ
  gammaL : ℝ
  gammaR : ℝ
  cL : ℝ
  cR : ℝ

/-- Lines 118-134 -/
noncomputable def params : Params where
  kappa := Real.pi
  velocity := 100
  betaL := 10 ^ 12
  betaR := 10 ^ 12
  gammaL := 0
  gammaR := 0
  cL := 5
  cR := 1

/-- Lines 136-137 `xi_map` -/
def xiMap (left right x _y _z : ℝ) : ℝ := left * (1 - x) + right * x

/-- Lines 139-143: `f_kappa`, `f_velocity` (each component), `f_beta`, `f_gamma` and `f_c` -/
def kappaFn (p : Params) : ℝ → ℝ → ℝ → ℝ := xiMap p.kappa p.kappa
def velocityFn (p : Params) : ℝ → ℝ → ℝ → ℝ := xiMap p.velocity p.velocity
def betaFn (p : Params) : ℝ → ℝ → ℝ → ℝ := xiMap p.betaL p.betaR
def gammaFn (p : Params) : ℝ → ℝ → ℝ → ℝ := xiMap p.gammaL p.gammaR
def cFn (p : Params) : ℝ → ℝ → ℝ → ℝ := xiMap p.cL p.cR

/-- Lines 177-189, 217-229 and 263-275: the denominator of the three functions; where it vanishes, numpy returns `nan` or
`inf` and the functions below do not describe the code -/
noncomputable def den (p : Params) : ℝ :=
  (p.betaL * p.kappa + p.kappa * p.velocity - p.kappa * p.velocity) * (p.betaR - p.velocity) -
    Real.exp (p.velocity / p.kappa) * (p.betaL - p.velocity) *
      (p.betaR * p.kappa + p.kappa * p.velocity - p.kappa * p.velocity)

/-- Lines 154-174 and 240-260: the numerator of `u_exact` and `m_exact` -/
noncomputable def num (p : Params) (x : ℝ) : ℝ :=
  p.cR * (p.betaR - p.gammaR) *
      (p.kappa * p.velocity -
        (-1 + Real.exp ((x * p.velocity) / p.kappa)) * p.kappa * (p.betaL - p.velocity)) +
    p.cL * (p.betaL - p.gammaL) *
      (Real.exp ((x * p.velocity) / p.kappa) * p.kappa * (p.betaR - p.velocity) -
        Real.exp (p.velocity / p.kappa) *
          (p.betaR * p.kappa + p.kappa * p.velocity - p.kappa * p.velocity))

/-- Lines 149-193 -/
noncomputable def uExact (p : Params) (x _y _z : ℝ) : ℝ := num p x / den p

/-- Lines 195-233 -/
noncomputable def qExact (p : Params) (x _y _z : ℝ) : ℝ :=
  -((p.kappa *
      (-(p.cR * Real.exp ((x * p.velocity) / p.kappa) * (p.betaR - p.gammaR) * p.velocity *
          (p.betaL - p.velocity)) +
        p.cL * Real.exp ((x * p.velocity) / p.kappa) * (p.betaL - p.gammaL) * p.velocity *
          (p.betaR - p.velocity))) / den p)

/-- Lines 235-279 -/
noncomputable def mExact (p : Params) (x _y _z : ℝ) : ℝ := p.velocity * (num p x / den p)

/-- The functions of `x`, `y` and `z` -/
structure Case where
  u : ℝ → ℝ → ℝ → ℝ
  q : ℝ → ℝ → ℝ → ℝ
  m : ℝ → ℝ → ℝ → ℝ
  f : ℝ → ℝ → ℝ → ℝ

/-- Lines 147-289 -/
noncomputable def exactCase (p : Params) : Nat → Res Case
  | 1 => .ok ⟨uExact p, qExact p, mExact p, fun _ _ _ => 0⟩
  | _ => .error .valueError

/-- ThreeFieldsAdvectionDiffusionWeakForm.py:250-253: the factor of the trace of the test function, with the normal
fluxes `q_h_n` and `m_h_n` -/
noncomputable def robinValue (beta gamma c qn mn : ℝ) : ℝ :=
  (1 / beta) * (qn + mn + beta * c - gamma * c)

end Verif.ThreeFields
