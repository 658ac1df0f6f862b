/-
Model of examples/cosserat_ecmor/strong_solution_cosserat_elasticity_example_3.py, an exact solution of linear
Cosserat elasticity in the plane with a length that vanishes in a part of the domain.

* Over the real numbers, at one point.
* `np.min` and `np.max` of lists along the first axis are minimum and maximum, `np.where` is a choice.
-/
import Verif.Model.StrongCauchy1

namespace Verif.Strong.Ecmor
open Real

/-- lines 6-20 `gamma_s` in dimension two; lines 68-82 `gamma_eval` -/
noncomputable def gammaEval (x y _z : ℝ) : ℝ := min 1 (max 0 (max (3 * x - 1) (3 * y - 1)))

open Classical in
/-- lines 27-63 `grad_gamma_s` in dimension two; lines 89-125 `grad_gamma_eval` -/
noncomputable def gradGammaEval (x y _z : ℝ) : Fin 2 → ℝ :=
  ![if (x - y ≥ 0 ∧ x ≥ 2 / 3) ∨ (x - y < 0 ∧ y ≥ 2 / 3) then 0
      else if (1 / 3 < x ∧ x < 2 / 3) ∧ x - y ≥ 0 then 3 * 1 else 0,
    if (x - y ≥ 0 ∧ x ≥ 2 / 3) ∨ (x - y < 0 ∧ y ≥ 2 / 3) ∨ ((1 / 3 < x ∧ x < 2 / 3) ∧ x - y ≥ 0) then 0
      else if (1 / 3 < y ∧ y < 2 / 3) ∧ x - y < 0 then 3 * 1 else 0]

/-- lines 136-141 `displacement` in dimension two -/
noncomputable def displacement (_lambda _mu _kappa x y _z : ℝ) : Fin 2 → ℝ :=
  ![(1 - y) * y * sin (2 * π * x),
    (1 - x) * x * sin (2 * π * y)]

/-- lines 148-152 `rotation` in dimension two -/
noncomputable def rotation (_lambda _mu _kappa x y _z : ℝ) : Fin 1 → ℝ :=
  ![(1 - x) * x * (1 - y) * y]

/-- lines 159-186 `stress` in dimension two -/
noncomputable def stress (lambda mu kappa x y _z : ℝ) : Fin 2 → Fin 2 → ℝ :=
  ![![-2 * π * (-1 + y) * y * (lambda + 2 * mu) * cos (2 * π * x) - 2 * π * (-1 + x) * x * lambda * cos (2 * π * y),
      2 * x * y * (-1 + x + y - x * y) * kappa - (-1 + 2 * y) * (kappa + mu) * sin (2 * π * x) + (-1 + 2 * x) *
        (kappa - mu) * sin (2 * π * y)],
    ![2 * (-1 + x) * x * (-1 + y) * y * kappa + (-1 + 2 * y) * (kappa - mu) * sin (2 * π * x) - (-1 + 2 * x) *
        (kappa + mu) * sin (2 * π * y),
      -2 * π * (-1 + y) * y * lambda * cos (2 * π * x) - 2 * π * (-1 + x) * x * (lambda + 2 * mu) * cos (2 * π * y)]]

/-- lines 193-202 `couple_stress_scaled` in dimension two -/
noncomputable def coupleStressScaled (_lambda _mu _kappa x y z : ℝ) : Fin 1 → Fin 2 → ℝ :=
  ![![((1 - x) * (1 - y) * y - x * (1 - y) * y) * gammaEval x y z,
      ((1 - x) * x * (1 - y) - (1 - x) * x * y) * gammaEval x y z]]

/-- lines 209-255 `rhs_scaled` in dimension two -/
noncomputable def rhsScaled (lambda mu kappa x y z : ℝ) : Fin 3 → ℝ :=
  ![2 * (x * (-1 + x + 2 * y - 2 * x * y) * kappa + π * (-1 + 2 * x) * (kappa - lambda - mu) * cos (2 * π * y) -
      (kappa + mu - 2 * π ^ 2 * (-1 + y) * y * (lambda + 2 * mu)) * sin (2 * π * x)),
    2 * ((-1 + 2 * x) * (-1 + y) * y * kappa + π * (-1 + 2 * y) * (kappa - lambda - mu) * cos (2 * π * x) - (kappa
      + mu - 2 * π ^ 2 * (-1 + x) * x * (lambda + 2 * mu)) * sin (2 * π * y)),
    2 * (kappa * (2 * x * y * (-1 + x + y - x * y) + (1 - 2 * y) * sin (2 * π * x) + (-1 + 2 * x) * sin (2 * π *
      y)) + (-x + x ^ 2 + (-1 + y) * y) * (gammaEval x y z) ^ 2 + gammaEval x y z * ((-1 + x) * x * (-1 + 2 * y) *
      gradGammaEval x y z 1 + (-1 + 2 * x) * (-1 + y) * y * gradGammaEval x y z 0))]

/-- lines 262-293 `stress_divergence` in dimension two -/
noncomputable def stressDivergence (lambda mu kappa x y _z : ℝ) : Fin 2 → ℝ :=
  ![2 * (x * (-1 + x + 2 * y - 2 * x * y) * kappa + π * (-1 + 2 * x) * (kappa - lambda - mu) * cos (2 * π * y) -
      (kappa + mu - 2 * π ^ 2 * (-1 + y) * y * (lambda + 2 * mu)) * sin (2 * π * x)),
    2 * ((-1 + 2 * x) * (-1 + y) * y * kappa + π * (-1 + 2 * y) * (kappa - lambda - mu) * cos (2 * π * x) - (kappa
      + mu - 2 * π ^ 2 * (-1 + x) * x * (lambda + 2 * mu)) * sin (2 * π * y))]

/-- lines 300-311 `couple_stress_divergence_scaled` in dimension two -/
noncomputable def coupleStressDivergenceScaled (_lambda _mu _kappa x y z : ℝ) : Fin 1 → ℝ :=
  ![2 * gammaEval x y z * ((-1 + x) * x * gammaEval x y z + (-1 + y) * y * gammaEval x y z + (-1 + x) * x * (-1 + 2
      * y) * gradGammaEval x y z 1 + (-1 + 2 * x) * (-1 + y) * y * gradGammaEval x y z 0)]


noncomputable def gammaOf (dim : Nat) : Res (ℝ → ℝ → ℝ → ℝ) := inPlane dim gammaEval

noncomputable def gradGammaOf (dim : Nat) : Res (ℝ → ℝ → ℝ → Fin 2 → ℝ) := inPlane dim gradGammaEval

noncomputable def displacementOf (lambda mu kappa : ℝ) (dim : Nat) : Res (ℝ → ℝ → ℝ → Fin 2 → ℝ) :=
  inPlane dim (displacement lambda mu kappa)

noncomputable def rotationOf (lambda mu kappa : ℝ) (dim : Nat) : Res (ℝ → ℝ → ℝ → Fin 1 → ℝ) :=
  inPlane dim (rotation lambda mu kappa)

noncomputable def stressOf (lambda mu kappa : ℝ) (dim : Nat) : Res (ℝ → ℝ → ℝ → Fin 2 → Fin 2 → ℝ) :=
  inPlane dim (stress lambda mu kappa)

noncomputable def coupleStressScaledOf (lambda mu kappa : ℝ) (dim : Nat) : Res (ℝ → ℝ → ℝ → Fin 1 → Fin 2 → ℝ) :=
  inPlane dim (coupleStressScaled lambda mu kappa)

noncomputable def rhsScaledOf (lambda mu kappa : ℝ) (dim : Nat) : Res (ℝ → ℝ → ℝ → Fin 3 → ℝ) :=
  inPlane dim (rhsScaled lambda mu kappa)

noncomputable def stressDivergenceOf (lambda mu kappa : ℝ) (dim : Nat) : Res (ℝ → ℝ → ℝ → Fin 2 → ℝ) :=
  inPlane dim (stressDivergence lambda mu kappa)

noncomputable def coupleStressDivergenceScaledOf (lambda mu kappa : ℝ) (dim : Nat) : Res (ℝ → ℝ → ℝ → Fin 1 → ℝ) :=
  inPlane dim (coupleStressDivergenceScaled lambda mu kappa)

end Verif.Strong.Ecmor
