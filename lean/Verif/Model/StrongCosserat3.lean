/-
Model of examples/cosserat_elasticity/strong_solution_cosserat_elasticity_example_3.py: the third exact solution of
linear Cosserat elasticity, with a length that varies in space and vanishes in a part of the domain.

* Over the real numbers, at one point.
* The dictionary of material constants is a structure.
* `np.min` and `np.max` of lists along the first axis are minimum and maximum, `np.where` is a choice.
-/
import Mathlib.Analysis.SpecialFunctions.Trigonometric.Basic
import Mathlib.Data.Fin.VecNotation
import Verif.Model.Dual

namespace Verif.Strong.Cosserat3
open Real

/-- `material_data` -/
structure Material where
  lambda : ℝ
  mu : ℝ
  kappa : ℝ
  lambdaO : ℝ
  muO : ℝ
  kappaO : ℝ

/-- lines 6-18 `gamma_s`, dimension two; lines 144-156 `gamma_eval` -/
noncomputable def gammaEval2 (x y _z : ℝ) : ℝ := min 1 (max 0 (max (3 * x) (3 * y) - 1))

/-- lines 20-32 `gamma_s`, any other dimension; lines 158-170 `gamma_eval` -/
noncomputable def gammaEval3 (x y z : ℝ) : ℝ := min 1 (max 0 (max (max (3 * x) (3 * y)) (3 * z) - 1))

open Classical in
/-- lines 37-74 `grad_gamma_s`, dimension two; lines 175-212 `grad_gamma_eval` -/
noncomputable def gradGammaEval2 (x y _z : ℝ) : Fin 2 → ℝ :=
  ![if (x - y ≥ 0 ∧ x ≥ 2 / 3) ∨ (x - y < 0 ∧ y ≥ 2 / 3) then 0
      else if (1 / 3 < x ∧ x < 2 / 3) ∧ x - y ≥ 0 then 3 * 1 else 0,
    if (x - y ≥ 0 ∧ x ≥ 2 / 3) ∨ (x - y < 0 ∧ y ≥ 2 / 3) ∨ ((1 / 3 < x ∧ x < 2 / 3) ∧ x - y ≥ 0) then 0
      else if (1 / 3 < y ∧ y < 2 / 3) ∧ x - y < 0 then 3 * 1 else 0]

open Classical in
/-- lines 76-139 `grad_gamma_s`, any other dimension; lines 214-277 `grad_gamma_eval` -/
noncomputable def gradGammaEval3 (x y z : ℝ) : Fin 3 → ℝ :=
  ![if (x - y ≥ 0 ∧ x - z ≥ 0 ∧ x ≥ 2 / 3) ∨ (x - y < 0 ∧ y - z ≥ 0 ∧ y ≥ 2 / 3) ∨
        (y - z < 0 ∧ x - z < 0 ∧ z ≥ 2 / 3) then 0
      else if 1 / 3 < x ∧ x < 2 / 3 ∧ x - y ≥ 0 ∧ x - z ≥ 0 then 3 * 1 else 0,
    if (x - y ≥ 0 ∧ x - z ≥ 0 ∧ x ≥ 2 / 3) ∨ (x - y < 0 ∧ y - z ≥ 0 ∧ y ≥ 2 / 3) ∨
        (y - z < 0 ∧ x - z < 0 ∧ z ≥ 2 / 3) ∨ (1 / 3 < x ∧ x < 2 / 3 ∧ x - y ≥ 0 ∧ x - z ≥ 0) then 0
      else if x - y < 0 ∧ 1 / 3 < y ∧ y < 2 / 3 ∧ y - z ≥ 0 then 3 * 1 else 0,
    if (x - y ≥ 0 ∧ x - z ≥ 0 ∧ x ≥ 2 / 3) ∨ (x - y < 0 ∧ y - z ≥ 0 ∧ y ≥ 2 / 3) ∨
        (y - z < 0 ∧ x - z < 0 ∧ z ≥ 2 / 3) ∨ (1 / 3 < x ∧ x < 2 / 3 ∧ x - y ≥ 0 ∧ x - z ≥ 0) ∨
        (x - y < 0 ∧ 1 / 3 < y ∧ y < 2 / 3 ∧ y - z ≥ 0) then 0
      else if x - z < 0 ∧ y - z < 0 ∧ 1 / 3 < z ∧ z < 2 / 3 then 3 * 1 else 0]

/-- lines 282-287 `displacement`, dimension two -/
noncomputable def displacement2 (x y _z : ℝ) : Fin 2 → ℝ :=
  ![(1 - y) * y * sin (π * x),
    (1 - x) * x * sin (π * y)]

/-- lines 289-295 `displacement`, any other dimension -/
noncomputable def displacement3 (x y z : ℝ) : Fin 3 → ℝ :=
  ![(1 - y) * y * (1 - z) * z * sin (π * x),
    (1 - x) * x * (1 - z) * z * sin (π * y),
    (1 - x) * x * (1 - y) * y * sin (π * z)]

/-- lines 300-311 `displacement_gradient`, dimension two -/
noncomputable def displacementGradient2 (x y _z : ℝ) : Fin 2 → Fin 2 → ℝ :=
  ![![π * (1 - y) * y * cos (π * x),
      (1 - y) * sin (π * x) - y * sin (π * x)],
    ![(1 - x) * sin (π * y) - x * sin (π * y),
      π * (1 - x) * x * cos (π * y)]]

/-- lines 313-337 `displacement_gradient`, any other dimension -/
noncomputable def displacementGradient3 (x y z : ℝ) : Fin 3 → Fin 3 → ℝ :=
  ![![π * (1 - y) * y * (1 - z) * z * cos (π * x),
      (1 - y) * (1 - z) * z * sin (π * x) - y * (1 - z) * z * sin (π * x),
      (1 - y) * y * (1 - z) * sin (π * x) - (1 - y) * y * z * sin (π * x)],
    ![(1 - x) * (1 - z) * z * sin (π * y) - x * (1 - z) * z * sin (π * y),
      π * (1 - x) * x * (1 - z) * z * cos (π * y),
      (1 - x) * x * (1 - z) * sin (π * y) - (1 - x) * x * z * sin (π * y)],
    ![(1 - x) * (1 - y) * y * sin (π * z) - x * (1 - y) * y * sin (π * z),
      (1 - x) * x * (1 - y) * sin (π * z) - (1 - x) * x * y * sin (π * z),
      π * (1 - x) * x * (1 - y) * y * cos (π * z)]]

/-- lines 342-346 `rotation`, dimension two -/
noncomputable def rotation2 (x y _z : ℝ) : Fin 1 → ℝ :=
  ![sin (π * x) * sin (π * y)]

/-- lines 348-354 `rotation`, any other dimension -/
noncomputable def rotation3 (x y z : ℝ) : Fin 3 → ℝ :=
  ![(1 - x) * x * sin (π * y) * sin (π * z),
    (1 - y) * y * sin (π * x) * sin (π * z),
    (1 - z) * z * sin (π * x) * sin (π * y)]

/-- lines 359-364 `rotation_gradient`, dimension two -/
noncomputable def rotationGradient2 (x y _z : ℝ) : Fin 2 → ℝ :=
  ![π * cos (π * x) * sin (π * y),
    π * cos (π * y) * sin (π * x)]

/-- lines 366-387 `rotation_gradient`, any other dimension -/
noncomputable def rotationGradient3 (x y z : ℝ) : Fin 3 → Fin 3 → ℝ :=
  ![![(1 - x) * sin (π * y) * sin (π * z) - x * sin (π * y) * sin (π * z),
      π * (1 - x) * x * cos (π * y) * sin (π * z),
      π * (1 - x) * x * cos (π * z) * sin (π * y)],
    ![π * (1 - y) * y * cos (π * x) * sin (π * z),
      (1 - y) * sin (π * x) * sin (π * z) - y * sin (π * x) * sin (π * z),
      π * (1 - y) * y * cos (π * z) * sin (π * x)],
    ![π * (1 - z) * z * cos (π * x) * sin (π * y),
      π * (1 - z) * z * cos (π * y) * sin (π * x),
      (1 - z) * sin (π * x) * sin (π * y) - z * sin (π * x) * sin (π * y)]]

/-- lines 395-424 `stress`, dimension two -/
noncomputable def stress2 (m : Material) (x y _z : ℝ) : Fin 2 → Fin 2 → ℝ :=
  ![![π * (-((-1 + y) * y * (m.lambda + 2 * m.mu) * cos (π * x)) - (-1 + x) * x * m.lambda * cos (π * y)),
      (-1 + 2 * x) * (m.kappa - m.mu) * sin (π * y) + sin (π * x) * (-((-1 + 2 * y) * (m.kappa + m.mu)) - 2 *
        m.kappa * sin (π * y))],
    ![-((-1 + 2 * x) * (m.kappa + m.mu) * sin (π * y)) + sin (π * x) * ((-1 + 2 * y) * (m.kappa - m.mu) + 2 *
        m.kappa * sin (π * y)),
      π * (-((-1 + y) * y * m.lambda * cos (π * x)) - (-1 + x) * x * (m.lambda + 2 * m.mu) * cos (π * y))]]

/-- lines 426-523 `stress`, any other dimension -/
noncomputable def stress3 (m : Material) (x y z : ℝ) : Fin 3 → Fin 3 → ℝ :=
  ![![2 * π * (-1 + y) * y * (-1 + z) * z * m.mu * cos (π * x) + π * m.lambda * ((-1 + y) * y * (-1 + z) * z * cos
        (π * x) + (-1 + x) * x * (-1 + z) * z * cos (π * y) + (-1 + x) * x * (-1 + y) * y * cos (π * z)),
      (-1 + z) * z * (-((-1 + 2 * x) * (m.kappa - m.mu) * sin (π * y)) + sin (π * x) * ((-1 + 2 * y) * (m.kappa +
        m.mu) + 2 * m.kappa * sin (π * y))),
      (-1 + y) * y * ((-1 + 2 * z) * (m.kappa + m.mu) * sin (π * x) - (-1 + 2 * x) * (m.kappa - m.mu) * sin (π * z)
        - 2 * m.kappa * sin (π * x) * sin (π * z))],
    ![-((-1 + z) * z * (-((-1 + 2 * x) * (m.kappa + m.mu) * sin (π * y)) + sin (π * x) * ((-1 + 2 * y) * (m.kappa -
        m.mu) + 2 * m.kappa * sin (π * y)))),
      2 * π * (-1 + x) * x * (-1 + z) * z * m.mu * cos (π * y) + π * m.lambda * ((-1 + y) * y * (-1 + z) * z * cos
        (π * x) + (-1 + x) * x * (-1 + z) * z * cos (π * y) + (-1 + x) * x * (-1 + y) * y * cos (π * z)),
      (-1 + x) * x * (-((-1 + 2 * y) * (m.kappa - m.mu) * sin (π * z)) + sin (π * y) * ((-1 + 2 * z) * (m.kappa +
        m.mu) + 2 * m.kappa * sin (π * z)))],
    ![(-1 + y) * y * ((-1 + 2 * x) * (m.kappa + m.mu) * sin (π * z) + sin (π * x) * (m.kappa - 2 * z * m.kappa -
        m.mu + 2 * z * m.mu + 2 * m.kappa * sin (π * z))),
      -((-1 + x) * x * (-((-1 + 2 * y) * (m.kappa + m.mu) * sin (π * z)) + sin (π * y) * ((-1 + 2 * z) * (m.kappa -
        m.mu) + 2 * m.kappa * sin (π * z)))),
      2 * π * (-1 + x) * x * (-1 + y) * y * m.mu * cos (π * z) + π * m.lambda * ((-1 + y) * y * (-1 + z) * z * cos
        (π * x) + (-1 + x) * x * (-1 + z) * z * cos (π * y) + (-1 + x) * x * (-1 + y) * y * cos (π * z))]]

/-- lines 531-544 `couple_stress_scaled`, dimension two -/
noncomputable def coupleStressScaled2 (m : Material) (x y z : ℝ) : Fin 1 → Fin 2 → ℝ :=
  fun i j => gammaEval2 x y z *
    ![![π * (m.muO + m.kappaO) * cos (π * x) * sin (π * y),
        π * (m.muO + m.kappaO) * cos (π * y) * sin (π * x)]] i j

/-- lines 546-615 `couple_stress_scaled`, any other dimension -/
noncomputable def coupleStressScaled3 (m : Material) (x y z : ℝ) : Fin 3 → Fin 3 → ℝ :=
  fun i j => gammaEval3 x y z *
    ![![-((-1 + 2 * x) * (m.lambdaO + 2 * m.muO) * sin (π * y) * sin (π * z)) + m.lambdaO * sin (π * x) * ((1 - 2 *
          z) * sin (π * y) + (1 - 2 * y) * sin (π * z)),
        π * ((-1 + y) * y * (m.kappaO - m.muO) * cos (π * x) - (-1 + x) * x * (m.kappaO + m.muO) * cos (π * y)) *
          sin (π * z),
        π * ((-1 + z) * z * (m.kappaO - m.muO) * cos (π * x) - (-1 + x) * x * (m.kappaO + m.muO) * cos (π * z)) *
          sin (π * y)],
      ![π * (-((-1 + y) * y * (m.kappaO + m.muO) * cos (π * x)) + (-1 + x) * x * (m.kappaO - m.muO) * cos (π * y))
          * sin (π * z),
        (1 - 2 * x) * m.lambdaO * sin (π * y) * sin (π * z) + sin (π * x) * ((m.lambdaO - 2 * z * m.lambdaO) * sin
          (π * y) - (-1 + 2 * y) * (m.lambdaO + 2 * m.muO) * sin (π * z)),
        π * ((-1 + z) * z * (m.kappaO - m.muO) * cos (π * y) - (-1 + y) * y * (m.kappaO + m.muO) * cos (π * z)) *
          sin (π * x)],
      ![π * (-((-1 + z) * z * (m.kappaO + m.muO) * cos (π * x)) + (-1 + x) * x * (m.kappaO - m.muO) * cos (π * z))
          * sin (π * y),
        π * (-((-1 + z) * z * (m.kappaO + m.muO) * cos (π * y)) + (-1 + y) * y * (m.kappaO - m.muO) * cos (π * z))
          * sin (π * x),
        (1 - 2 * x) * m.lambdaO * sin (π * y) * sin (π * z) + sin (π * x) * (-((-1 + 2 * z) * (m.lambdaO + 2 *
          m.muO) * sin (π * y)) + (1 - 2 * y) * m.lambdaO * sin (π * z))]] i j

/-- lines 629-685 `rhs_scaled`, dimension two -/
noncomputable def rhsScaled2 (m : Material) (x y z : ℝ) : Fin 3 → ℝ :=
  ![π * (-1 + 2 * x) * (m.kappa - m.mu) * cos (π * y) - 2 * (m.kappa + m.mu + π * m.kappa * cos (π * y)) * sin (π *
      x) + π * ((m.lambda - 2 * x * m.lambda) * cos (π * y) + π * (-1 + y) * y * (m.lambda + 2 * m.mu) * sin (π *
      x)),
    -2 * (m.kappa + m.mu) * sin (π * y) + π * cos (π * x) * ((-1 + 2 * y) * (m.kappa - m.mu) + 2 * m.kappa * sin (π
      * y)) + π * ((m.lambda - 2 * y * m.lambda) * cos (π * x) + π * (-1 + x) * x * (m.lambda + 2 * m.mu) * sin (π
      * y)),
    -2 * m.kappa * ((1 - 2 * x) * sin (π * y) + sin (π * x) * (-1 + 2 * y + 2 * sin (π * y))) - 2 * π ^ 2 *
      (m.kappaO + m.muO) * sin (π * x) * sin (π * y) * (gammaEval2 x y z) ^ 2 + 2 * π * (m.kappaO + m.muO) *
      gammaEval2 x y z * (cos (π * y) * sin (π * x) * gradGammaEval2 x y z 1 + cos (π * x) * sin (π * y) *
      gradGammaEval2 x y z 0)]

/-- lines 687-1047 `rhs_scaled`, any other dimension -/
noncomputable def rhsScaled3 (m : Material) (x y z : ℝ) : Fin 6 → ℝ :=
  ![-2 * π ^ 2 * (-1 + y) * y * (-1 + z) * z * m.mu * sin (π * x) + (-1 + z) * z * (-(π * (-1 + 2 * x) * (m.kappa -
      m.mu) * cos (π * y)) + 2 * (m.kappa + m.mu + π * m.kappa * cos (π * y)) * sin (π * x)) + π * m.lambda * ((-1
      + 2 * x) * (-1 + z) * z * cos (π * y) + (-1 + y) * y * ((-1 + 2 * x) * cos (π * z) - π * (-1 + z) * z * sin
      (π * x))) + (-1 + y) * y * (2 * (m.kappa + m.mu) * sin (π * x) - π * cos (π * z) * ((-1 + 2 * x) * (m.kappa -
      m.mu) + 2 * m.kappa * sin (π * x))),
    -2 * π ^ 2 * (-1 + x) * x * (-1 + z) * z * m.mu * sin (π * y) + (-1 + x) * x * (-(π * (-1 + 2 * y) * (m.kappa -
      m.mu) * cos (π * z)) + 2 * (m.kappa + m.mu + π * m.kappa * cos (π * z)) * sin (π * y)) + π * m.lambda * ((-1
      + 2 * y) * (-1 + z) * z * cos (π * x) + (-1 + x) * x * ((-1 + 2 * y) * cos (π * z) - π * (-1 + z) * z * sin
      (π * y))) - (-1 + z) * z * (-2 * (m.kappa + m.mu) * sin (π * y) + π * cos (π * x) * ((-1 + 2 * y) * (m.kappa
      - m.mu) + 2 * m.kappa * sin (π * y))),
    -2 * π ^ 2 * (-1 + x) * x * (-1 + y) * y * m.mu * sin (π * z) + π * m.lambda * ((-1 + y) * y * (-1 + 2 * z) *
      cos (π * x) + (-1 + x) * x * ((-1 + 2 * z) * cos (π * y) - π * (-1 + y) * y * sin (π * z))) - (-1 + x) * x *
      (-2 * (m.kappa + m.mu) * sin (π * z) + π * cos (π * y) * ((-1 + 2 * z) * (m.kappa - m.mu) + 2 * m.kappa * sin
      (π * z))) + (-1 + y) * y * (2 * (m.kappa + m.mu) * sin (π * z) + π * cos (π * x) * (m.kappa - 2 * z * m.kappa
      - m.mu + 2 * z * m.mu + 2 * m.kappa * sin (π * z))),
    2 * x * m.kappa * sin (π * y) - 2 * x ^ 2 * m.kappa * sin (π * y) - 4 * x * z * m.kappa * sin (π * y) + 4 * x ^
      2 * z * m.kappa * sin (π * y) - 2 * x * m.kappa * sin (π * z) + 2 * x ^ 2 * m.kappa * sin (π * z) + 4 * x * y
      * m.kappa * sin (π * z) - 4 * x ^ 2 * y * m.kappa * sin (π * z) - 4 * x * m.kappa * sin (π * y) * sin (π * z)
      + 4 * x ^ 2 * m.kappa * sin (π * y) * sin (π * z) + gammaEval3 x y z * (π * ((-1 + 2 * y) * (m.kappaO -
      m.muO) * cos (π * x) + π * (-1 + x) * x * (m.kappaO + m.muO) * sin (π * y)) * sin (π * z) * gammaEval3 x y z
      + π * sin (π * y) * ((-1 + 2 * z) * (m.kappaO - m.muO) * cos (π * x) + π * (-1 + x) * x * (m.kappaO + m.muO)
      * sin (π * z)) * gammaEval3 x y z - (2 * (m.lambdaO + 2 * m.muO) * sin (π * y) * sin (π * z) + π * m.lambdaO
      * cos (π * x) * ((-1 + 2 * z) * sin (π * y) + (-1 + 2 * y) * sin (π * z))) * gammaEval3 x y z + 2 * π * ((-1
      + z) * z * (m.kappaO - m.muO) * cos (π * x) - (-1 + x) * x * (m.kappaO + m.muO) * cos (π * z)) * sin (π * y)
      * gradGammaEval3 x y z 2 + 2 * π * ((-1 + y) * y * (m.kappaO - m.muO) * cos (π * x) - (-1 + x) * x *
      (m.kappaO + m.muO) * cos (π * y)) * sin (π * z) * gradGammaEval3 x y z 1 - 2 * ((-1 + 2 * x) * (m.lambdaO + 2
      * m.muO) * sin (π * y) * sin (π * z) + m.lambdaO * sin (π * x) * ((-1 + 2 * z) * sin (π * y) + (-1 + 2 * y) *
      sin (π * z))) * gradGammaEval3 x y z 0),
    -2 * y * m.kappa * sin (π * x) + 2 * y ^ 2 * m.kappa * sin (π * x) + 4 * y * z * m.kappa * sin (π * x) - 4 * y
      ^ 2 * z * m.kappa * sin (π * x) + 2 * y * m.kappa * sin (π * z) - 4 * x * y * m.kappa * sin (π * z) - 2 * y ^
      2 * m.kappa * sin (π * z) + 4 * x * y ^ 2 * m.kappa * sin (π * z) - 4 * y * m.kappa * sin (π * x) * sin (π *
      z) + 4 * y ^ 2 * m.kappa * sin (π * x) * sin (π * z) + gammaEval3 x y z * (π * ((-1 + 2 * x) * (m.kappaO -
      m.muO) * cos (π * y) + π * (-1 + y) * y * (m.kappaO + m.muO) * sin (π * x)) * sin (π * z) * gammaEval3 x y z
      + π * sin (π * x) * ((-1 + 2 * z) * (m.kappaO - m.muO) * cos (π * y) + π * (-1 + y) * y * (m.kappaO + m.muO)
      * sin (π * z)) * gammaEval3 x y z - (2 * (m.lambdaO + 2 * m.muO) * sin (π * x) * sin (π * z) + π * m.lambdaO
      * cos (π * y) * ((-1 + 2 * z) * sin (π * x) + (-1 + 2 * x) * sin (π * z))) * gammaEval3 x y z + 2 * π * ((-1
      + z) * z * (m.kappaO - m.muO) * cos (π * y) - (-1 + y) * y * (m.kappaO + m.muO) * cos (π * z)) * sin (π * x)
      * gradGammaEval3 x y z 2 - 2 * ((-1 + 2 * x) * m.lambdaO * sin (π * y) * sin (π * z) + sin (π * x) * ((-1 + 2
      * z) * m.lambdaO * sin (π * y) + (-1 + 2 * y) * (m.lambdaO + 2 * m.muO) * sin (π * z))) * gradGammaEval3 x y
      z 1 + 2 * π * (-((-1 + y) * y * (m.kappaO + m.muO) * cos (π * x)) + (-1 + x) * x * (m.kappaO - m.muO) * cos
      (π * y)) * sin (π * z) * gradGammaEval3 x y z 0),
    2 * z * m.kappa * sin (π * x) - 4 * y * z * m.kappa * sin (π * x) - 2 * z ^ 2 * m.kappa * sin (π * x) + 4 * y *
      z ^ 2 * m.kappa * sin (π * x) - 2 * z * m.kappa * sin (π * y) + 4 * x * z * m.kappa * sin (π * y) + 2 * z ^ 2
      * m.kappa * sin (π * y) - 4 * x * z ^ 2 * m.kappa * sin (π * y) - 4 * z * m.kappa * sin (π * x) * sin (π * y)
      + 4 * z ^ 2 * m.kappa * sin (π * x) * sin (π * y) + gammaEval3 x y z * (π * ((-1 + 2 * x) * (m.kappaO -
      m.muO) * cos (π * z) + π * (-1 + z) * z * (m.kappaO + m.muO) * sin (π * x)) * sin (π * y) * gammaEval3 x y z
      + π * sin (π * x) * ((-1 + 2 * y) * (m.kappaO - m.muO) * cos (π * z) + π * (-1 + z) * z * (m.kappaO + m.muO)
      * sin (π * y)) * gammaEval3 x y z - (2 * (m.lambdaO + 2 * m.muO) * sin (π * x) * sin (π * y) + π * m.lambdaO
      * cos (π * z) * ((-1 + 2 * y) * sin (π * x) + (-1 + 2 * x) * sin (π * y))) * gammaEval3 x y z - 2 * ((-1 + 2
      * x) * m.lambdaO * sin (π * y) * sin (π * z) + sin (π * x) * ((-1 + 2 * z) * (m.lambdaO + 2 * m.muO) * sin (π
      * y) + (-1 + 2 * y) * m.lambdaO * sin (π * z))) * gradGammaEval3 x y z 2 + 2 * π * (-((-1 + z) * z *
      (m.kappaO + m.muO) * cos (π * y)) + (-1 + y) * y * (m.kappaO - m.muO) * cos (π * z)) * sin (π * x) *
      gradGammaEval3 x y z 1 + 2 * π * (-((-1 + z) * z * (m.kappaO + m.muO) * cos (π * x)) + (-1 + x) * x *
      (m.kappaO - m.muO) * cos (π * z)) * sin (π * y) * gradGammaEval3 x y z 0)]

/-- lines 1055-1087 `stress_divergence`, dimension two -/
noncomputable def stressDivergence2 (m : Material) (x y _z : ℝ) : Fin 2 → ℝ :=
  ![π * (-1 + 2 * x) * (m.kappa - m.mu) * cos (π * y) - 2 * (m.kappa + m.mu + π * m.kappa * cos (π * y)) * sin (π *
      x) + π * ((m.lambda - 2 * x * m.lambda) * cos (π * y) + π * (-1 + y) * y * (m.lambda + 2 * m.mu) * sin (π *
      x)),
    -2 * (m.kappa + m.mu) * sin (π * y) + π * cos (π * x) * ((-1 + 2 * y) * (m.kappa - m.mu) + 2 * m.kappa * sin (π
      * y)) + π * ((m.lambda - 2 * y * m.lambda) * cos (π * x) + π * (-1 + x) * x * (m.lambda + 2 * m.mu) * sin (π
      * y))]

/-- lines 1089-1212 `stress_divergence`, any other dimension -/
noncomputable def stressDivergence3 (m : Material) (x y z : ℝ) : Fin 3 → ℝ :=
  ![-2 * π ^ 2 * (-1 + y) * y * (-1 + z) * z * m.mu * sin (π * x) + (-1 + z) * z * (-(π * (-1 + 2 * x) * (m.kappa -
      m.mu) * cos (π * y)) + 2 * (m.kappa + m.mu + π * m.kappa * cos (π * y)) * sin (π * x)) + π * m.lambda * ((-1
      + 2 * x) * (-1 + z) * z * cos (π * y) + (-1 + y) * y * ((-1 + 2 * x) * cos (π * z) - π * (-1 + z) * z * sin
      (π * x))) + (-1 + y) * y * (2 * (m.kappa + m.mu) * sin (π * x) - π * cos (π * z) * ((-1 + 2 * x) * (m.kappa -
      m.mu) + 2 * m.kappa * sin (π * x))),
    -2 * π ^ 2 * (-1 + x) * x * (-1 + z) * z * m.mu * sin (π * y) + (-1 + x) * x * (-(π * (-1 + 2 * y) * (m.kappa -
      m.mu) * cos (π * z)) + 2 * (m.kappa + m.mu + π * m.kappa * cos (π * z)) * sin (π * y)) + π * m.lambda * ((-1
      + 2 * y) * (-1 + z) * z * cos (π * x) + (-1 + x) * x * ((-1 + 2 * y) * cos (π * z) - π * (-1 + z) * z * sin
      (π * y))) - (-1 + z) * z * (-2 * (m.kappa + m.mu) * sin (π * y) + π * cos (π * x) * ((-1 + 2 * y) * (m.kappa
      - m.mu) + 2 * m.kappa * sin (π * y))),
    -2 * π ^ 2 * (-1 + x) * x * (-1 + y) * y * m.mu * sin (π * z) + π * m.lambda * ((-1 + y) * y * (-1 + 2 * z) *
      cos (π * x) + (-1 + x) * x * ((-1 + 2 * z) * cos (π * y) - π * (-1 + y) * y * sin (π * z))) - (-1 + x) * x *
      (-2 * (m.kappa + m.mu) * sin (π * z) + π * cos (π * y) * ((-1 + 2 * z) * (m.kappa - m.mu) + 2 * m.kappa * sin
      (π * z))) + (-1 + y) * y * (2 * (m.kappa + m.mu) * sin (π * z) + π * cos (π * x) * (m.kappa - 2 * z * m.kappa
      - m.mu + 2 * z * m.mu + 2 * m.kappa * sin (π * z)))]

/-- lines 1220-1241 `couple_stress_divergence_scaled`, dimension two -/
noncomputable def coupleStressDivergenceScaled2 (m : Material) (x y z : ℝ) : Fin 1 → ℝ :=
  ![2 * π * (m.muO + m.kappaO) * gammaEval2 x y z * (-(π * sin (π * x) * sin (π * y) * gammaEval2 x y z) + cos (π *
      y) * sin (π * x) * gradGammaEval2 x y z 1 + cos (π * x) * sin (π * y) * gradGammaEval2 x y z 0)]

/-- lines 1243-1453 `couple_stress_divergence_scaled`, any other dimension -/
noncomputable def coupleStressDivergenceScaled3 (m : Material) (x y z : ℝ) : Fin 3 → ℝ :=
  ![gammaEval3 x y z * (π * ((-1 + 2 * y) * (m.kappaO - m.muO) * cos (π * x) + π * (-1 + x) * x * (m.kappaO +
      m.muO) * sin (π * y)) * sin (π * z) * gammaEval3 x y z + π * sin (π * y) * ((-1 + 2 * z) * (m.kappaO - m.muO)
      * cos (π * x) + π * (-1 + x) * x * (m.kappaO + m.muO) * sin (π * z)) * gammaEval3 x y z - (2 * (m.lambdaO + 2
      * m.muO) * sin (π * y) * sin (π * z) + π * m.lambdaO * cos (π * x) * ((-1 + 2 * z) * sin (π * y) + (-1 + 2 *
      y) * sin (π * z))) * gammaEval3 x y z + 2 * π * ((-1 + z) * z * (m.kappaO - m.muO) * cos (π * x) - (-1 + x) *
      x * (m.kappaO + m.muO) * cos (π * z)) * sin (π * y) * gradGammaEval3 x y z 2 + 2 * π * ((-1 + y) * y *
      (m.kappaO - m.muO) * cos (π * x) - (-1 + x) * x * (m.kappaO + m.muO) * cos (π * y)) * sin (π * z) *
      gradGammaEval3 x y z 1 - 2 * ((-1 + 2 * x) * (m.lambdaO + 2 * m.muO) * sin (π * y) * sin (π * z) + m.lambdaO
      * sin (π * x) * ((-1 + 2 * z) * sin (π * y) + (-1 + 2 * y) * sin (π * z))) * gradGammaEval3 x y z 0),
    gammaEval3 x y z * (π * ((-1 + 2 * x) * (m.kappaO - m.muO) * cos (π * y) + π * (-1 + y) * y * (m.kappaO +
      m.muO) * sin (π * x)) * sin (π * z) * gammaEval3 x y z + π * sin (π * x) * ((-1 + 2 * z) * (m.kappaO - m.muO)
      * cos (π * y) + π * (-1 + y) * y * (m.kappaO + m.muO) * sin (π * z)) * gammaEval3 x y z - (2 * (m.lambdaO + 2
      * m.muO) * sin (π * x) * sin (π * z) + π * m.lambdaO * cos (π * y) * ((-1 + 2 * z) * sin (π * x) + (-1 + 2 *
      x) * sin (π * z))) * gammaEval3 x y z + 2 * π * ((-1 + z) * z * (m.kappaO - m.muO) * cos (π * y) - (-1 + y) *
      y * (m.kappaO + m.muO) * cos (π * z)) * sin (π * x) * gradGammaEval3 x y z 2 - 2 * ((-1 + 2 * x) * m.lambdaO
      * sin (π * y) * sin (π * z) + sin (π * x) * ((-1 + 2 * z) * m.lambdaO * sin (π * y) + (-1 + 2 * y) *
      (m.lambdaO + 2 * m.muO) * sin (π * z))) * gradGammaEval3 x y z 1 + 2 * π * (-((-1 + y) * y * (m.kappaO +
      m.muO) * cos (π * x)) + (-1 + x) * x * (m.kappaO - m.muO) * cos (π * y)) * sin (π * z) * gradGammaEval3 x y z
      0),
    gammaEval3 x y z * (π * ((-1 + 2 * x) * (m.kappaO - m.muO) * cos (π * z) + π * (-1 + z) * z * (m.kappaO +
      m.muO) * sin (π * x)) * sin (π * y) * gammaEval3 x y z + π * sin (π * x) * ((-1 + 2 * y) * (m.kappaO - m.muO)
      * cos (π * z) + π * (-1 + z) * z * (m.kappaO + m.muO) * sin (π * y)) * gammaEval3 x y z - (2 * (m.lambdaO + 2
      * m.muO) * sin (π * x) * sin (π * y) + π * m.lambdaO * cos (π * z) * ((-1 + 2 * y) * sin (π * x) + (-1 + 2 *
      x) * sin (π * y))) * gammaEval3 x y z - 2 * ((-1 + 2 * x) * m.lambdaO * sin (π * y) * sin (π * z) + sin (π *
      x) * ((-1 + 2 * z) * (m.lambdaO + 2 * m.muO) * sin (π * y) + (-1 + 2 * y) * m.lambdaO * sin (π * z))) *
      gradGammaEval3 x y z 2 + 2 * π * (-((-1 + z) * z * (m.kappaO + m.muO) * cos (π * y)) + (-1 + y) * y *
      (m.kappaO - m.muO) * cos (π * z)) * sin (π * x) * gradGammaEval3 x y z 1 + 2 * π * (-((-1 + z) * z *
      (m.kappaO + m.muO) * cos (π * x)) + (-1 + x) * x * (m.kappaO - m.muO) * cos (π * z)) * sin (π * y) *
      gradGammaEval3 x y z 0)]

/-- lines 1456-1495 `get_material_functions`, dimension two -/
noncomputable def Material.coeffs2 (m : Material) (x y z : ℝ) : Dual.Coeffs ℝ :=
  ⟨m.lambda, m.mu, m.kappa, m.lambdaO, m.muO, m.kappaO, gammaEval2 x y z,
    fun k => if h : k < 2 then gradGammaEval2 x y z ⟨k, h⟩ else 0⟩

/-- lines 1456-1495 `get_material_functions`, any other dimension -/
noncomputable def Material.coeffs3 (m : Material) (x y z : ℝ) : Dual.Coeffs ℝ :=
  ⟨m.lambda, m.mu, m.kappa, m.lambdaO, m.muO, m.kappaO, gammaEval3 x y z,
    fun k => if h : k < 3 then gradGammaEval3 x y z ⟨k, h⟩ else 0⟩

end Verif.Strong.Cosserat3
