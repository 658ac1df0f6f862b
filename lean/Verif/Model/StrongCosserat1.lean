/-
Model of examples/cosserat_elasticity/strong_solution_cosserat_elasticity_example_1.py: the exact solution and the
data that belong to it, for the mixed and the primal form of linear Cosserat elasticity.

* Over the real numbers, at one point.
* The dictionary of material constants is a structure.
* Of `get_material_functions` the values at one point; a dimension other than 2 and 3 raises and is left out.
-/
import Mathlib.Analysis.SpecialFunctions.Trigonometric.Basic
import Mathlib.Data.Fin.VecNotation
import Verif.Model.Dual

namespace Verif.Strong.Cosserat1
open Real

/-- `material_data` -/
structure Material where
  lambda : ℝ
  mu : ℝ
  kappa : ℝ
  lambdaO : ℝ
  muO : ℝ
  kappaO : ℝ
  l : ℝ

/-- lines 6-8 `displacement`, dimension two -/
noncomputable def displacement2 (x y _z : ℝ) : Fin 2 → ℝ :=
  ![(1 - y) * y * sin (π * x),
    (1 - x) * x * sin (π * y)]

/-- lines 10-16 `displacement`, any other dimension -/
noncomputable def displacement3 (x y z : ℝ) : Fin 3 → ℝ :=
  ![(1 - y) * y * (1 - z) * z * sin (π * x),
    (1 - x) * x * (1 - z) * z * sin (π * y),
    (1 - x) * x * (1 - y) * y * sin (π * z)]

/-- lines 21-32 `displacement_gradient`, dimension two -/
noncomputable def displacementGradient2 (x y _z : ℝ) : Fin 2 → Fin 2 → ℝ :=
  ![![π * (1 - y) * y * cos (π * x),
      (1 - y) * sin (π * x) - y * sin (π * x)],
    ![(1 - x) * sin (π * y) - x * sin (π * y),
      π * (1 - x) * x * cos (π * y)]]

/-- lines 34-58 `displacement_gradient`, any other dimension -/
noncomputable def displacementGradient3 (x y z : ℝ) : Fin 3 → Fin 3 → ℝ :=
  ![![π * (1 - y) * y * (1 - z) * z * cos (π * x),
      (1 - y) * (1 - z) * z * sin (π * x) - y * (1 - z) * z * sin (π * x),
      (1 - y) * y * (1 - z) * sin (π * x) - (1 - y) * y * z * sin (π * x)],
    ![(1 - x) * (1 - z) * z * sin (π * y) - x * (1 - z) * z * sin (π * y),
      π * (1 - x) * x * (1 - z) * z * cos (π * y),
      (1 - x) * x * (1 - z) * sin (π * y) - (1 - x) * x * z * sin (π * y)],
    ![(1 - x) * (1 - y) * y * sin (π * z) - x * (1 - y) * y * sin (π * z),
      (1 - x) * x * (1 - y) * sin (π * z) - (1 - x) * x * y * sin (π * z),
      π * (1 - x) * x * (1 - y) * y * cos (π * z)]]

/-- lines 63-67 `rotation`, dimension two -/
noncomputable def rotation2 (x y _z : ℝ) : Fin 1 → ℝ :=
  ![sin (π * x) * sin (π * y)]

/-- lines 69-75 `rotation`, any other dimension -/
noncomputable def rotation3 (x y z : ℝ) : Fin 3 → ℝ :=
  ![(1 - x) * x * sin (π * y) * sin (π * z),
    (1 - y) * y * sin (π * x) * sin (π * z),
    (1 - z) * z * sin (π * x) * sin (π * y)]

/-- lines 80-85 `rotation_gradient`, dimension two -/
noncomputable def rotationGradient2 (x y _z : ℝ) : Fin 2 → ℝ :=
  ![π * cos (π * x) * sin (π * y),
    π * cos (π * y) * sin (π * x)]

/-- lines 87-108 `rotation_gradient`, any other dimension -/
noncomputable def rotationGradient3 (x y z : ℝ) : Fin 3 → Fin 3 → ℝ :=
  ![![(1 - x) * sin (π * y) * sin (π * z) - x * sin (π * y) * sin (π * z),
      π * (1 - x) * x * cos (π * y) * sin (π * z),
      π * (1 - x) * x * cos (π * z) * sin (π * y)],
    ![π * (1 - y) * y * cos (π * x) * sin (π * z),
      (1 - y) * sin (π * x) * sin (π * z) - y * sin (π * x) * sin (π * z),
      π * (1 - y) * y * cos (π * z) * sin (π * x)],
    ![π * (1 - z) * z * cos (π * x) * sin (π * y),
      π * (1 - z) * z * cos (π * y) * sin (π * x),
      (1 - z) * sin (π * x) * sin (π * y) - z * sin (π * x) * sin (π * y)]]

/-- lines 116-145 `stress`, dimension two -/
noncomputable def stress2 (m : Material) (x y _z : ℝ) : Fin 2 → Fin 2 → ℝ :=
  ![![π * (-((-1 + y) * y * (m.lambda + 2 * m.mu) * cos (π * x)) - (-1 + x) * x * m.lambda * cos (π * y)),
      (-1 + 2 * x) * (m.kappa - m.mu) * sin (π * y) + sin (π * x) * (-((-1 + 2 * y) * (m.kappa + m.mu)) - 2 *
        m.kappa * sin (π * y))],
    ![-((-1 + 2 * x) * (m.kappa + m.mu) * sin (π * y)) + sin (π * x) * ((-1 + 2 * y) * (m.kappa - m.mu) + 2 *
        m.kappa * sin (π * y)),
      π * (-((-1 + y) * y * m.lambda * cos (π * x)) - (-1 + x) * x * (m.lambda + 2 * m.mu) * cos (π * y))]]

/-- lines 147-244 `stress`, any other dimension -/
noncomputable def stress3 (m : Material) (x y z : ℝ) : Fin 3 → Fin 3 → ℝ :=
  ![![2 * π * (-1 + y) * y * (-1 + z) * z * m.mu * cos (π * x) + π * m.lambda * ((-1 + y) * y * (-1 + z) * z * cos
        (π * x) + (-1 + x) * x * (-1 + z) * z * cos (π * y) + (-1 + x) * x * (-1 + y) * y * cos (π * z)),
      (-1 + z) * z * (-((-1 + 2 * x) * (m.kappa - m.mu) * sin (π * y)) + sin (π * x) * ((-1 + 2 * y) * (m.kappa +
        m.mu) + 2 * m.kappa * sin (π * y))),
      (-1 + y) * y * ((-1 + 2 * z) * (m.kappa + m.mu) * sin (π * x) - (-1 + 2 * x) * (m.kappa - m.mu) * sin (π * z)
        - 2 * m.kappa * sin (π * x) * sin (π * z))],
    ![-((-1 + z) * z * (-((-1 + 2 * x) * (m.kappa + m.mu) * sin (π * y)) + sin (π * x) * ((-1 + 2 * y) * (m.kappa -
        m.mu) + 2 * m.kappa * sin (π * y)))),
      2 * π * (-1 + x) * x * (-1 + z) * z * m.mu * cos (π * y) + π * m.lambda * ((-1 + y) * y * (-1 + z) * z * cos
        (π * x) + (-1 + x) * x * (-1 + z) * z * cos (π * y) + (-1 + x) * x * (-1 + y) * y * cos (π * z)),
      (-1 + x) * x * (-((-1 + 2 * y) * (m.kappa - m.mu) * sin (π * z)) + sin (π * y) * ((-1 + 2 * z) * (m.kappa +
        m.mu) + 2 * m.kappa * sin (π * z)))],
    ![(-1 + y) * y * ((-1 + 2 * x) * (m.kappa + m.mu) * sin (π * z) + sin (π * x) * (m.kappa - 2 * z * m.kappa -
        m.mu + 2 * z * m.mu + 2 * m.kappa * sin (π * z))),
      -((-1 + x) * x * (-((-1 + 2 * y) * (m.kappa + m.mu) * sin (π * z)) + sin (π * y) * ((-1 + 2 * z) * (m.kappa -
        m.mu) + 2 * m.kappa * sin (π * z)))),
      2 * π * (-1 + x) * x * (-1 + y) * y * m.mu * cos (π * z) + π * m.lambda * ((-1 + y) * y * (-1 + z) * z * cos
        (π * x) + (-1 + x) * x * (-1 + z) * z * cos (π * y) + (-1 + x) * x * (-1 + y) * y * cos (π * z))]]

/-- lines 256-271 `couple_stress`, dimension two -/
noncomputable def coupleStress2 (m : Material) (x y _z : ℝ) : Fin 1 → Fin 2 → ℝ :=
  ![![m.l * π * (m.kappaO + m.muO) * cos (π * x) * sin (π * y),
      m.l * π * (m.kappaO + m.muO) * cos (π * y) * sin (π * x)]]

/-- lines 273-371 `couple_stress`, any other dimension -/
noncomputable def coupleStress3 (m : Material) (x y z : ℝ) : Fin 3 → Fin 3 → ℝ :=
  ![![-(m.l * ((-1 + 2 * x) * (m.lambdaO + 2 * m.muO) * sin (π * y) * sin (π * z) + m.lambdaO * sin (π * x) * ((-1
        + 2 * z) * sin (π * y) + (-1 + 2 * y) * sin (π * z)))),
      m.l * π * ((-1 + y) * y * (m.kappaO - m.muO) * cos (π * x) - (-1 + x) * x * (m.kappaO + m.muO) * cos (π * y))
        * sin (π * z),
      m.l * π * ((-1 + z) * z * (m.kappaO - m.muO) * cos (π * x) - (-1 + x) * x * (m.kappaO + m.muO) * cos (π * z))
        * sin (π * y)],
    ![m.l * π * (-((-1 + y) * y * (m.kappaO + m.muO) * cos (π * x)) + (-1 + x) * x * (m.kappaO - m.muO) * cos (π *
        y)) * sin (π * z),
      -(m.l * ((-1 + 2 * x) * m.lambdaO * sin (π * y) * sin (π * z) + sin (π * x) * ((-1 + 2 * z) * m.lambdaO * sin
        (π * y) + (-1 + 2 * y) * (m.lambdaO + 2 * m.muO) * sin (π * z)))),
      m.l * π * ((-1 + z) * z * (m.kappaO - m.muO) * cos (π * y) - (-1 + y) * y * (m.kappaO + m.muO) * cos (π * z))
        * sin (π * x)],
    ![m.l * π * (-((-1 + z) * z * (m.kappaO + m.muO) * cos (π * x)) + (-1 + x) * x * (m.kappaO - m.muO) * cos (π *
        z)) * sin (π * y),
      m.l * π * (-((-1 + z) * z * (m.kappaO + m.muO) * cos (π * y)) + (-1 + y) * y * (m.kappaO - m.muO) * cos (π *
        z)) * sin (π * x),
      -(m.l * ((-1 + 2 * x) * m.lambdaO * sin (π * y) * sin (π * z) + sin (π * x) * ((-1 + 2 * z) * (m.lambdaO + 2
        * m.muO) * sin (π * y) + (-1 + 2 * y) * m.lambdaO * sin (π * z))))]]

/-- lines 383-398 `couple_stress_scaled`, dimension two -/
noncomputable def coupleStressScaled2 (m : Material) (x y _z : ℝ) : Fin 1 → Fin 2 → ℝ :=
  ![![m.l * π * (m.kappaO + m.muO) * cos (π * x) * sin (π * y),
      m.l * π * (m.kappaO + m.muO) * cos (π * y) * sin (π * x)]]

/-- lines 400-498 `couple_stress_scaled`, any other dimension -/
noncomputable def coupleStressScaled3 (m : Material) (x y z : ℝ) : Fin 3 → Fin 3 → ℝ :=
  ![![-(m.l * ((-1 + 2 * x) * (m.lambdaO + 2 * m.muO) * sin (π * y) * sin (π * z) + m.lambdaO * sin (π * x) * ((-1
        + 2 * z) * sin (π * y) + (-1 + 2 * y) * sin (π * z)))),
      m.l * π * ((-1 + y) * y * (m.kappaO - m.muO) * cos (π * x) - (-1 + x) * x * (m.kappaO + m.muO) * cos (π * y))
        * sin (π * z),
      m.l * π * ((-1 + z) * z * (m.kappaO - m.muO) * cos (π * x) - (-1 + x) * x * (m.kappaO + m.muO) * cos (π * z))
        * sin (π * y)],
    ![m.l * π * (-((-1 + y) * y * (m.kappaO + m.muO) * cos (π * x)) + (-1 + x) * x * (m.kappaO - m.muO) * cos (π *
        y)) * sin (π * z),
      -(m.l * ((-1 + 2 * x) * m.lambdaO * sin (π * y) * sin (π * z) + sin (π * x) * ((-1 + 2 * z) * m.lambdaO * sin
        (π * y) + (-1 + 2 * y) * (m.lambdaO + 2 * m.muO) * sin (π * z)))),
      m.l * π * ((-1 + z) * z * (m.kappaO - m.muO) * cos (π * y) - (-1 + y) * y * (m.kappaO + m.muO) * cos (π * z))
        * sin (π * x)],
    ![m.l * π * (-((-1 + z) * z * (m.kappaO + m.muO) * cos (π * x)) + (-1 + x) * x * (m.kappaO - m.muO) * cos (π *
        z)) * sin (π * y),
      m.l * π * (-((-1 + z) * z * (m.kappaO + m.muO) * cos (π * y)) + (-1 + y) * y * (m.kappaO - m.muO) * cos (π *
        z)) * sin (π * x),
      -(m.l * ((-1 + 2 * x) * m.lambdaO * sin (π * y) * sin (π * z) + sin (π * x) * ((-1 + 2 * z) * (m.lambdaO + 2
        * m.muO) * sin (π * y) + (-1 + 2 * y) * m.lambdaO * sin (π * z))))]]

/-- lines 514-556 `rhs`, dimension two -/
noncomputable def rhs2 (m : Material) (x y _z : ℝ) : Fin 3 → ℝ :=
  ![π * (-1 + 2 * x) * (m.kappa - m.mu) * cos (π * y) - 2 * (m.kappa + m.mu + π * m.kappa * cos (π * y)) * sin (π *
      x) + π * ((m.lambda - 2 * x * m.lambda) * cos (π * y) + π * (-1 + y) * y * (m.lambda + 2 * m.mu) * sin (π *
      x)),
    -2 * (m.kappa + m.mu) * sin (π * y) + π * cos (π * x) * ((-1 + 2 * y) * (m.kappa - m.mu) + 2 * m.kappa * sin (π
      * y)) + π * ((m.lambda - 2 * y * m.lambda) * cos (π * x) + π * (-1 + x) * x * (m.lambda + 2 * m.mu) * sin (π
      * y)),
    -2 * ((1 - 2 * x) * m.kappa * sin (π * y) + sin (π * x) * ((-1 + 2 * y) * m.kappa + (2 * m.kappa + m.l * π ^ 2
      * (m.kappaO + m.muO)) * sin (π * y)))]

/-- lines 558-772 `rhs`, any other dimension -/
noncomputable def rhs3 (m : Material) (x y z : ℝ) : Fin 6 → ℝ :=
  ![-2 * π ^ 2 * (-1 + y) * y * (-1 + z) * z * m.mu * sin (π * x) + (-1 + z) * z * (-(π * (-1 + 2 * x) * (m.kappa -
      m.mu) * cos (π * y)) + 2 * (m.kappa + m.mu + π * m.kappa * cos (π * y)) * sin (π * x)) + π * m.lambda * ((-1
      + 2 * x) * (-1 + z) * z * cos (π * y) + (-1 + y) * y * ((-1 + 2 * x) * cos (π * z) - π * (-1 + z) * z * sin
      (π * x))) + (-1 + y) * y * (2 * (m.kappa + m.mu) * sin (π * x) - π * cos (π * z) * ((-1 + 2 * x) * (m.kappa -
      m.mu) + 2 * m.kappa * sin (π * x))),
    -2 * π ^ 2 * (-1 + x) * x * (-1 + z) * z * m.mu * sin (π * y) + (-1 + x) * x * (-(π * (-1 + 2 * y) * (m.kappa -
      m.mu) * cos (π * z)) + 2 * (m.kappa + m.mu + π * m.kappa * cos (π * z)) * sin (π * y)) + π * m.lambda * ((-1
      + 2 * y) * (-1 + z) * z * cos (π * x) + (-1 + x) * x * ((-1 + 2 * y) * cos (π * z) - π * (-1 + z) * z * sin
      (π * y))) - (-1 + z) * z * (-2 * (m.kappa + m.mu) * sin (π * y) + π * cos (π * x) * ((-1 + 2 * y) * (m.kappa
      - m.mu) + 2 * m.kappa * sin (π * y))),
    -2 * π ^ 2 * (-1 + x) * x * (-1 + y) * y * m.mu * sin (π * z) + π * m.lambda * ((-1 + y) * y * (-1 + 2 * z) *
      cos (π * x) + (-1 + x) * x * ((-1 + 2 * z) * cos (π * y) - π * (-1 + y) * y * sin (π * z))) - (-1 + x) * x *
      (-2 * (m.kappa + m.mu) * sin (π * z) + π * cos (π * y) * ((-1 + 2 * z) * (m.kappa - m.mu) + 2 * m.kappa * sin
      (π * z))) + (-1 + y) * y * (2 * (m.kappa + m.mu) * sin (π * z) + π * cos (π * x) * (m.kappa - 2 * z * m.kappa
      - m.mu + 2 * z * m.mu + 2 * m.kappa * sin (π * z))),
    -((-1 + 2 * y) * (2 * (-1 + x) * x * m.kappa - m.l * π * (m.kappaO - m.lambdaO - m.muO) * cos (π * x)) * sin (π
      * z)) + sin (π * y) * (2 * (-1 + x) * x * (-1 + 2 * z) * m.kappa + m.l * π * (-1 + 2 * z) * (m.kappaO -
      m.lambdaO - m.muO) * cos (π * x) + 2 * (2 * (-1 + x) * x * m.kappa + m.l * (-m.lambdaO - 2 * m.muO + π ^ 2 *
      (-1 + x) * x * (m.kappaO + m.muO))) * sin (π * z)),
    (-1 + 2 * x) * (2 * (-1 + y) * y * m.kappa + m.l * π * (m.kappaO - m.lambdaO - m.muO) * cos (π * y)) * sin (π *
      z) + sin (π * x) * (2 * y * (-1 + y + 2 * z - 2 * y * z) * m.kappa + m.l * π * (-1 + 2 * z) * (m.kappaO -
      m.lambdaO - m.muO) * cos (π * y) + 2 * (2 * (-1 + y) * y * m.kappa + m.l * (-m.lambdaO - 2 * m.muO + π ^ 2 *
      (-1 + y) * y * (m.kappaO + m.muO))) * sin (π * z)),
    -((-1 + 2 * x) * (2 * (-1 + z) * z * m.kappa - m.l * π * (m.kappaO - m.lambdaO - m.muO) * cos (π * z)) * sin (π
      * y)) + sin (π * x) * (2 * (-1 + 2 * y) * (-1 + z) * z * m.kappa + m.l * π * (-1 + 2 * y) * (m.kappaO -
      m.lambdaO - m.muO) * cos (π * z) + 2 * (2 * (-1 + z) * z * m.kappa + m.l * (-m.lambdaO - 2 * m.muO + π ^ 2 *
      (-1 + z) * z * (m.kappaO + m.muO))) * sin (π * y))]

/-- lines 788-833 `rhs_scaled`, dimension two -/
noncomputable def rhsScaled2 (m : Material) (x y _z : ℝ) : Fin 3 → ℝ :=
  ![π * (-1 + 2 * x) * (m.kappa - m.mu) * cos (π * y) - 2 * (m.kappa + m.mu + π * m.kappa * cos (π * y)) * sin (π *
      x) + π * ((m.lambda - 2 * x * m.lambda) * cos (π * y) + π * (-1 + y) * y * (m.lambda + 2 * m.mu) * sin (π *
      x)),
    -2 * (m.kappa + m.mu) * sin (π * y) + π * cos (π * x) * ((-1 + 2 * y) * (m.kappa - m.mu) + 2 * m.kappa * sin (π
      * y)) + π * ((m.lambda - 2 * y * m.lambda) * cos (π * x) + π * (-1 + x) * x * (m.lambda + 2 * m.mu) * sin (π
      * y)),
    -2 * ((1 - 2 * x) * m.kappa * sin (π * y) + sin (π * x) * ((-1 + 2 * y) * m.kappa + (2 * m.kappa + m.l * m.l *
      π ^ 2 * (m.kappaO + m.muO)) * sin (π * y)))]

/-- lines 835-1049 `rhs_scaled`, any other dimension -/
noncomputable def rhsScaled3 (m : Material) (x y z : ℝ) : Fin 6 → ℝ :=
  ![-2 * π ^ 2 * (-1 + y) * y * (-1 + z) * z * m.mu * sin (π * x) + (-1 + z) * z * (-(π * (-1 + 2 * x) * (m.kappa -
      m.mu) * cos (π * y)) + 2 * (m.kappa + m.mu + π * m.kappa * cos (π * y)) * sin (π * x)) + π * m.lambda * ((-1
      + 2 * x) * (-1 + z) * z * cos (π * y) + (-1 + y) * y * ((-1 + 2 * x) * cos (π * z) - π * (-1 + z) * z * sin
      (π * x))) + (-1 + y) * y * (2 * (m.kappa + m.mu) * sin (π * x) - π * cos (π * z) * ((-1 + 2 * x) * (m.kappa -
      m.mu) + 2 * m.kappa * sin (π * x))),
    -2 * π ^ 2 * (-1 + x) * x * (-1 + z) * z * m.mu * sin (π * y) + (-1 + x) * x * (-(π * (-1 + 2 * y) * (m.kappa -
      m.mu) * cos (π * z)) + 2 * (m.kappa + m.mu + π * m.kappa * cos (π * z)) * sin (π * y)) + π * m.lambda * ((-1
      + 2 * y) * (-1 + z) * z * cos (π * x) + (-1 + x) * x * ((-1 + 2 * y) * cos (π * z) - π * (-1 + z) * z * sin
      (π * y))) - (-1 + z) * z * (-2 * (m.kappa + m.mu) * sin (π * y) + π * cos (π * x) * ((-1 + 2 * y) * (m.kappa
      - m.mu) + 2 * m.kappa * sin (π * y))),
    -2 * π ^ 2 * (-1 + x) * x * (-1 + y) * y * m.mu * sin (π * z) + π * m.lambda * ((-1 + y) * y * (-1 + 2 * z) *
      cos (π * x) + (-1 + x) * x * ((-1 + 2 * z) * cos (π * y) - π * (-1 + y) * y * sin (π * z))) - (-1 + x) * x *
      (-2 * (m.kappa + m.mu) * sin (π * z) + π * cos (π * y) * ((-1 + 2 * z) * (m.kappa - m.mu) + 2 * m.kappa * sin
      (π * z))) + (-1 + y) * y * (2 * (m.kappa + m.mu) * sin (π * z) + π * cos (π * x) * (m.kappa - 2 * z * m.kappa
      - m.mu + 2 * z * m.mu + 2 * m.kappa * sin (π * z))),
    -((-1 + 2 * y) * (2 * (-1 + x) * x * m.kappa - m.l ^ 2 * π * (m.kappaO - m.lambdaO - m.muO) * cos (π * x)) *
      sin (π * z)) + sin (π * y) * (2 * (-1 + x) * x * (-1 + 2 * z) * m.kappa + m.l ^ 2 * π * (-1 + 2 * z) *
      (m.kappaO - m.lambdaO - m.muO) * cos (π * x) + 2 * (2 * (-1 + x) * x * m.kappa + m.l ^ 2 * (-m.lambdaO - 2 *
      m.muO + π ^ 2 * (-1 + x) * x * (m.kappaO + m.muO))) * sin (π * z)),
    (-1 + 2 * x) * (2 * (-1 + y) * y * m.kappa + m.l ^ 2 * π * (m.kappaO - m.lambdaO - m.muO) * cos (π * y)) * sin
      (π * z) + sin (π * x) * (2 * y * (-1 + y + 2 * z - 2 * y * z) * m.kappa + m.l ^ 2 * π * (-1 + 2 * z) *
      (m.kappaO - m.lambdaO - m.muO) * cos (π * y) + 2 * (2 * (-1 + y) * y * m.kappa + m.l ^ 2 * (-m.lambdaO - 2 *
      m.muO + π ^ 2 * (-1 + y) * y * (m.kappaO + m.muO))) * sin (π * z)),
    -((-1 + 2 * x) * (2 * (-1 + z) * z * m.kappa - m.l ^ 2 * π * (m.kappaO - m.lambdaO - m.muO) * cos (π * z)) *
      sin (π * y)) + sin (π * x) * (2 * (-1 + 2 * y) * (-1 + z) * z * m.kappa + m.l ^ 2 * π * (-1 + 2 * y) *
      (m.kappaO - m.lambdaO - m.muO) * cos (π * z) + 2 * (2 * (-1 + z) * z * m.kappa + m.l ^ 2 * (-m.lambdaO - 2 *
      m.muO + π ^ 2 * (-1 + z) * z * (m.kappaO + m.muO))) * sin (π * y))]

/-- lines 1057-1089 `stress_divergence`, dimension two -/
noncomputable def stressDivergence2 (m : Material) (x y _z : ℝ) : Fin 2 → ℝ :=
  ![π * (-1 + 2 * x) * (m.kappa - m.mu) * cos (π * y) - 2 * (m.kappa + m.mu + π * m.kappa * cos (π * y)) * sin (π *
      x) + π * ((m.lambda - 2 * x * m.lambda) * cos (π * y) + π * (-1 + y) * y * (m.lambda + 2 * m.mu) * sin (π *
      x)),
    -2 * (m.kappa + m.mu) * sin (π * y) + π * cos (π * x) * ((-1 + 2 * y) * (m.kappa - m.mu) + 2 * m.kappa * sin (π
      * y)) + π * ((m.lambda - 2 * y * m.lambda) * cos (π * x) + π * (-1 + x) * x * (m.lambda + 2 * m.mu) * sin (π
      * y))]

/-- lines 1091-1214 `stress_divergence`, any other dimension -/
noncomputable def stressDivergence3 (m : Material) (x y z : ℝ) : Fin 3 → ℝ :=
  ![-2 * π ^ 2 * (-1 + y) * y * (-1 + z) * z * m.mu * sin (π * x) + (-1 + z) * z * (-(π * (-1 + 2 * x) * (m.kappa -
      m.mu) * cos (π * y)) + 2 * (m.kappa + m.mu + π * m.kappa * cos (π * y)) * sin (π * x)) + π * m.lambda * ((-1
      + 2 * x) * (-1 + z) * z * cos (π * y) + (-1 + y) * y * ((-1 + 2 * x) * cos (π * z) - π * (-1 + z) * z * sin
      (π * x))) + (-1 + y) * y * (2 * (m.kappa + m.mu) * sin (π * x) - π * cos (π * z) * ((-1 + 2 * x) * (m.kappa -
      m.mu) + 2 * m.kappa * sin (π * x))),
    -2 * π ^ 2 * (-1 + x) * x * (-1 + z) * z * m.mu * sin (π * y) + (-1 + x) * x * (-(π * (-1 + 2 * y) * (m.kappa -
      m.mu) * cos (π * z)) + 2 * (m.kappa + m.mu + π * m.kappa * cos (π * z)) * sin (π * y)) + π * m.lambda * ((-1
      + 2 * y) * (-1 + z) * z * cos (π * x) + (-1 + x) * x * ((-1 + 2 * y) * cos (π * z) - π * (-1 + z) * z * sin
      (π * y))) - (-1 + z) * z * (-2 * (m.kappa + m.mu) * sin (π * y) + π * cos (π * x) * ((-1 + 2 * y) * (m.kappa
      - m.mu) + 2 * m.kappa * sin (π * y))),
    -2 * π ^ 2 * (-1 + x) * x * (-1 + y) * y * m.mu * sin (π * z) + π * m.lambda * ((-1 + y) * y * (-1 + 2 * z) *
      cos (π * x) + (-1 + x) * x * ((-1 + 2 * z) * cos (π * y) - π * (-1 + y) * y * sin (π * z))) - (-1 + x) * x *
      (-2 * (m.kappa + m.mu) * sin (π * z) + π * cos (π * y) * ((-1 + 2 * z) * (m.kappa - m.mu) + 2 * m.kappa * sin
      (π * z))) + (-1 + y) * y * (2 * (m.kappa + m.mu) * sin (π * z) + π * cos (π * x) * (m.kappa - 2 * z * m.kappa
      - m.mu + 2 * z * m.mu + 2 * m.kappa * sin (π * z)))]

/-- lines 1225-1234 `couple_stress_divergence`, dimension two -/
noncomputable def coupleStressDivergence2 (m : Material) (x y _z : ℝ) : Fin 1 → ℝ :=
  ![-2 * m.l * π ^ 2 * (m.kappaO + m.muO) * sin (π * x) * sin (π * y)]

/-- lines 1236-1347 `couple_stress_divergence`, any other dimension -/
noncomputable def coupleStressDivergence3 (m : Material) (x y z : ℝ) : Fin 3 → ℝ :=
  ![m.l * (-(π * (-1 + 2 * z) * m.lambdaO * cos (π * x) * sin (π * y)) + π * (-1 + 2 * z) * (m.kappaO - m.muO) *
      cos (π * x) * sin (π * y) - π * (-1 + 2 * y) * m.lambdaO * cos (π * x) * sin (π * z) + π * (-1 + 2 * y) *
      (m.kappaO - m.muO) * cos (π * x) * sin (π * z) + 2 * π ^ 2 * (-1 + x) * x * (m.kappaO + m.muO) * sin (π * y)
      * sin (π * z) - 2 * (m.lambdaO + 2 * m.muO) * sin (π * y) * sin (π * z)),
    m.l * (-(π * (-1 + 2 * z) * m.lambdaO * cos (π * y) * sin (π * x)) + π * (-1 + 2 * z) * (m.kappaO - m.muO) *
      cos (π * y) * sin (π * x) - π * (-1 + 2 * x) * m.lambdaO * cos (π * y) * sin (π * z) + π * (-1 + 2 * x) *
      (m.kappaO - m.muO) * cos (π * y) * sin (π * z) + 2 * π ^ 2 * (-1 + y) * y * (m.kappaO + m.muO) * sin (π * x)
      * sin (π * z) - 2 * (m.lambdaO + 2 * m.muO) * sin (π * x) * sin (π * z)),
    m.l * (-(π * (-1 + 2 * y) * m.lambdaO * cos (π * z) * sin (π * x)) + π * (-1 + 2 * y) * (m.kappaO - m.muO) *
      cos (π * z) * sin (π * x) - π * (-1 + 2 * x) * m.lambdaO * cos (π * z) * sin (π * y) + π * (-1 + 2 * x) *
      (m.kappaO - m.muO) * cos (π * z) * sin (π * y) + 2 * π ^ 2 * (-1 + z) * z * (m.kappaO + m.muO) * sin (π * x)
      * sin (π * y) - 2 * (m.lambdaO + 2 * m.muO) * sin (π * x) * sin (π * y))]

/-- lines 1358-1368 `couple_stress_divergence_scaled`, dimension two -/
noncomputable def coupleStressDivergenceScaled2 (m : Material) (x y _z : ℝ) : Fin 1 → ℝ :=
  ![-2 * m.l * m.l * π ^ 2 * (m.kappaO + m.muO) * sin (π * x) * sin (π * y)]

/-- lines 1370-1481 `couple_stress_divergence_scaled`, any other dimension -/
noncomputable def coupleStressDivergenceScaled3 (m : Material) (x y z : ℝ) : Fin 3 → ℝ :=
  ![m.l ^ 2 * (-(π * (-1 + 2 * z) * m.lambdaO * cos (π * x) * sin (π * y)) + π * (-1 + 2 * z) * (m.kappaO - m.muO)
      * cos (π * x) * sin (π * y) - π * (-1 + 2 * y) * m.lambdaO * cos (π * x) * sin (π * z) + π * (-1 + 2 * y) *
      (m.kappaO - m.muO) * cos (π * x) * sin (π * z) + 2 * π ^ 2 * (-1 + x) * x * (m.kappaO + m.muO) * sin (π * y)
      * sin (π * z) - 2 * (m.lambdaO + 2 * m.muO) * sin (π * y) * sin (π * z)),
    m.l ^ 2 * (-(π * (-1 + 2 * z) * m.lambdaO * cos (π * y) * sin (π * x)) + π * (-1 + 2 * z) * (m.kappaO - m.muO)
      * cos (π * y) * sin (π * x) - π * (-1 + 2 * x) * m.lambdaO * cos (π * y) * sin (π * z) + π * (-1 + 2 * x) *
      (m.kappaO - m.muO) * cos (π * y) * sin (π * z) + 2 * π ^ 2 * (-1 + y) * y * (m.kappaO + m.muO) * sin (π * x)
      * sin (π * z) - 2 * (m.lambdaO + 2 * m.muO) * sin (π * x) * sin (π * z)),
    m.l ^ 2 * (-(π * (-1 + 2 * y) * m.lambdaO * cos (π * z) * sin (π * x)) + π * (-1 + 2 * y) * (m.kappaO - m.muO)
      * cos (π * z) * sin (π * x) - π * (-1 + 2 * x) * m.lambdaO * cos (π * z) * sin (π * y) + π * (-1 + 2 * x) *
      (m.kappaO - m.muO) * cos (π * z) * sin (π * y) + 2 * π ^ 2 * (-1 + z) * z * (m.kappaO + m.muO) * sin (π * x)
      * sin (π * y) - 2 * (m.lambdaO + 2 * m.muO) * sin (π * x) * sin (π * y))]

/-- lines 1484-1545 `get_material_functions` -/
def Material.coeffs (m : Material) : Dual.Coeffs ℝ :=
  ⟨m.lambda, m.mu, m.kappa, m.lambdaO, m.muO, m.kappaO, m.l, fun _ => 0⟩

end Verif.Strong.Cosserat1
