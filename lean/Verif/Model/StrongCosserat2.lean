/-
Model of examples/cosserat_elasticity/strong_solution_cosserat_elasticity_example_2.py: the second exact solution of
linear Cosserat elasticity, with a displacement free of divergence, and the data that belong to it.

* Over the real numbers, at one point.
* The arguments `m_lambda, m_mu, m_kappa, m_gamma` are a structure.
-/
import Mathlib.Analysis.SpecialFunctions.Trigonometric.Basic
import Mathlib.Data.Fin.VecNotation

namespace Verif.Strong.Cosserat2
open Real

/-- The arguments `m_lambda, m_mu, m_kappa, m_gamma` -/
structure Material where
  lambda : ℝ
  mu : ℝ
  kappa : ℝ
  gamma : ℝ

/-- lines 6-11 `displacement`, dimension two -/
noncomputable def displacement2 (x y _z : ℝ) : Fin 2 → ℝ :=
  ![π * cos (π * y) * (sin (π * x)) ^ 2,
    -2 * π * cos (π * x) * sin (π * x) * sin (π * y)]

/-- lines 13-32 `displacement`, any other dimension -/
noncomputable def displacement3 (x y z : ℝ) : Fin 3 → ℝ :=
  ![-2 * π * (sin (π * x)) ^ 2 * sin (π * y) * sin (π * (y - z)) * sin (π * z),
    -(π * sin (2 * π * x) * (sin (π * y)) ^ 2 * (sin (π * z)) ^ 2),
    π * sin (2 * π * x) * (sin (π * y)) ^ 2 * (sin (π * z)) ^ 2]

/-- lines 37-57 `displacement_gradient`, dimension two -/
noncomputable def displacementGradient2 (x y _z : ℝ) : Fin 2 → Fin 2 → ℝ :=
  ![![2 * π ^ 2 * cos (π * x) * cos (π * y) * sin (π * x),
      -(π ^ 2 * (sin (π * x)) ^ 2 * sin (π * y))],
    ![-2 * π ^ 2 * (cos (π * x)) ^ 2 * sin (π * y) + 2 * π ^ 2 * (sin (π * x)) ^ 2 * sin (π * y),
      -2 * π ^ 2 * cos (π * x) * cos (π * y) * sin (π * x)]]

/-- lines 59-133 `displacement_gradient`, any other dimension -/
noncomputable def displacementGradient3 (x y z : ℝ) : Fin 3 → Fin 3 → ℝ :=
  ![![-4 * π ^ 2 * cos (π * x) * sin (π * x) * sin (π * y) * sin (π * (y - z)) * sin (π * z),
      -2 * π ^ 2 * cos (π * (y - z)) * (sin (π * x)) ^ 2 * sin (π * y) * sin (π * z) - 2 * π ^ 2 * cos (π * y) *
        (sin (π * x)) ^ 2 * sin (π * (y - z)) * sin (π * z),
      -2 * π ^ 2 * cos (π * z) * (sin (π * x)) ^ 2 * sin (π * y) * sin (π * (y - z)) + 2 * π ^ 2 * cos (π * (y -
        z)) * (sin (π * x)) ^ 2 * sin (π * y) * sin (π * z)],
    ![-2 * π ^ 2 * cos (2 * π * x) * (sin (π * y)) ^ 2 * (sin (π * z)) ^ 2,
      -2 * π ^ 2 * cos (π * y) * sin (2 * π * x) * sin (π * y) * (sin (π * z)) ^ 2,
      -2 * π ^ 2 * cos (π * z) * sin (2 * π * x) * (sin (π * y)) ^ 2 * sin (π * z)],
    ![2 * π ^ 2 * cos (2 * π * x) * (sin (π * y)) ^ 2 * (sin (π * z)) ^ 2,
      2 * π ^ 2 * cos (π * y) * sin (2 * π * x) * sin (π * y) * (sin (π * z)) ^ 2,
      2 * π ^ 2 * cos (π * z) * sin (2 * π * x) * (sin (π * y)) ^ 2 * sin (π * z)]]

/-- lines 138-142 `rotation`, dimension two -/
noncomputable def rotation2 (x y _z : ℝ) : Fin 1 → ℝ :=
  ![sin (π * x) * sin (π * y)]

/-- lines 144-150 `rotation`, any other dimension -/
noncomputable def rotation3 (x y z : ℝ) : Fin 3 → ℝ :=
  ![(1 - x) * x * sin (π * y) * sin (π * z),
    (1 - y) * y * sin (π * x) * sin (π * z),
    (1 - z) * z * sin (π * x) * sin (π * y)]

/-- lines 155-160 `rotation_gradient`, dimension two -/
noncomputable def rotationGradient2 (x y _z : ℝ) : Fin 2 → ℝ :=
  ![π * cos (π * x) * sin (π * y),
    π * cos (π * y) * sin (π * x)]

/-- lines 162-183 `rotation_gradient`, any other dimension -/
noncomputable def rotationGradient3 (x y z : ℝ) : Fin 3 → Fin 3 → ℝ :=
  ![![(1 - x) * sin (π * y) * sin (π * z) - x * sin (π * y) * sin (π * z),
      π * (1 - x) * x * cos (π * y) * sin (π * z),
      π * (1 - x) * x * cos (π * z) * sin (π * y)],
    ![π * (1 - y) * y * cos (π * x) * sin (π * z),
      (1 - y) * sin (π * x) * sin (π * z) - y * sin (π * x) * sin (π * z),
      π * (1 - y) * y * cos (π * z) * sin (π * x)],
    ![π * (1 - z) * z * cos (π * x) * sin (π * y),
      π * (1 - z) * z * cos (π * y) * sin (π * x),
      (1 - z) * sin (π * x) * sin (π * y) - z * sin (π * x) * sin (π * y)]]

/-- lines 188-223 `stress`, dimension two -/
noncomputable def stress2 (m : Material) (x y _z : ℝ) : Fin 2 → Fin 2 → ℝ :=
  ![![2 * π ^ 2 * m.mu * cos (π * y) * sin (2 * π * x),
      (-(π ^ 2 * (m.kappa + m.mu)) + π ^ 2 * (5 * m.kappa - 3 * m.mu) * cos (2 * π * x) - 4 * m.kappa * sin (π *
        x)) * sin (π * y) / 2],
    ![-(1 / 2) * ((π ^ 2 * (-m.kappa + m.mu) + π ^ 2 * (5 * m.kappa + 3 * m.mu) * cos (2 * π * x) - 4 * m.kappa *
        sin (π * x)) * sin (π * y)),
      -2 * π ^ 2 * m.mu * cos (π * y) * sin (2 * π * x)]]

/-- lines 225-373 `stress`, any other dimension -/
noncomputable def stress3 (m : Material) (x y z : ℝ) : Fin 3 → Fin 3 → ℝ :=
  ![![-4 * π ^ 2 * m.mu * sin (2 * π * x) * sin (π * y) * sin (π * (y - z)) * sin (π * z),
      -2 * (-((-1 + z) * z * m.kappa * sin (π * x) * sin (π * y)) + π ^ 2 * (m.kappa + m.mu) * (sin (π * x)) ^ 2 *
        sin (π * (2 * y - z)) * sin (π * z) + π ^ 2 * (-m.kappa + m.mu) * cos (2 * π * x) * (sin (π * y)) ^ 2 *
        (sin (π * z)) ^ 2),
      2 * (-(π ^ 2 * m.mu * (cos (π * z)) ^ 2 * (sin (π * x)) ^ 2 * (sin (π * y)) ^ 2) - π ^ 2 * m.kappa * cos (π *
        z) * (sin (π * x)) ^ 2 * sin (π * y) * sin (π * (y - z)) - (-1 + y) * y * m.kappa * sin (π * x) * sin (π *
        z) + π ^ 2 * (m.mu * (cos (π * x)) ^ 2 - m.kappa * cos (2 * π * x)) * (sin (π * y)) ^ 2 * (sin (π * z)) ^ 2
        + π ^ 2 * (sin (π * x)) ^ 2 * sin (π * y) * (m.kappa * cos (π * (y - z)) * sin (π * z) + m.mu * cos (π * y)
        * sin (2 * π * z)))],
    ![-2 * ((-1 + z) * z * m.kappa * sin (π * x) * sin (π * y) - π ^ 2 * (m.kappa - m.mu) * (sin (π * x)) ^ 2 * sin
        (π * (2 * y - z)) * sin (π * z) + π ^ 2 * (m.kappa + m.mu) * cos (2 * π * x) * (sin (π * y)) ^ 2 * (sin (π
        * z)) ^ 2),
      -2 * π ^ 2 * m.mu * sin (2 * π * x) * sin (2 * π * y) * (sin (π * z)) ^ 2,
      -2 * sin (π * y) * sin (π * z) * (-((-1 + x) * x * m.kappa) + π ^ 2 * (m.kappa + m.mu) * cos (π * z) * sin (2
        * π * x) * sin (π * y) + π ^ 2 * (m.kappa - m.mu) * cos (π * y) * sin (2 * π * x) * sin (π * z))],
    ![2 * (π ^ 2 * (m.kappa - m.mu) * cos (π * z) * (sin (π * x)) ^ 2 * sin (π * y) * sin (π * (y - z)) + sin (π *
        z) * ((-1 + y) * y * m.kappa * sin (π * x) - π ^ 2 * (m.kappa - m.mu) * cos (π * (y - z)) * (sin (π * x)) ^
        2 * sin (π * y) + π ^ 2 * (m.kappa + m.mu) * cos (2 * π * x) * (sin (π * y)) ^ 2 * sin (π * z))),
      2 * sin (π * y) * sin (π * z) * (-((-1 + x) * x * m.kappa) + π ^ 2 * (m.kappa - m.mu) * cos (π * z) * sin (2
        * π * x) * sin (π * y) + π ^ 2 * (m.kappa + m.mu) * cos (π * y) * sin (2 * π * x) * sin (π * z)),
      2 * π ^ 2 * m.mu * sin (2 * π * x) * (sin (π * y)) ^ 2 * sin (2 * π * z)]]

/-- lines 378-385 `couple_stress`, dimension two -/
noncomputable def coupleStress2 (m : Material) (x y _z : ℝ) : Fin 1 → Fin 2 → ℝ :=
  ![![π * m.gamma * cos (π * x) * sin (π * y),
      π * m.gamma * cos (π * y) * sin (π * x)]]

/-- lines 387-447 `couple_stress`, any other dimension -/
noncomputable def coupleStress3 (m : Material) (x y z : ℝ) : Fin 3 → Fin 3 → ℝ :=
  ![![(1 - 2 * x) * m.gamma * sin (π * y) * sin (π * z),
      -(π * (-1 + x) * x * m.gamma * cos (π * y) * sin (π * z)),
      -(π * (-1 + x) * x * m.gamma * cos (π * z) * sin (π * y))],
    ![-(π * (-1 + y) * y * m.gamma * cos (π * x) * sin (π * z)),
      (1 - 2 * y) * m.gamma * sin (π * x) * sin (π * z),
      -(π * (-1 + y) * y * m.gamma * cos (π * z) * sin (π * x))],
    ![-(π * (-1 + z) * z * m.gamma * cos (π * x) * sin (π * y)),
      -(π * (-1 + z) * z * m.gamma * cos (π * y) * sin (π * x)),
      (1 - 2 * z) * m.gamma * sin (π * x) * sin (π * y)]]

/-- lines 452-476 `rhs`, dimension two -/
noncomputable def rhs2 (m : Material) (x y _z : ℝ) : Fin 3 → ℝ :=
  ![π * cos (π * y) * (-(π ^ 2 * (m.kappa + m.mu)) + 5 * π ^ 2 * (m.kappa + m.mu) * cos (2 * π * x) - 4 * m.kappa *
      sin (π * x)) / 2,
    2 * π * cos (π * x) * (m.kappa + 5 * π ^ 2 * (m.kappa + m.mu) * sin (π * x)) * sin (π * y),
    (-(π ^ 2 * m.kappa) + 5 * π ^ 2 * m.kappa * cos (2 * π * x) - 2 * (π ^ 2 * m.gamma + 2 * m.kappa) * sin (π *
      x)) * sin (π * y)]

/-- lines 478-632 `rhs`, any other dimension -/
noncomputable def rhs3 (m : Material) (x y z : ℝ) : Fin 6 → ℝ :=
  ![2 * π * ((-1 + z) * z * m.kappa * cos (π * y) * sin (π * x) - (-1 + y) * y * m.kappa * cos (π * z) * sin (π *
      x) + π ^ 2 * (m.kappa + m.mu) * (cos (π * z)) ^ 2 * (sin (π * x)) ^ 2 * sin (2 * π * y) + π ^ 2 * (m.kappa +
      m.mu) * (-8 * cos (π * (2 * x - z)) + cos (π * (2 * x - 2 * y - z)) - 14 * cos (π * (2 * y - z)) + 11 * cos
      (π * (2 * x + 2 * y - z)) + 8 * cos (π * z) - 8 * cos (π * (2 * x + z)) + 11 * cos (π * (2 * x - 2 * y + z))
      - 2 * cos (π * (2 * y + z)) + cos (π * (2 * x + 2 * y + z))) * sin (π * z) / 8),
    -2 * π * (-1 + z) * z * m.kappa * cos (π * x) * sin (π * y) + 2 * π * (-1 + x) * x * m.kappa * cos (π * z) *
      sin (π * y) - 2 * π ^ 3 * (m.kappa + m.mu) * (cos (π * z)) ^ 2 * sin (2 * π * x) * (sin (π * y)) ^ 2 - π ^ 3
      * (m.kappa + m.mu) * (-3 + 5 * cos (2 * π * y)) * sin (2 * π * x) * (sin (π * z)) ^ 2,
    2 * (π ^ 3 * (m.kappa - m.mu) * (cos (π * z)) ^ 2 * sin (2 * π * x) * (sin (π * y)) ^ 2 + 2 * π ^ 3 * m.mu *
      cos (2 * π * z) * sin (2 * π * x) * (sin (π * y)) ^ 2 + π * sin (π * z) * ((-1 + y) * y * m.kappa * cos (π *
      x) - (-1 + x) * x * m.kappa * cos (π * y) + π ^ 2 * (m.kappa + m.mu) * (cos (π * y)) ^ 2 * sin (2 * π * x) *
      sin (π * z) - 2 * π ^ 2 * (2 * m.kappa + m.mu) * sin (2 * π * x) * (sin (π * y)) ^ 2 * sin (π * z))),
    2 * sin (π * y) * sin (π * z) * (-m.gamma + π ^ 2 * (-1 + x) * x * m.gamma - 2 * x * m.kappa + 2 * x ^ 2 *
      m.kappa - 2 * π ^ 2 * m.kappa * cos (π * z) * sin (2 * π * x) * sin (π * y) - 2 * π ^ 2 * m.kappa * cos (π *
      y) * sin (2 * π * x) * sin (π * z)),
    4 * π ^ 2 * m.kappa * (cos (π * z)) ^ 2 * (sin (π * x)) ^ 2 * (sin (π * y)) ^ 2 + 2 * sin (π * z) * (((-1 + π ^
      2 * (-1 + y) * y) * m.gamma + 2 * (-1 + y) * y * m.kappa) * sin (π * x) - 4 * π ^ 2 * m.kappa * cos (π * (y -
      z)) * (sin (π * x)) ^ 2 * sin (π * y) + 2 * π ^ 2 * m.kappa * (cos (π * x)) ^ 2 * (sin (π * y)) ^ 2 * sin (π
      * z)),
    2 * ((-1 + π ^ 2 * (-1 + z) * z) * m.gamma + 2 * (-1 + z) * z * m.kappa) * sin (π * x) * sin (π * y) - 4 * π ^
      2 * m.kappa * (sin (π * x)) ^ 2 * sin (π * (2 * y - z)) * sin (π * z) + 4 * π ^ 2 * m.kappa * cos (2 * π * x)
      * (sin (π * y)) ^ 2 * (sin (π * z)) ^ 2]

/-- lines 637-655 `stress_divergence`, dimension two -/
noncomputable def stressDivergence2 (m : Material) (x y _z : ℝ) : Fin 2 → ℝ :=
  ![π * cos (π * y) * (-(π ^ 2 * (m.kappa + m.mu)) + 5 * π ^ 2 * (m.kappa + m.mu) * cos (2 * π * x) - 4 * m.kappa *
      sin (π * x)) / 2,
    2 * π * cos (π * x) * (m.kappa + 5 * π ^ 2 * (m.kappa + m.mu) * sin (π * x)) * sin (π * y)]

/-- lines 657-744 `stress_divergence`, any other dimension -/
noncomputable def stressDivergence3 (m : Material) (x y z : ℝ) : Fin 3 → ℝ :=
  ![2 * π * ((-1 + z) * z * m.kappa * cos (π * y) * sin (π * x) - (-1 + y) * y * m.kappa * cos (π * z) * sin (π *
      x) + π ^ 2 * (m.kappa + m.mu) * (cos (π * z)) ^ 2 * (sin (π * x)) ^ 2 * sin (2 * π * y) + π ^ 2 * (m.kappa +
      m.mu) * (-8 * cos (π * (2 * x - z)) + cos (π * (2 * x - 2 * y - z)) - 14 * cos (π * (2 * y - z)) + 11 * cos
      (π * (2 * x + 2 * y - z)) + 8 * cos (π * z) - 8 * cos (π * (2 * x + z)) + 11 * cos (π * (2 * x - 2 * y + z))
      - 2 * cos (π * (2 * y + z)) + cos (π * (2 * x + 2 * y + z))) * sin (π * z) / 8),
    -2 * π * (-1 + z) * z * m.kappa * cos (π * x) * sin (π * y) + 2 * π * (-1 + x) * x * m.kappa * cos (π * z) *
      sin (π * y) - 2 * π ^ 3 * (m.kappa + m.mu) * (cos (π * z)) ^ 2 * sin (2 * π * x) * (sin (π * y)) ^ 2 - π ^ 3
      * (m.kappa + m.mu) * (-3 + 5 * cos (2 * π * y)) * sin (2 * π * x) * (sin (π * z)) ^ 2,
    2 * (π ^ 3 * (m.kappa - m.mu) * (cos (π * z)) ^ 2 * sin (2 * π * x) * (sin (π * y)) ^ 2 + 2 * π ^ 3 * m.mu *
      cos (2 * π * z) * sin (2 * π * x) * (sin (π * y)) ^ 2 + π * sin (π * z) * ((-1 + y) * y * m.kappa * cos (π *
      x) - (-1 + x) * x * m.kappa * cos (π * y) + π ^ 2 * (m.kappa + m.mu) * (cos (π * y)) ^ 2 * sin (2 * π * x) *
      sin (π * z) - 2 * π ^ 2 * (2 * m.kappa + m.mu) * sin (2 * π * x) * (sin (π * y)) ^ 2 * sin (π * z)))]

/-- lines 749-753 `couple_stress_divergence`, dimension two -/
noncomputable def coupleStressDivergence2 (m : Material) (x y _z : ℝ) : Fin 1 → ℝ :=
  ![-2 * π ^ 2 * m.gamma * sin (π * x) * sin (π * y)]

/-- lines 755-773 `couple_stress_divergence`, any other dimension -/
noncomputable def coupleStressDivergence3 (m : Material) (x y z : ℝ) : Fin 3 → ℝ :=
  ![2 * (-1 + π ^ 2 * (-1 + x) * x) * m.gamma * sin (π * y) * sin (π * z),
    2 * (-1 + π ^ 2 * (-1 + y) * y) * m.gamma * sin (π * x) * sin (π * z),
    2 * (-1 + π ^ 2 * (-1 + z) * z) * m.gamma * sin (π * x) * sin (π * y)]

/-- lines 778-787 `couple_stress_divergence_scaled`, dimension two -/
noncomputable def coupleStressDivergenceScaled2 (m : Material) (x y _z : ℝ) : Fin 1 → ℝ :=
  ![-2 * π ^ 2 * m.gamma * m.gamma * sin (π * x) * sin (π * y)]

/-- lines 789-810 `couple_stress_divergence_scaled`, any other dimension -/
noncomputable def coupleStressDivergenceScaled3 (m : Material) (x y z : ℝ) : Fin 3 → ℝ :=
  ![2 * (-1 + π ^ 2 * (-1 + x) * x) * m.gamma * m.gamma * sin (π * y) * sin (π * z),
    2 * (-1 + π ^ 2 * (-1 + y) * y) * m.gamma * m.gamma * sin (π * x) * sin (π * z),
    2 * (-1 + π ^ 2 * (-1 + z) * z) * m.gamma * m.gamma * sin (π * x) * sin (π * y)]

end Verif.Strong.Cosserat2
