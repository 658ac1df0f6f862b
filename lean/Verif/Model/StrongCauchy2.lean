/-
Model of examples/cauchy_elasticity/strong_solution_elasticity_example_2.py, the second exact solution of linear
elasticity, with two materials. examples/cosserat_ecmor/strong_solution_elasticity_example_2.py is the same without
`pressure`.

* Over the real numbers, at one point.
* The division by the function `xi` is that of the real numbers; the theorems assume that `m_kappa` is not zero.
-/
import Verif.Model.StrongCauchy1

namespace Verif.Strong.Cauchy2
open Real

open Classical in
/-- lines 6-8 `chi` in dimension two -/
noncomputable def chi (x y _z : ℝ) : ℝ := if min x y > 1 / 2 then 1 else 0

/-- lines 4-10 `chi` -/
noncomputable def chiOf (x y z : ℝ) (dim : Nat) : Res ℝ := inPlane dim (chi x y z)

/-- line 14 `xi` in dimension two -/
noncomputable def xi (kappa x y z : ℝ) : ℝ := (1 - chi x y z) + kappa * chi x y z

/-- lines 13-14 `xi` -/
noncomputable def xiOf (x y z kappa : ℝ) (dim : Nat) : Res ℝ := do
  let a ← chiOf x y z dim
  let b ← chiOf x y z dim
  pure ((1 - a) + kappa * b)

/-- lines 17-21 `grad_xi`: a list of zeros -/
noncomputable def gradXi (_x _y _z : ℝ) (dim : Nat) : List ℝ := if dim = 2 then [0, 0] else [0, 0, 0]

/-- lines 26-33 `displacement` in dimension two -/
noncomputable def displacement (_lambda _mu kappa x y z : ℝ) : Fin 2 → ℝ :=
  ![((1 / 2) - y) * (1 - y) * y * sin (2 * π * x) / xi kappa x y z,
    ((1 / 2) - x) * (1 - x) * x * sin (2 * π * y) / xi kappa x y z]

/-- lines 40-48 `rotation` in dimension two -/
noncomputable def rotation (_lambda _mu kappa x y z : ℝ) : Fin 1 → ℝ :=
  ![((1 + 6 * (-1 + y) * y) * sin (2 * π * x) + (-1 - 6 * (-1 + x) * x) * sin (2 * π * y)) / (4 * xi kappa x y z)]

/-- lines 55-76 `stress` in dimension two -/
noncomputable def stress (_lambda _mu _kappa x y _z : ℝ) : Fin 2 → Fin 2 → ℝ :=
  ![![3 * π * (-1 + y) * y * (-1 + 2 * y) * cos (2 * π * x) + π * (-1 + x) * x * (-1 + 2 * x) * cos (2 * π * y),
      ((1 + 6 * (-1 + y) * y) * sin (2 * π * x) + (1 + 6 * (-1 + x) * x) * sin (2 * π * y)) / 2],
    ![((1 + 6 * (-1 + y) * y) * sin (2 * π * x) + (1 + 6 * (-1 + x) * x) * sin (2 * π * y)) / 2,
      π * (-1 + y) * y * (-1 + 2 * y) * cos (2 * π * x) + 3 * π * (-1 + x) * x * (-1 + 2 * x) * cos (2 * π * y)]]

/-- lines 83-87 `pressure` in dimension two -/
noncomputable def pressure (_lambda _mu _kappa x y _z : ℝ) : Fin 1 → ℝ :=
  ![2 * π * (-1 + y) * y * (-1 + 2 * y) * cos (2 * π * x) + 2 * π * (-1 + x) * x * (-1 + 2 * x) * cos (2 * π * y)]

/-- lines 94-108 `rhs` in dimension two -/
noncomputable def rhs (_lambda _mu _kappa x y _z : ℝ) : Fin 3 → ℝ :=
  ![2 * π * (1 - 6 * x + 6 * x ^ 2) * cos (2 * π * y) - 3 * (-1 + 2 * y) * (-1 + 2 * π ^ 2 * (-1 + y) * y) * sin (2
      * π * x),
    2 * π * (1 - 6 * y + 6 * y ^ 2) * cos (2 * π * x) - 3 * (-1 + 2 * x) * (-1 + 2 * π ^ 2 * (-1 + x) * x) * sin (2
      * π * y),
    0]

/-- lines 115-128 `stress_divergence` in dimension two -/
noncomputable def stressDivergence (_lambda _mu _kappa x y _z : ℝ) : Fin 2 → ℝ :=
  ![2 * π * (1 - 6 * x + 6 * x ^ 2) * cos (2 * π * y) - 3 * (-1 + 2 * y) * (-1 + 2 * π ^ 2 * (-1 + y) * y) * sin (2
      * π * x),
    2 * π * (1 - 6 * y + 6 * y ^ 2) * cos (2 * π * x) - 3 * (-1 + 2 * x) * (-1 + 2 * π ^ 2 * (-1 + x) * x) * sin (2
      * π * y)]

noncomputable def displacementOf (lambda mu kappa : ℝ) (dim : Nat) : Res (ℝ → ℝ → ℝ → Fin 2 → ℝ) :=
  inPlane dim (displacement lambda mu kappa)

noncomputable def rotationOf (lambda mu kappa : ℝ) (dim : Nat) : Res (ℝ → ℝ → ℝ → Fin 1 → ℝ) :=
  inPlane dim (rotation lambda mu kappa)

noncomputable def stressOf (lambda mu kappa : ℝ) (dim : Nat) : Res (ℝ → ℝ → ℝ → Fin 2 → Fin 2 → ℝ) :=
  inPlane dim (stress lambda mu kappa)

noncomputable def pressureOf (lambda mu kappa : ℝ) (dim : Nat) : Res (ℝ → ℝ → ℝ → Fin 1 → ℝ) :=
  inPlane dim (pressure lambda mu kappa)

noncomputable def rhsOf (lambda mu kappa : ℝ) (dim : Nat) : Res (ℝ → ℝ → ℝ → Fin 3 → ℝ) :=
  inPlane dim (rhs lambda mu kappa)

noncomputable def stressDivergenceOf (lambda mu kappa : ℝ) (dim : Nat) : Res (ℝ → ℝ → ℝ → Fin 2 → ℝ) :=
  inPlane dim (stressDivergence lambda mu kappa)

end Verif.Strong.Cauchy2
