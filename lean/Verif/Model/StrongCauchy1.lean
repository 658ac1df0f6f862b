/-
Model of examples/cauchy_elasticity/strong_solution_elasticity_example_1.py, the first exact solution of linear
elasticity. examples/cosserat_ecmor/strong_solution_elasticity_example_1.py is the same without `pressure`.

* Over the real numbers, at one point.
* Each function takes the dimension last and returns a function of the point; what it returns in dimension two is
  defined first, then the choice of the dimension (the same lines, with the line of the `raise`).
-/
import Mathlib.Analysis.SpecialFunctions.Trigonometric.Basic
import Mathlib.Data.Fin.VecNotation
import Verif.Prelude

namespace Verif.Strong

/-- `if dim == 2: return … else: raise ValueError` -/
def inPlane {α : Type} (dim : Nat) (f : α) : Res α := if dim = 2 then .ok f else .error .valueError

namespace Cauchy1
open Real

/-- lines 6-19 `displacement` in dimension two -/
noncomputable def displacement (_lambda _mu x y _z : ℝ) : Fin 2 → ℝ :=
  ![4 * π * cos (2 * π * y) * (sin (2 * π * x)) ^ 2 * sin (2 * π * y),
    -4 * π * cos (2 * π * x) * sin (2 * π * x) * (sin (2 * π * y)) ^ 2]

/-- lines 26-44 `rotation` in dimension two -/
noncomputable def rotation (_lambda _mu x y _z : ℝ) : Fin 1 → ℝ :=
  ![(8 * π ^ 2 * (cos (2 * π * y)) ^ 2 * (sin (2 * π * x)) ^ 2 + 8 * π ^ 2 * (cos (2 * π * x)) ^ 2 * (sin (2 * π *
      y)) ^ 2 - 16 * π ^ 2 * (sin (2 * π * x)) ^ 2 * (sin (2 * π * y)) ^ 2) / 2]

/-- lines 51-76 `stress` in dimension two -/
noncomputable def stress (_lambda mu x y _z : ℝ) : Fin 2 → Fin 2 → ℝ :=
  ![![8 * π ^ 2 * mu * sin (4 * π * x) * sin (4 * π * y),
      4 * π ^ 2 * mu * (-cos (4 * π * x) + cos (4 * π * y))],
    ![4 * π ^ 2 * mu * (-cos (4 * π * x) + cos (4 * π * y)),
      -8 * π ^ 2 * mu * sin (4 * π * x) * sin (4 * π * y)]]

/-- lines 83-83 `pressure` in dimension two -/
noncomputable def pressure (_lambda _mu x _y _z : ℝ) : Fin 1 → ℝ :=
  ![0 * x]

/-- lines 90-104 `rhs` in dimension two -/
noncomputable def rhs (_lambda mu x y _z : ℝ) : Fin 3 → ℝ :=
  ![16 * π ^ 3 * mu * (-1 + 2 * cos (4 * π * x)) * sin (4 * π * y),
    16 * π ^ 3 * mu * (1 - 2 * cos (4 * π * y)) * sin (4 * π * x),
    0]

/-- lines 111-124 `stress_divergence` in dimension two -/
noncomputable def stressDivergence (_lambda mu x y _z : ℝ) : Fin 2 → ℝ :=
  ![16 * π ^ 3 * mu * (-1 + 2 * cos (4 * π * x)) * sin (4 * π * y),
    16 * π ^ 3 * mu * (1 - 2 * cos (4 * π * y)) * sin (4 * π * x)]

noncomputable def displacementOf (lambda mu : ℝ) (dim : Nat) : Res (ℝ → ℝ → ℝ → Fin 2 → ℝ) :=
  inPlane dim (displacement lambda mu)

noncomputable def rotationOf (lambda mu : ℝ) (dim : Nat) : Res (ℝ → ℝ → ℝ → Fin 1 → ℝ) :=
  inPlane dim (rotation lambda mu)

noncomputable def stressOf (lambda mu : ℝ) (dim : Nat) : Res (ℝ → ℝ → ℝ → Fin 2 → Fin 2 → ℝ) :=
  inPlane dim (stress lambda mu)

noncomputable def pressureOf (lambda mu : ℝ) (dim : Nat) : Res (ℝ → ℝ → ℝ → Fin 1 → ℝ) :=
  inPlane dim (pressure lambda mu)

noncomputable def rhsOf (lambda mu : ℝ) (dim : Nat) : Res (ℝ → ℝ → ℝ → Fin 3 → ℝ) :=
  inPlane dim (rhs lambda mu)

noncomputable def stressDivergenceOf (lambda mu : ℝ) (dim : Nat) : Res (ℝ → ℝ → ℝ → Fin 2 → ℝ) :=
  inPlane dim (stressDivergence lambda mu)

end Cauchy1
end Verif.Strong
