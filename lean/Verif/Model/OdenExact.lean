/-
Model of the exact solutions of examples/oden_problem/oden_rates_primal_dual_ad.py (lines 67-135 and 310-383), over the
real numbers, at one point.  Both functions of the example have the same formulas; the shapes of the arrays are left out.
-/
import Verif.Prelude
import Mathlib.Analysis.SpecialFunctions.Pow.Real
import Mathlib.Analysis.Complex.Trigonometric
import Mathlib.Data.Fin.VecNotation

namespace Verif.Oden.Exact

/-- The functions of `x`, `y` and `z` in a dimension -/
structure Case where
  n : Nat
  u : ℝ → ℝ → ℝ → ℝ
  q : ℝ → ℝ → ℝ → Fin n → ℝ
  f : ℝ → ℝ → ℝ → ℝ
  divQ : ℝ → ℝ → ℝ → ℝ

/-- `np.e` -/
noncomputable def e : ℝ := Real.exp 1

/-- Lines 69-81, 312-324 -/
noncomputable def u1 (x _y _z : ℝ) : ℝ :=
  -((-e + e ^ (1 + 2 * x) + e ^ x * x - e ^ (2 + x) * x) / (e ^ x * (-1 + e ^ 2)))

/-- Lines 82-103, 325-346 -/
noncomputable def q1 (x _y _z : ℝ) : Fin 1 → ℝ :=
  ![-((-e + e ^ (1 + 2 * x) + e ^ x * x - e ^ (2 + x) * x) / (e ^ x * (-1 + e ^ 2))) +
    (e ^ x - e ^ (2 + x) + 2 * e ^ (1 + 2 * x) + e ^ x * x - e ^ (2 + x) * x) / (e ^ x * (-1 + e ^ 2))]

/-- Lines 68-103, 311-347 -/
noncomputable def case1 : Case where
  n := 1
  u := u1
  q := q1
  f x _ _ := x
  divQ x y z := x - u1 x y z

/-- Lines 106-111, 350-355 -/
noncomputable def u2 (x y _z : ℝ) : ℝ :=
  (x - 2 * e * Real.sinh x / (-1 + e ^ 2)) * (y - 2 * e * Real.sinh y / (-1 + e ^ 2))

/-- Lines 112-123, 356-369 -/
noncomputable def q2 (x y _z : ℝ) : Fin 2 → ℝ :=
  ![-((1 - 2 * e * Real.cosh x / (-1 + e ^ 2)) * (y - 2 * e * Real.sinh y / (-1 + e ^ 2))),
    -((1 - 2 * e * Real.cosh y / (-1 + e ^ 2)) * (x - 2 * e * Real.sinh x / (-1 + e ^ 2)))]

/-- Lines 124-134, 371-381 -/
noncomputable def f2 (x y _z : ℝ) : ℝ :=
  ((-1 + e ^ 2) ^ 2 * x * y - 4 * e ^ 2 * Real.sinh x * Real.sinh y) / (-1 + e ^ 2) ^ 2

/-- Lines 105-134, 349-383 -/
noncomputable def case2 : Case where
  n := 2
  u := u2
  q := q2
  f := f2
  divQ x y z := f2 x y z - u2 x y z

/-- Lines 67-136, 310-385 -/
noncomputable def exactCase : Nat → Res Case
  | 1 => .ok case1
  | 2 => .ok case2
  | _ => .error .valueError

end Verif.Oden.Exact
