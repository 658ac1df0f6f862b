/-
Model of the exact solutions of examples/parabolic_diffusive_problem/mixed_transport_model.py (lines 118-227), over
the real numbers, at one point.

* `kappa` and `delta` are one (lines 118-129); `m_eta` is a parameter.
* The shapes of the arrays are left out.
-/
import Verif.Prelude
import Mathlib.Data.Real.Basic
import Mathlib.Data.Fin.VecNotation

namespace Verif.Transport.Exact

/-- The functions of `x`, `y`, `z` and `t` in a dimension -/
structure Case where
  n : Nat
  p : ℝ → ℝ → ℝ → ℝ → ℝ
  mp : ℝ → ℝ → ℝ → ℝ → Fin n → ℝ
  c : ℝ → ℝ → ℝ → ℝ → ℝ
  mc : ℝ → ℝ → ℝ → ℝ → Fin n → ℝ
  f : ℝ → ℝ → ℝ → ℝ → ℝ
  r : ℝ → ℝ → ℝ → ℝ → ℝ

/-- Lines 135, 141 -/
def p1 (x _y _z t : ℝ) : ℝ := t * (1 - x) * x

/-- Lines 136-140, 142-146 -/
def mp1 (x _y _z t : ℝ) : Fin 1 → ℝ := ![t * (-1 + 2 * x)]

/-- Lines 134-151 -/
def case1 (eta : ℝ) : Case where
  n := 1
  p := p1
  mp := mp1
  c := p1
  mc := mp1
  f x _ _ t := t * (2 + 0 * x) + x * (1 - x)
  r x y z t := t * (2 + 0 * x) + x * (1 - x) + (1 + eta * p1 x y z t ^ 2)

/-- Lines 153, 162 -/
def p2 (x y _z t : ℝ) : ℝ := t * ((1 - x) * x * (1 - y) * y)

/-- Lines 154-161, 163-170 -/
def mp2 (x y _z t : ℝ) : Fin 2 → ℝ := ![t * (-((1 - 2 * x) * (1 - y) * y)), -t * ((1 - x) * x * (1 - 2 * y))]

/-- Lines 152-176.  Line 176 calls `c_exact(t, x, y, z)`. -/
def case2 (eta : ℝ) : Case where
  n := 2
  p := p2
  mp := mp2
  c := p2
  mc := mp2
  f x y _ t := t * (2 * (1 - x) * x + 2 * (1 - y) * y) + (1 - x) * x * (1 - y) * y
  r x y z t := t * (2 * (1 - x) * x + 2 * (1 - y) * y) + (1 - x) * x * (1 - y) * y + (1 + eta * p2 t x y z ^ 2)

/-- Lines 178-180, 190-192 -/
def p3 (x y z t : ℝ) : ℝ := t * ((1 - x) * x * (1 - y) * y * (1 - z) * z)

/-- Lines 181-189, 193-201 -/
def mp3 (x y z t : ℝ) : Fin 3 → ℝ :=
  ![t * (-((1 - 2 * x) * (1 - y) * y * (1 - z) * z)), -t * ((1 - x) * x * (1 - 2 * y) * (1 - z) * z),
    -t * ((1 - x) * x * (1 - y) * y * (1 - 2 * z))]

/-- Lines 177-224 -/
def case3 (eta : ℝ) : Case where
  n := 3
  p := p3
  mp := mp3
  c := p3
  mc := mp3
  f x y z t := t * (2 * (1 - x) * x * (1 - y) * y + 2 * (1 - x) * x * (1 - z) * z + 2 * (1 - y) * y * (1 - z) * z) +
    (1 - x) * x * (1 - y) * y * (1 - z) * z
  r x y z t := t * (2 * (1 - x) * x * (1 - y) * y + 2 * (1 - x) * x * (1 - z) * z + 2 * (1 - y) * y * (1 - z) * z) +
    (1 - x) * x * (1 - y) * y * (1 - z) * z + (1 + eta * p3 x y z t ^ 2)

/-- Lines 134-227 -/
def exactCase (eta : ℝ) : Nat → Res Case
  | 1 => .ok (case1 eta)
  | 2 => .ok (case2 eta)
  | 3 => .ok (case3 eta)
  | _ => .error .valueError

end Verif.Transport.Exact
