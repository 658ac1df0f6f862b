/-
Model of examples/md_elliptic_scalar/exact_functions.py, the exact solution of the mixed problem in the unit square
with a fracture along `y = 1/2`.

* Over the real numbers, at one point; the leading axes of length one of the arrays are left out.
* The flux of the bulk is a pair of functions of the point.
* A dictionary of `partial` objects is a dictionary of functions of the point that return their components.
-/
import Mathlib.Analysis.SpecialFunctions.Trigonometric.Basic
import Verif.Prelude

namespace Verif.Strong.MdElliptic
open Real

/-- The material: `m_c1, m_c2, m_kappa_c0, m_kappa_c1, m_delta` -/
structure Material where
  c1 : ℝ
  c2 : ℝ
  kappa0 : ℝ
  kappa1 : ℝ
  delta : ℝ

/-- lines 5-6 -/
noncomputable def pF (x _y _z : ℝ) : ℝ := sin (2 * π * x)

/-- lines 9-10 -/
noncomputable def gradPF (x _y _z : ℝ) : ℝ := 2 * π * cos (2 * π * x)

/-- lines 13-14 -/
noncomputable def uF (m : Material) (x y z : ℝ) : ℝ := -m.kappa1 * m.delta * gradPF x y z

open Classical in
/-- lines 17-23 -/
noncomputable def pExact (m : Material) (x y z : ℝ) : ℝ :=
  if y < 0.5 then (m.c1 * (0.5 - y) + 1) * pF x y z else (m.c2 * (y - 0.5) + 1) * pF x y z

open Classical in
/-- lines 26-43: the first component -/
noncomputable def uExact₁ (m : Material) (x y z : ℝ) : ℝ :=
  if y < 0.5 then -m.kappa0 * (m.c1 * (0.5 - y) + 1) * gradPF x y z
  else -m.kappa0 * (m.c2 * (y - 0.5) + 1) * gradPF x y z

open Classical in
/-- lines 26-43: the second component -/
noncomputable def uExact₂ (m : Material) (x y z : ℝ) : ℝ :=
  if y < 0.5 then m.kappa0 * m.c1 * pF x y z else -m.kappa0 * m.c2 * pF x y z

open Classical in
/-- lines 46-54 -/
noncomputable def rhs0 (m : Material) (x y z : ℝ) : ℝ :=
  if y < 0.5 then 4 * π ^ 2 * m.kappa0 * (m.c1 * (0.5 - y) + 1) * pF x y z
  else 4 * π ^ 2 * m.kappa0 * (m.c2 * (y - 0.5) + 1) * pF x y z

/-- lines 57-63 -/
noncomputable def rhs1 (m : Material) (x y z : ℝ) : ℝ :=
  4 * π ^ 2 * m.kappa1 * m.delta * sin (2 * π * x) + m.kappa0 * (m.c2 + m.c1) * pF x y z

/-- lines 66-103 -/
noncomputable def exactFunctions (coDimension : Int) (flux potential : String) (m : Material) :
    Res (Dict String (ℝ → ℝ → ℝ → List ℝ)) :=
  if coDimension = 0 then
    .ok (Dict.ofList [(flux, fun x y z => [uExact₁ m x y z, uExact₂ m x y z]), (potential, fun x y z => [pExact m x y z])])
  else if coDimension = 1 then
    .ok (Dict.ofList [(flux, fun x y z => [uF m x y z]), (potential, fun x y z => [pF x y z])])
  else .error .valueError

/-- lines 106-134 -/
noncomputable def rhsFunctions (coDimension : Int) (name : String) (m : Material) :
    Res (Dict String (ℝ → ℝ → ℝ → List ℝ)) :=
  if coDimension = 0 then .ok (Dict.ofList [(name, fun x y z => [rhs0 m x y z])])
  else if coDimension = 1 then .ok (Dict.ofList [(name, fun x y z => [rhs1 m x y z])])
  else .error .valueError

end Verif.Strong.MdElliptic
