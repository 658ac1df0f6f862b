/-
Model of examples/md_cosserat_elasticity/exact_functions.py and of `ContactWeakForm`
(examples/md_cosserat_elasticity/ContactWeakForm.py).

* The exact functions are over the real numbers, at one point; the leading axes of length one of the arrays are left out.
* A dictionary of `partial` objects is a dictionary of functions of the point that return their components.
-/
import Mathlib.Analysis.SpecialFunctions.Trigonometric.Basic
import Verif.Model.Laplace

namespace Verif.Strong.MdCosserat
open Real

/-- The material: `m_c, m_kappa, m_delta` -/
structure Material where
  c : ℝ
  kappa : ℝ
  delta : ℝ

/-- lines 13-14 -/
noncomputable def pF (_x y _z : ℝ) : ℝ := sin (2 * π * y)

/-- lines 17-18 -/
noncomputable def gradPF (_x y _z : ℝ) : ℝ := 2 * π * cos (2 * π * y)

/-- lines 21-28 -/
noncomputable def uF (m : Material) (x y z : ℝ) : ℝ := -m.kappa * m.delta * gradPF x y z

/-- lines 31-32 -/
noncomputable def pExact (m : Material) (x y z : ℝ) : ℝ := (m.c * x + m.delta) * pF x y z

/-- lines 35-43: the first component -/
noncomputable def uExact₁ (m : Material) (x y z : ℝ) : ℝ := -m.c * pF x y z

/-- lines 35-43: the second component -/
noncomputable def uExact₂ (m : Material) (x y z : ℝ) : ℝ := -(m.c * x + m.delta) * gradPF x y z

/-- lines 46-49 -/
noncomputable def rhs0 (m : Material) (x y z : ℝ) : ℝ := 4 * π ^ 2 * (m.c * x + m.delta) * pF x y z

/-- lines 52-61 -/
noncomputable def rhs1 (m : Material) (_x y _z : ℝ) : ℝ := 4 * π ^ 2 * m.kappa * m.delta * sin (2 * π * y)

/-- lines 64-80 -/
noncomputable def exactFunctions (coDimension : Int) (flux potential : String) (m : Material) :
    Res (Dict String (ℝ → ℝ → ℝ → List ℝ)) :=
  if coDimension = 0 then
    .ok (Dict.ofList [(flux, fun x y z => [uExact₁ m x y z, uExact₂ m x y z]), (potential, fun x y z => [pExact m x y z])])
  else if coDimension = 1 then
    .ok (Dict.ofList [(flux, fun x y z => [uF m x y z]), (potential, fun x y z => [pF x y z])])
  else .error .valueError

/-- lines 83-95 -/
noncomputable def rhsFunctions (coDimension : Int) (name : String) (m : Material) :
    Res (Dict String (ℝ → ℝ → ℝ → List ℝ)) :=
  if coDimension = 0 then .ok (Dict.ofList [(name, fun x y z => [rhs0 m x y z])])
  else if coDimension = 1 then .ok (Dict.ofList [(name, fun x y z => [rhs1 m x y z])])
  else .error .valueError

/-- ContactWeakForm.py:12-24: line 24 reads `iel_c0`, which is not defined. -/
def contactForm {K E F : Type} (spaces : List (Dict String E)) (functions : Dict String F) (_p _n : Nat) :
    Res (L2Form.Vec K × Assembly.Mat K) := do
  let _ ← functions.getItem "cu_normal"
  let _ ← functions.getItem "cu_tangential"
  let _ ← functions.getItem "cr_normal"
  let _ ← functions.getItem "cr_tangential"
  let bulk ← getIdx spaces 0
  let _ ← bulk.getItem "q"
  let fracture ← getIdx spaces 1
  let _ ← fracture.getItem "p"
  .error .nameError

end Verif.Strong.MdCosserat
