/-
Model of the part that examples/md_degenerate_elliptic_scalar/exact_functions.py and degenerate_exact_functions.py have
in common: the lifting functions (lines 9-135 of both), and the choice by codimension.

* Over the real numbers, at one point; the coordinates are arrays of floats, which `np.piecewise` and the masks handle
  entry by entry.
* `m_data` is a structure: all its keys are there.
* The powers have bases of at least one.
-/
import Mathlib.Analysis.SpecialFunctions.Pow.Real
import Verif.Model.StrongArbogast

namespace Verif.Strong.MdLift
open Real

/-- `m_data` (`beta` only for the degenerate functions, `rho_1` and `rho_2` only for the others) -/
structure Material where
  rho1 : ℝ
  rho2 : ℝ
  kappa0 : ℝ
  kappa1 : ℝ
  mu : ℝ
  delta : ℝ
  xi : ℝ
  eta : ℝ
  chi : ℝ
  beta : ℝ

/-- lines 9-16 -/
def xs (_m : Material) (_x _y _z : ℝ) : ℝ := 1

/-- lines 19-26 -/
def dxs (_m : Material) (_x _y _z : ℝ) : ℝ := 0

/-- lines 29-36 -/
def dxs2 (_m : Material) (_x _y _z : ℝ) : ℝ := 0

open Classical in
/-- lines 39-52 -/
noncomputable def ys (m : Material) (_x y _z : ℝ) : ℝ :=
  if y < 0 then (1 - y) ^ m.xi else (1 + y) ^ m.eta

open Classical in
/-- lines 55-71 -/
noncomputable def dys (m : Material) (_x y _z : ℝ) : ℝ :=
  if y < 0 then -m.xi * (1 - y) ^ (m.xi - 1) else m.eta * (1 + y) ^ (m.eta - 1)

open Classical in
/-- lines 74-90 -/
noncomputable def dys2 (m : Material) (_x y _z : ℝ) : ℝ :=
  if y < 0 then m.xi * (m.xi - 1) * (1 - y) ^ (m.xi - 2) else m.eta * (m.eta - 1) * (1 + y) ^ (m.eta - 2)

open Classical in
/-- lines 96-108 -/
noncomputable def phiYs (m : Material) (_x y _z : ℝ) : ℝ :=
  if y < 0 then (1 - y) ^ m.chi else (1 + y) ^ m.chi

open Classical in
/-- lines 111-126 -/
noncomputable def phiDys (m : Material) (_x y _z : ℝ) : ℝ :=
  if y < 0 then -m.chi * (1 - y) ^ (m.chi - 1) else m.chi * (1 + y) ^ (m.chi - 1)

/-- `if co_dim == 0: … elif co_dim == 1: … else: raise ValueError` -/
def onCo {α : Type} (co : Int) (bulk fracture : α) : Res α :=
  if co = 0 then .ok bulk else if co = 1 then .ok fracture else .error .valueError

/-- The functions `get_…_by_co_dimension` -/
def dictionary {α : Type} (co : Int) (entries : List (String × α)) : Res (Dict String α) :=
  if co ≠ 0 ∧ co ≠ 1 then .error .valueError else .ok (Dict.ofList entries)

end Verif.Strong.MdLift
