/-
Model of examples/degenerate_elliptic_scalar/strong_solutions_TArbogast.py, the exact solutions of the mixed problem
with a porosity that degenerates.

* Over the real numbers, at one point: the arrays of coordinates (of floats) are handled entry by entry, so a mask is
  a condition on the point.
* `none` stands for a result that is not a finite number (`nan` or `inf`): numpy does not raise there. Powers in the
  branches of dimension two, and those of `grad_p_exact` and `laplacian_p_exact`, are taken of positive numbers only.
* The functions return arrays with one or two leading axes of length one; here that is the list of the components.
-/
import Mathlib.Analysis.SpecialFunctions.Trigonometric.Basic
import Mathlib.Analysis.SpecialFunctions.Pow.Real
import Verif.Prelude

namespace Verif.Strong.Arbogast
open Real

/-- Division of floats -/
noncomputable def quot (a b : ℝ) : Option ℝ := if b = 0 then none else some (a / b)

/-- `np.sqrt` -/
noncomputable def root (a : ℝ) : Option ℝ := if a < 0 then none else some (√a)

/-- `a ** b` for a number `a` that is not negative -/
noncomputable def power (a b : ℝ) : Option ℝ := if a = 0 ∧ b < 0 then none else some (a ^ b)

/-- `if dim == 1: … elif dim == 2: … else: raise ValueError` -/
def onDim {α : Type} (dim : Nat) (one two : α) : Res α :=
  if dim = 1 then .ok one else if dim = 2 then .ok two else .error .valueError

/-- `np.logical_or(x <= -3 / 4, y <= -3 / 4)` -/
def Masked (x y : ℝ) : Prop := x ≤ -3 / 4 ∨ y ≤ -3 / 4

open Classical in
/-- lines 4-15 `f_porosity` -/
noncomputable def porosity (par : ℝ) (dim : Nat) (x y _z : ℝ) : Res ℝ :=
  onDim dim (x ^ 2)
    (if Masked x y then 0 else (0.75 + x) ^ par * (0.75 + y) ^ (2 * par))

open Classical in
/-- lines 18-39 `f_grad_porosity` -/
noncomputable def gradPorosity (par : ℝ) (dim : Nat) (x y z : ℝ) : Res (List ℝ) :=
  onDim dim [2 * x, y * 0, z * 0]
    (if Masked x y then [x * 0, y * 0] else
      [(0.75 + x) ^ (-1 + par) * (0.75 + y) ^ (2 * par) * par,
        2 * (0.75 + x) ^ par * (0.75 + y) ^ (-1 + 2 * par) * par])

/-- lines 42-43 `f_kappa` -/
noncomputable def kappa (par : ℝ) (dim : Nat) (x y z : ℝ) : Res ℝ := do
  let phi ← porosity par dim x y z
  return phi ^ 2

/-- lines 46-47 `f_d_phi` -/
noncomputable def dPhi (par mu : ℝ) (dim : Nat) (x y z : ℝ) : Res (Option ℝ) := do
  let k ← kappa par dim x y z
  return (quot k mu).bind root

open Classical in
/-- lines 50-64 `f_grad_d_phi` -/
noncomputable def gradDPhi (par mu : ℝ) (dim : Nat) (x y z : ℝ) : Res (List (Option ℝ)) := do
  let mask ← onDim dim (x < 0) (Masked x y)
  let scalarPart ← if mask then pure (some 0) else do
    let phi ← porosity par dim x y z
    let d ← dPhi par mu dim x y z
    pure (d.bind fun d => quot phi (mu * d))
  let vectorPart ← gradPorosity par dim x y z
  return vectorPart.map fun g => scalarPart.map (· * g)

/-- lines 67-94 `p_exact` -/
noncomputable def pExact (par : ℝ) (dim : Nat) (x y _z : ℝ) : Res (List (Option ℝ)) :=
  open Classical in
  onDim dim
    [if x < 0 then some (x * 0) else do
      let a ← power |x| par
      let b ← power |x| (0.5 * (-3 + √13))
      quot (-a + 0.5 * (3 + √13) * b * par) (-1 + par * (3 + par))]
    [if Masked x y then some 0 else some (cos (6 * x * y ^ 2))]

/-- lines 97-138 `u_exact` -/
noncomputable def uExact (par : ℝ) (dim : Nat) (x y _z : ℝ) : Res (List (Option ℝ)) :=
  open Classical in
  onDim dim
    [if x < 0 then some (x * 0) else do
      let a ← power |x| (0.5 * (3 + √13))
      let b ← power |x| (3 + par)
      quot ((-a + b) * par) (-1 + par * (3 + par))]
    (if Masked x y then [some (x * 0), some (y * 0)] else
      [some (6 * (0.75 + x) ^ (2 * par) * y ^ 2 * (0.75 + y) ^ (4 * par) * sin (6 * x * y ^ 2)),
        some (12 * x * (0.75 + x) ^ (2 * par) * y * (0.75 + y) ^ (4 * par) * sin (6 * x * y ^ 2))])

open Classical in
/-- lines 141-164 `q_exact` -/
noncomputable def qExact (par : ℝ) (dim : Nat) (x y z : ℝ) : Res (List (Option ℝ)) :=
  if dim = 1 then
    if x ≤ 0 then .ok [some 0] else do
      let phi ← porosity par dim x y z
      let p ← pExact par dim x y z
      return p.map fun p => do
        let r ← root phi
        let p ← p
        return r * p
  else if dim = 2 then
    if Masked x y then .ok [some 0] else
      .ok [(root ((0.75 + x) ^ par * (0.75 + y) ^ (2 * par))).map (· * cos (6 * x * y ^ 2))]
  else .error .valueError

open Classical in
/-- lines 167-204 `v_exact` -/
noncomputable def vExact (par mu : ℝ) (dim : Nat) (x y z : ℝ) : Res (List (Option ℝ)) :=
  if dim = 1 then
    if x ≤ 0 then .ok [some 0] else do
      let u ← uExact par dim x y z
      let d ← dPhi par mu dim x y z
      return u.map fun u => do
        let u ← u
        let d ← d
        quot u d
  else if dim = 2 then
    if Masked x y then .ok [some 0, some 0] else
      .ok [(root ((0.75 + x) ^ (2 * par) * (0.75 + y) ^ (4 * par))).map fun r =>
            6 * y ^ 2 * r * sin (6 * x * y ^ 2),
          (root ((0.75 + x) ^ (2 * par) * (0.75 + y) ^ (4 * par))).map fun r =>
            12 * x * y * r * sin (6 * x * y ^ 2)]
  else .error .valueError

open Classical in
/-- lines 207-262 `f_rhs` -/
noncomputable def rhs (par : ℝ) (dim : Nat) (x y z : ℝ) : Res (List (Option ℝ)) :=
  if dim = 1 then
    if x ≤ 0 then .ok [some 0] else do
      let phi ← porosity par dim x y z
      return [do
        let a ← power x par
        let r ← root phi
        return a * r]
  else if dim = 2 then
    if Masked x y then .ok [some 0] else do
      let phi ← porosity par dim x y z
      return [do
        let r ← root phi
        let w ← quot (12 * (0.75 + x) ^ par * (0.75 + y) ^ (2 * par) *
            (x * (3 + 4 * x) * (3 + 4 * y) + 4 * y * (4 * x * (3 + 4 * x) + y * (3 + 4 * y)) * par) *
            sin (6 * x * y ^ 2)) ((3 + 4 * x) * (3 + 4 * y))
        return r * ((1 + 36 * (0.75 + x) ^ par * y ^ 2 * (0.75 + y) ^ (2 * par) * (4 * x ^ 2 + y ^ 2)) *
            cos (6 * x * y ^ 2) + w)]
  else .error .valueError

open Classical in
/-- lines 265-280 `grad_p_exact` -/
noncomputable def gradPExact (par : ℝ) (dim : Nat) (x _y _z : ℝ) : Res (List (Option ℝ)) :=
  if dim = 1 then
    .ok [if x ≤ 0 then some (x * 0) else
      quot ((x ^ (√13 / 2) - x ^ (1.5 + par)) * par) (x ^ (2.5 : ℝ) * (-1 + par * (3 + par)))]
  else .error .valueError

open Classical in
/-- lines 283-304 `laplacian_p_exact` -/
noncomputable def laplacianPExact (par : ℝ) (dim : Nat) (x _y _z : ℝ) : Res (List (Option ℝ)) :=
  if dim = 1 then
    .ok [if x ≤ 0 then some (x * 0) else
      quot (((-5 + √13) * x ^ (√13 / 2) - 2 * x ^ (1.5 + par) * (-1 + par)) * par)
        (2 * x ^ (3.5 : ℝ) * (-1 + par * (3 + par)))]
  else .error .valueError

/-- The body of the `try` of lines 309-324, at one point -/
noncomputable def evaluateAll (par mu : ℝ) (dim : Nat) (x y z : ℝ) : Res Unit := do
  let _ ← porosity par dim x y z
  let _ ← gradPorosity par dim x y z
  let _ ← dPhi par mu dim x y z
  let _ ← gradDPhi par mu dim x y z
  let _ ← kappa par dim x y z
  let _ ← uExact par dim x y z
  let _ ← pExact par dim x y z
  let _ ← vExact par mu dim x y z
  let _ ← qExact par dim x y z
  let _ ← rhs par dim x y z
  return ()

/-- `try: … except Exception: return False; return True` -/
def succeeds {α : Type} (r : Res α) : Bool :=
  match r with
  | .ok _ => true
  | .error _ => false

/-- lines 307-324 `test_degeneracy`, with the points it draws -/
noncomputable def testDegeneracy (par mu : ℝ) (dim : Nat) (points : List (ℝ × ℝ × ℝ)) : Bool :=
  succeeds (points.mapM fun p => evaluateAll par mu dim p.1 p.2.1 p.2.2)

/-- lines 326-336 `test_degeneracy_md`: the result of the call of `test_degeneracy` is dropped. -/
noncomputable def testDegeneracyMd (par mu : ℝ) (dim : Nat) (first points : List (ℝ × ℝ × ℝ)) : Bool :=
  let _ := testDegeneracy par mu dim first
  succeeds (points.mapM fun p => do
    let _ ← gradPExact par dim p.1 p.2.1 p.2.2
    let _ ← laplacianPExact par dim p.1 p.2.1 p.2.2
    return ())

end Verif.Strong.Arbogast
