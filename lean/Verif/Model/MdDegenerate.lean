/-
Model of examples/md_degenerate_elliptic_scalar/degenerate_exact_functions.py: the exact solution of the scaled mixed
problem in a square with a fracture, with a porosity that vanishes in the left half.

* Conventions of `Verif.Model.MdLift` and `Verif.Model.MdScaled`; a mask is a condition on the point, and what is computed
  outside of the mask is computed for a point outside of it.
* Powers are taken of positive numbers only.
-/
import Verif.Model.MdScaled

namespace Verif.Strong.MdDegenerate
open Real MdLift
open Arbogast (quot root succeeds)
open MdScaled (scale Function)

variable (m : Material) (x y z : ℝ)

/-- lines 147-149 `x_mask`: `np.isclose(x, 0.0)` is `|x| ≤ 1e-8`. -/
def Masked : Prop := x < 0 ∨ |x| ≤ 1 / 10 ^ 8

open Classical in
/-- lines 159-161 -/
noncomputable def porosity1 : ℝ := if Masked x then 0 else x ^ 2

open Classical in
/-- lines 154-158 -/
noncomputable def porosity0 : ℝ := if Masked x then 0 else x ^ 2 * phiYs m x y z

/-- lines 152-164 -/
noncomputable def porosity (co : Int) : Res ℝ := onCo co (porosity0 m x y z) (porosity1 x)

open Classical in
/-- lines 169-178 -/
noncomputable def gradPorosity0 : ℝ × ℝ × ℝ :=
  if Masked x then (0, 0, 0) else (2 * x * phiYs m x y z, porosity1 x * phiDys m x y z, z * 0)

open Classical in
/-- lines 179-181 -/
noncomputable def gradPorosity1 : ℝ × ℝ × ℝ := if Masked x then (0, 0, 0) else (2 * x, y * 0, z * 0)

/-- lines 167-184 -/
noncomputable def gradPorosity (co : Int) : Res (ℝ × ℝ × ℝ) := onCo co (gradPorosity0 m x y z) (gradPorosity1 x y z)

/-- lines 188-190 -/
noncomputable def kappa0 : ℝ := m.kappa0 * porosity0 m x y z ^ 2

/-- lines 191-193 -/
noncomputable def kappa1 : ℝ := m.kappa1 * porosity1 x ^ 2

/-- lines 187-196 -/
noncomputable def kappa (co : Int) : Res ℝ := onCo co (kappa0 m x y z) (kappa1 m x)

/-- lines 201-202 -/
noncomputable def dPhi0 : Option ℝ := (quot (kappa0 m x y z) m.mu).bind root

/-- lines 203-205 -/
noncomputable def dPhi1 : Option ℝ := (quot (m.delta * kappa1 m x) m.mu).bind root

/-- lines 199-209 -/
noncomputable def dPhi (co : Int) : Res (Option ℝ) := onCo co (dPhi0 m x y z) (dPhi1 m x)

open Classical in
/-- lines 214-223 -/
noncomputable def gradDPhi0 : Option (ℝ × ℝ × ℝ) := do
  let s ← if Masked x then some 0 else do
    let d ← dPhi0 m x y z
    quot (m.kappa0 * porosity0 m x y z) (m.mu * d)
  return scale s (gradPorosity0 m x y z)

open Classical in
/-- lines 224-235 -/
noncomputable def gradDPhi1 : Option (ℝ × ℝ × ℝ) := do
  let s ← if Masked x then some 0 else do
    let d ← dPhi1 m x
    quot (m.delta * m.kappa1 * porosity1 x) (m.mu * d)
  return scale s (gradPorosity1 x y z)

/-- lines 212-238 -/
noncomputable def gradDPhi (co : Int) : Res (Option (ℝ × ℝ × ℝ)) := onCo co (gradDPhi0 m x y z) (gradDPhi1 m x y z)

open Classical in
/-- lines 243-261 -/
noncomputable def pf : Option ℝ :=
  if Masked x then some 0 else
    quot (-x ^ m.beta + 0.5 * (3 + √13) * x ^ (0.5 * (-3 + √13)) * m.beta) (-1 + m.beta * (3 + m.beta))

open Classical in
/-- lines 265-280 -/
noncomputable def dpf : Option ℝ :=
  if Masked x then some 0 else
    quot ((x ^ (√13 / 2) - x ^ (1.5 + m.beta)) * m.beta) (x ^ (2.5 : ℝ) * (-1 + m.beta * (3 + m.beta)))

open Classical in
/-- lines 284-302 -/
noncomputable def dpf2 : Option ℝ :=
  if Masked x then some 0 else
    quot (((-5 + √13) * x ^ (√13 / 2) - 2 * x ^ (1.5 + m.beta) * (-1 + m.beta)) * m.beta)
      (2 * x ^ (3.5 : ℝ) * (-1 + m.beta * (3 + m.beta)))

/-- line 307 -/
noncomputable def p0 : Option ℝ := do
  let p ← pf m x
  return xs m x y z * ys m x y z * p

/-- lines 305-312 -/
noncomputable def pExact (co : Int) : Res (Option ℝ) := onCo co (p0 m x y z) (pf m x)

/-- lines 316-329 -/
noncomputable def u0 : Option (ℝ × ℝ) := do
  let d ← dPhi0 m x y z
  let p ← pf m x
  let dp ← dpf m x
  return (-d ^ 2 * (xs m x y z * ys m x y z * dp + dxs m x y z * ys m x y z * p),
    -d ^ 2 * (xs m x y z * dys m x y z * p))

/-- lines 330-333 -/
noncomputable def u1 : Option ℝ := do
  let d ← dPhi1 m x
  let dp ← dpf m x
  return -d ^ 2 * dp

/-- lines 315-336 -/
noncomputable def uExact (co : Int) : Res (Option (List ℝ)) :=
  onCo co ((u0 m x y z).map fun u => [u.1, u.2]) ((u1 m x).map fun u => [u])

/-- lines 339-343 -/
noncomputable def qExact (co : Int) : Res (Option ℝ) := do
  let phi ← porosity m x y z co
  let p ← pExact m x y z co
  return do
    let r ← root phi
    let p ← p
    return r * p

open Classical in
/-- lines 346-361 -/
noncomputable def vExact (co : Int) : Res (Option (List ℝ)) := do
  let u ← uExact m x y z co
  if Masked x then
    return u.map fun u => u.map fun _ => 0
  else
    let d ← dPhi m x y z co
    return do
      let d ← d
      let r ← quot 1 d
      let u ← u
      return u.map (r * ·)

open Classical in
/-- lines 366-402 -/
noncomputable def rhs0 : Option ℝ := do
  let d ← dPhi0 m x y z
  let g ← gradDPhi0 m x y z
  let pf ← pf m x
  let dpf ← dpf m x
  let dpf2 ← dpf2 m x
  let term1 := -d ^ 2 * (2 * ys m x y z * dpf * dxs m x y z + xs m x y z * ys m x y z * dpf2 +
    dxs2 m x y z * ys m x y z * pf)
  let term2 := -d ^ 2 * xs m x y z * dys2 m x y z * pf - 2 * pf * xs m x y z * d * dys m x y z * g.2.1
  let term3 := -2 * d * (xs m x y z * ys m x y z * dpf + dxs m x y z * ys m x y z * pf) * g.1
  let divU := term1 + term2 + term3
  let p ← p0 m x y z
  let val := divU + porosity0 m x y z * p
  if Masked x then return val
  else
    let s ← root (porosity0 m x y z)
    let r ← quot 1 s
    return val * r

open Classical in
/-- lines 403-443 -/
noncomputable def rhs1 : Option ℝ := do
  let d ← dPhi1 m x
  let g ← gradDPhi1 m x y z
  let pf ← pf m x
  let dpf ← dpf m x
  let dpf2 ← dpf2 m x
  let term1 := -2 * d * dpf * g.1
  let term2 := -d ^ 2 * dpf2
  let divU := term1 + term2
  let val := divU + porosity1 x * pf
  if Masked x then return val
  else
    let s ← root (porosity1 x)
    let r ← quot 1 s
    let up ← u0 m x (1 / 10 ^ 13 * 1) z
    let un ← u0 m x (-1 / 10 ^ 13 * 1) z
    let unp := up.1 * 0 + up.2 * -1
    let unn := un.1 * 0 + un.2 * 1
    let e ← quot (unp + unn) s
    return val * r + e

/-- lines 364-446 -/
noncomputable def rhs (co : Int) : Res (Option ℝ) := onCo co (rhs0 m x y z) (rhs1 m x y z)

/-- lines 452-463, at one point -/
noncomputable def evaluateAll (co : Int) : Res Unit := do
  let _ ← porosity m x y z co
  let _ ← gradPorosity m x y z co
  let _ ← dPhi m x y z co
  let _ ← gradDPhi m x y z co
  let _ ← kappa m x y z co
  let _ ← uExact m x y z co
  let _ ← pExact m x y z co
  let _ ← vExact m x y z co
  let _ ← qExact m x y z co
  let _ ← rhs m x y z co
  return ()

/-- lines 449-468, with the points it draws -/
noncomputable def testEvaluation (co : Int) (points : List (ℝ × ℝ × ℝ)) : Bool :=
  succeeds (points.mapM fun p => evaluateAll m p.1 p.2.1 p.2.2 co)

/-- lines 471-486 and again 509-524 -/
noncomputable def exactFunctions (co : Int) (flux potential : String) : Res (Dict String Function) :=
  dictionary co [(flux, fun x y z => uExact m x y z co),
    (potential, fun x y z => (pExact m x y z co).map fun p => p.map fun p => [p])]

/-- lines 489-506 -/
noncomputable def scaledFunctions (co : Int) (flux potential : String) : Res (Dict String Function) :=
  dictionary co [(flux, fun x y z => vExact m x y z co),
    (potential, fun x y z => (qExact m x y z co).map fun q => q.map fun q => [q])]

/-- lines 527-554 -/
noncomputable def problemFunctions (co : Int) (rhsName porosityName dPhiName gradName : String) :
    Res (Dict String Function) :=
  dictionary co [(rhsName, fun x y z => (rhs m x y z co).map fun f => f.map fun f => [f]),
    (porosityName, fun x y z => (porosity m x y z co).map fun p => some [p]),
    (dPhiName, fun x y z => (dPhi m x y z co).map fun d => d.map fun d => [d]),
    (gradName, fun x y z => (gradDPhi m x y z co).map fun g => g.map fun g => [g.1, g.2.1, g.2.2])]

end Verif.Strong.MdDegenerate
