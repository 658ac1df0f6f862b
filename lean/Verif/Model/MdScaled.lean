/-
Model of examples/md_degenerate_elliptic_scalar/exact_functions.py: the exact solution of the scaled mixed problem in a
square with a fracture, with a positive porosity.

* Conventions of `Verif.Model.MdLift`. `none` stands for values that are not finite numbers: numpy does not raise there.
* Each function is given by its two branches; the functions without a branch (`q_exact`, `v_exact`) call others that
  have one. The leading axes of length one of the results are dropped.
-/
import Verif.Model.MdLift

namespace Verif.Strong.MdScaled
open Real MdLift
open Arbogast (quot root succeeds)

variable (m : Material) (x y z : ℝ)

/-- lines 154-155 -/
noncomputable def porosity1 : ℝ := m.rho1 * 1 + m.rho2 * x ^ 2

/-- lines 150-153 -/
noncomputable def porosity0 : ℝ := (m.rho1 * 1 + m.rho2 * x ^ 2) * phiYs m x y z

/-- lines 147-158 -/
noncomputable def porosity (co : Int) : Res ℝ := onCo co (porosity0 m x y z) (porosity1 m x)

/-- lines 163-170 -/
noncomputable def gradPorosity0 : ℝ × ℝ × ℝ :=
  (2 * x * m.rho2 * phiYs m x y z, porosity1 m x * phiDys m x y z, z * 0)

/-- lines 171-172 -/
noncomputable def gradPorosity1 : ℝ × ℝ × ℝ := (2 * x * m.rho2, y * 0, z * 0)

/-- lines 161-175 -/
noncomputable def gradPorosity (co : Int) : Res (ℝ × ℝ × ℝ) := onCo co (gradPorosity0 m x y z) (gradPorosity1 m x y z)

/-- lines 179-181 -/
noncomputable def kappa0 : ℝ := m.kappa0 * porosity0 m x y z ^ 2

/-- lines 182-184 -/
noncomputable def kappa1 : ℝ := m.kappa1 * porosity1 m x ^ 2

/-- lines 178-187 -/
noncomputable def kappa (co : Int) : Res ℝ := onCo co (kappa0 m x y z) (kappa1 m x)

/-- lines 192-193 -/
noncomputable def dPhi0 : Option ℝ := (quot (kappa0 m x y z) m.mu).bind root

/-- lines 194-196 -/
noncomputable def dPhi1 : Option ℝ := (quot (m.delta * kappa1 m x) m.mu).bind root

/-- lines 190-200 -/
noncomputable def dPhi (co : Int) : Res (Option ℝ) := onCo co (dPhi0 m x y z) (dPhi1 m x)

/-- `scalar_part * vector_part` -/
def scale (s : ℝ) (v : ℝ × ℝ × ℝ) : ℝ × ℝ × ℝ := (s * v.1, s * v.2.1, s * v.2.2)

/-- lines 205-212 -/
noncomputable def gradDPhi0 : Option (ℝ × ℝ × ℝ) := do
  let d ← dPhi0 m x y z
  let s ← quot (m.kappa0 * porosity0 m x y z) (m.mu * d)
  return scale s (gradPorosity0 m x y z)

/-- lines 213-222 -/
noncomputable def gradDPhi1 : Option (ℝ × ℝ × ℝ) := do
  let d ← dPhi1 m x
  let s ← quot (m.delta * m.kappa1 * porosity1 m x) (m.mu * d)
  return scale s (gradPorosity1 m x y z)

/-- lines 203-225 -/
noncomputable def gradDPhi (co : Int) : Res (Option (ℝ × ℝ × ℝ)) := onCo co (gradDPhi0 m x y z) (gradDPhi1 m x y z)

/-- lines 230-232 -/
noncomputable def pf : ℝ := 0.5 * (1 - x) * 0.5 * (1 + x) - x ^ 2 * sin (2 * π * x)

/-- lines 236-240 -/
noncomputable def dpf : ℝ :=
  0.25 * (-1 - x) + 0.25 * (1 - x) + -2 * π * x ^ 2 * cos (2 * π * x) + -2 * x * sin (2 * π * x)

/-- lines 244-249 -/
noncomputable def dpf2 : ℝ :=
  -0.5 * 1 + -8 * π * x * cos (2 * π * x) + -2 * sin (2 * π * x) + 4 * π ^ 2 * x ^ 2 * sin (2 * π * x)

/-- line 254 -/
noncomputable def p0 : ℝ := xs m x y z * ys m x y z * pf x

/-- lines 252-259 -/
noncomputable def pExact (co : Int) : Res (Option ℝ) := onCo co (some (p0 m x y z)) (some (pf x))

/-- lines 263-276 -/
noncomputable def u0 : Option (ℝ × ℝ) := do
  let d ← dPhi0 m x y z
  return (-d ^ 2 * (xs m x y z * ys m x y z * dpf x + dxs m x y z * ys m x y z * pf x),
    -d ^ 2 * (xs m x y z * dys m x y z * pf x))

/-- lines 277-280 -/
noncomputable def u1 : Option ℝ := do
  let d ← dPhi1 m x
  return -d ^ 2 * dpf x

/-- lines 262-283 -/
noncomputable def uExact (co : Int) : Res (Option (List ℝ)) :=
  onCo co ((u0 m x y z).map fun u => [u.1, u.2]) ((u1 m x).map fun u => [u])

/-- lines 286-290 -/
noncomputable def qExact (co : Int) : Res (Option ℝ) := do
  let phi ← porosity m x y z co
  let p ← pExact m x y z co
  return do
    let r ← root phi
    let p ← p
    return r * p

/-- lines 293-295 -/
noncomputable def vExact (co : Int) : Res (Option (List ℝ)) := do
  let d ← dPhi m x y z co
  let u ← uExact m x y z co
  return do
    let d ← d
    let r ← quot 1 d
    let u ← u
    return u.map (r * ·)

/-- lines 299-333 -/
noncomputable def rhs0 : Option ℝ := do
  let d ← dPhi0 m x y z
  let g ← gradDPhi0 m x y z
  let term1 := -d ^ 2 * (2 * ys m x y z * dpf x * dxs m x y z + xs m x y z * ys m x y z * dpf2 x +
    dxs2 m x y z * ys m x y z * pf x)
  let term2 := -d ^ 2 * xs m x y z * dys2 m x y z * pf x - 2 * pf x * xs m x y z * d * dys m x y z * g.2.1
  let term3 := -2 * d * (xs m x y z * ys m x y z * dpf x + dxs m x y z * ys m x y z * pf x) * g.1
  let divU := term1 + term2 + term3
  let val := divU + porosity0 m x y z * p0 m x y z
  let s ← root (porosity0 m x y z)
  let r ← quot 1 s
  return val * r

/-- lines 334-351 -/
noncomputable def rhs1 : Option ℝ := do
  let d ← dPhi1 m x
  let g ← gradDPhi1 m x y z
  let term1 := -2 * d * dpf x * g.1
  let term2 := -d ^ 2 * dpf2 x
  let divU := term1 + term2
  let val := divU + porosity1 m x * pf x
  let s ← root (porosity1 m x)
  let r ← quot 1 s
  let up ← u0 m x (1 / 10 ^ 13 * 1) z
  let un ← u0 m x (-1 / 10 ^ 13 * 1) z
  let unp := up.1 * 0 + up.2 * -1
  let unn := un.1 * 0 + un.2 * 1
  let e ← quot (unp + unn) s
  return val * r + e

/-- lines 298-355 -/
noncomputable def rhs (co : Int) : Res (Option ℝ) := onCo co (rhs0 m x y z) (rhs1 m x y z)

/-- lines 361-372, at one point -/
noncomputable def evaluateAll (co : Int) : Res Unit := do
  let _ ← porosity m x y z co
  let _ ← gradPorosity m x y z co
  let _ ← dPhi m x y z co
  let _ ← gradDPhi m x y z co
  let _ ← kappa m x y z co
  let _ ← uExact m x y z co
  let _ ← pExact m x y z co
  let _ ← vExact m x y z co
  let _ ← qExact m x y z co
  let _ ← rhs m x y z co
  return ()

/-- lines 358-377, with the points it draws -/
noncomputable def testEvaluation (co : Int) (points : List (ℝ × ℝ × ℝ)) : Bool :=
  succeeds (points.mapM fun p => evaluateAll m p.1 p.2.1 p.2.2 co)

/-- The functions in the dictionaries, called in a point -/
abbrev Function := ℝ → ℝ → ℝ → Res (Option (List ℝ))

/-- lines 380-395 and again 418-433 -/
noncomputable def exactFunctions (co : Int) (flux potential : String) : Res (Dict String Function) :=
  dictionary co [(flux, fun x y z => uExact m x y z co),
    (potential, fun x y z => (pExact m x y z co).map fun p => p.map fun p => [p])]

/-- lines 398-415 -/
noncomputable def scaledFunctions (co : Int) (flux potential : String) : Res (Dict String Function) :=
  dictionary co [(flux, fun x y z => vExact m x y z co),
    (potential, fun x y z => (qExact m x y z co).map fun q => q.map fun q => [q])]

/-- lines 436-463 -/
noncomputable def problemFunctions (co : Int) (rhsName porosityName dPhiName gradName : String) :
    Res (Dict String Function) :=
  dictionary co [(rhsName, fun x y z => (rhs m x y z co).map fun f => f.map fun f => [f]),
    (porosityName, fun x y z => (porosity m x y z co).map fun p => some [p]),
    (dPhiName, fun x y z => (dPhi m x y z co).map fun d => d.map fun d => [d]),
    (gradName, fun x y z => (gradDPhi m x y z co).map fun g => g.map fun g => [g.1, g.2.1, g.2.2])]

end Verif.Strong.MdScaled
