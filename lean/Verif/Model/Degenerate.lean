/-
Model of the forms for degenerate elliptic problems, in exact arithmetic:
`DegenerateEllipticWeakForm` with its boundary term (src/weak_forms/degenerate_elliptic_weak_form.py),
`UnscaledEllipticWeakForm` (src/weak_forms/unscaled_elliptic_weak_form.py; its boundary term is
`mixedBoundary` of Model/Laplace.lean) and `ScaledToPhysicalL2Projection`
(src/weak_forms/scaled_to_physical_l2_projection.py).

The conventions are those of Model/Laplace.lean.  The square root is a parameter `root`.  The gradient
of `d_phi` has a component in every direction of the cell.  `alpha` and `alpha_scaled` have the length
of the local system.
-/
import Verif.Model.Cosserat
import Mathlib.Algebra.Order.AbsoluteValue.Basic

namespace Verif.Degenerate
open Assembly L2Form Laplace

/-- `self.functions`: `rhs(x)[c][i]`, `porosity(x)[i]`, `d_phi(x)[i]`, `grad_d_phi(x)[d, i]`. -/
structure Data (K X : Type) where
  rhs : Option (X → Nat → Nat → K)
  porosity : Option (X → Nat → K)
  dPhi : Option (X → Nat → K)
  gradDPhi : Option (X → Nat → Nat → K)

section
variable {K X R : Type} [Field K] [LinearOrder K] [CommRing R] [Algebra K R]

/-- `np.isclose(x, 0.0)` -/
def vanishing (x : K) : Bool := |x| ≤ 1 / 10 ^ 8

/-- degenerate_elliptic_weak_form.py:112-130: `div_phi_h_s` in the point `i`. -/
def scaledDivergence (root : K → K) (t : Tab K) (dim i : Nat) (det phi delta : K) (grad : Nat → K) :
    Res (Arr K) :=
  if 0 < t.nPhi ∧ t.nVal < dim then .error .valueError
  else .ok ⟨1, t.nPhi, fun _ a =>
    if !vanishing phi ∧ 0 < phi then
      (delta * (t.divergence dim i det).val 0 a +
        ∑ d ∈ Finset.range dim, grad d * t.val 0 i a d) / root phi
    else 0⟩

/-- degenerate_elliptic_weak_form.py:109-110, 131-139 and unscaled_elliptic_weak_form.py:127-128,
141-148: the integrand, from the values `psi`, `w` of the basis functions, the row `div` of
divergences, and the coefficients `mass` of the flux and `comp` of the pressure. -/
def integrand (psi w div : Arr K) (nV nQ : Nat) (mass comp : K) (alpha : Nat → R) : Res (Vec R) := do
  let vh ← matmul (rowOf alpha 0 nV) (psi.lift R)
  let qh ← matmul (rowOf alpha nV nQ) (w.lift R)
  let dv ← matmul (rowOf alpha 0 nV) (div.lift R).transpose
  let e ← matmul (vh.scale (algebraMap K R mass)) (psi.lift R).transpose
  let e' ← matmul qh (div.lift R)
  let equ1 ← e.sub e'
  let f ← matmul dv (w.lift R).transpose
  let f' ← matmul (qh.scale (algebraMap K R comp)) (w.lift R).transpose
  let equ2 ← Cosserat.add f f'
  if equ1.cols ≠ nV ∨ equ2.cols ≠ nQ then .error .valueError
  else .ok ⟨nV + nQ, fun a => if a < nV then equ1.val 0 a else equ2.val 0 (a - nV)⟩

/-- degenerate_elliptic_weak_form.py:92-140: `el_form` -/
def form (root : K → K) (v : Elem K X) (q : Tab K) (vComp qComp : Nat) (rhs : X → Nat → Nat → K)
    (phi delta : X → Nat → K) (grad : X → Nat → Nat → K) (alpha : Nat → R) : Res (Vec R) := do
  let nV := v.tab.nPhi * vComp
  let nQ := q.nPhi * qComp
  let r ← (List.range qComp).foldlM (fun (r : Vec R) c =>
    r.subAt (sliceIdx (nV + nQ) (c + nV) (c + nV + nQ) qComp) ⟨q.nPhi, fun a => algebraMap K R
      (∑ i ∈ Finset.range v.nPts, v.det i * v.weights i * q.val 0 i a 0 * rhs v.x c i)⟩)
    (Vec.zeros (nV + nQ))
  (List.range v.nPts).foldlM (fun (r : Vec R) i => do
    let div ← scaledDivergence root v.tab v.dim i (v.det i) (phi v.x i) (delta v.x i)
      (fun d => grad v.x d i)
    let w ← integrand (v.tab.values v.dim i) (q.values v.dim i) div nV nQ 1 1 alpha
    Vec.addScaled r (algebraMap K R (v.det i * v.weights i)) w) r

/-- degenerate_elliptic_weak_form.py:42-144 `evaluate_form` -/
def evaluateForm (root : K → K) (space : Option (Dict String (FSpace (Elem K X))))
    (functions : Option (Data K X)) (iel : Nat) (alpha : Nat → K) : Res (Vec K × Mat K) :=
  match space, functions with
  | some spaces, some fs => do
    let vs ← spaces.getItem "v"
    let qs ← spaces.getItem "q"
    let rhs ← entry fs.rhs
    let phi ← entry fs.porosity
    let delta ← entry fs.dPhi
    let grad ← entry fs.gradDPhi
    let v ← getIdx vs.elements iel
    let q ← getIdx qs.elements iel
    let r ← form root v q.tab vs.nComp qs.nComp rhs phi delta grad (adVar alpha)
    pure (valDer r)
  | _, _ => .error .valueError

/-- degenerate_elliptic_weak_form.py:205-209: the boundary datum after the scaling, in a point with
the values `phi` and `delta`. -/
def boundaryDatum (root : K → K) (qD phi delta : K) : K :=
  if !vanishing phi ∧ 0 < phi then qD * (delta / root phi) else qD

/-- degenerate_elliptic_weak_form.py:196-215: the boundary term; see `mixedBoundary`. -/
def boundary (root : K → K) (nPts nPhi comps dim : Nat) (weights det : Nat → K) (trace : Tab K)
    (dofs : List Nat) (normal : Nat → K) (qD : Nat → Nat → K) (phi delta : Nat → K) :
    Res (Vec K × Mat K) :=
  mixedBoundary nPts nPhi comps dim weights det trace dofs normal
    (fun i c => boundaryDatum root (qD i c) (phi i) (delta i))

/-- unscaled_elliptic_weak_form.py:52-57: the setter of `phi_threshold` -/
def setThreshold (value : K) : Res K := if value ≤ 0 then .error .valueError else .ok value

/-- unscaled_elliptic_weak_form.py:135-139 -/
def clamp (threshold x : K) : K := if vanishing x ∨ x < 0 then threshold else x

/-- unscaled_elliptic_weak_form.py:111-149: `el_form`.  For a negative porosity `root` is arbitrary, see
`evaluateUnscaled`. -/
def unscaledForm (root : K → K) (threshold : K) (u : Elem K X) (p : Tab K) (uComp pComp : Nat)
    (rhs : X → Nat → Nat → K) (phi delta : X → Nat → K) (alpha : Nat → R) : Res (Vec R) := do
  let nU := u.tab.nPhi * uComp
  let nP := p.nPhi * pComp
  let r ← (List.range pComp).foldlM (fun (r : Vec R) c =>
    r.subAt (sliceIdx (nU + nP) (c + nU) (c + nU + nP) pComp) ⟨p.nPhi, fun a => algebraMap K R
      (∑ i ∈ Finset.range u.nPts,
        root (phi u.x i) * (u.det i * u.weights i * p.val 0 i a 0) * rhs u.x c i)⟩)
    (Vec.zeros (nU + nP))
  (List.range u.nPts).foldlM (fun (r : Vec R) i => do
    let f := clamp threshold (phi u.x i)
    let d := clamp threshold (delta u.x i)
    let w ← integrand (u.tab.values u.dim i) (p.values u.dim i)
      (u.tab.divergence u.dim i (u.det i)) nU nP (1 / (d * d)) f alpha
    Vec.addScaled r (algebraMap K R (u.det i * u.weights i)) w) r

/-- The residual of `evaluateUnscaled`: the square root of a negative porosity is `nan` (`none`), and
so is every entry of the load, a sum over all points. -/
def withNan (u : Elem K X) (uComp : Nat) (phi : X → Nat → K) (r : Vec K) : Vec (Option K) :=
  ⟨r.n, fun a => if u.tab.nPhi * uComp ≤ a ∧ (List.range u.nPts).any (fun i => phi u.x i < 0) then none
    else some (r.val a)⟩

/-- unscaled_elliptic_weak_form.py:59-153 `evaluate_form` -/
def evaluateUnscaled (root : K → K) (threshold : K) (space : Option (Dict String (FSpace (Elem K X))))
    (functions : Option (Data K X)) (iel : Nat) (alpha : Nat → K) :
    Res (Vec (Option K) × Mat K) :=
  match space, functions with
  | some spaces, some fs => do
    let us ← spaces.getItem "u"
    let ps ← spaces.getItem "p"
    let rhs ← entry fs.rhs
    let phi ← entry fs.porosity
    let delta ← entry fs.dPhi
    let _ ← entry fs.gradDPhi
    let u ← getIdx us.elements iel
    let p ← getIdx ps.elements iel
    let r ← unscaledForm root threshold u p.tab us.nComp ps.nComp rhs phi delta (adVar alpha)
    pure (withNan u us.nComp phi (valDer r).1, (valDer r).2)
  | _, _ => .error .valueError

/-- scaled_to_physical_l2_projection.py:81-100: `discrete_integrand` in a point with the values `phi`
and `delta`. -/
def projectionIntegrand (root : K → K) (psi w : Arr K) (nV nQ : Nat) (phi delta : K)
    (scaled : Nat → K) (alpha : Nat → R) : Res (Vec R) := do
  let uh ← matmul (rowOf alpha 0 nV) (psi.lift R)
  let vh ← matmul (rowOf scaled 0 nV) psi
  let ph ← matmul (rowOf alpha nV nQ) (w.lift R)
  let qh ← matmul (rowOf scaled nV nQ) w
  let vh := if 0 < phi then vh.scale delta else vh
  let qh := if 0 < phi then qh.scale (1 / root phi) else qh
  let d ← uh.sub (vh.lift R)
  let equ1 ← matmul d (psi.lift R).transpose
  let d' ← ph.sub (qh.lift R)
  let equ2 ← matmul d' (w.lift R).transpose
  if equ1.cols ≠ nV ∨ equ2.cols ≠ nQ then .error .valueError
  else .ok ⟨nV + nQ, fun a => if a < nV then equ1.val 0 a else equ2.val 0 (a - nV)⟩

/-- scaled_to_physical_l2_projection.py:71-101: `el_form` -/
def projectionForm (root : K → K) (v : Elem K X) (q : Tab K) (vComp qComp : Nat)
    (phi delta : X → Nat → K) (scaled : Nat → K) (alpha : Nat → R) : Res (Vec R) :=
  let nV := v.tab.nPhi * vComp
  let nQ := q.nPhi * qComp
  (List.range v.nPts).foldlM (fun (r : Vec R) i => do
    let w ← projectionIntegrand root (v.tab.values v.dim i) (q.values v.dim i) nV nQ (phi v.x i)
      (delta v.x i) scaled alpha
    Vec.addScaled r (algebraMap K R (v.det i * v.weights i)) w) (Vec.zeros (nV + nQ))

/-- scaled_to_physical_l2_projection.py:28-105 `evaluate_form` -/
def evaluateProjection (root : K → K) (space : Option (Dict String (FSpace (Elem K X))))
    (functions : Option (Data K X)) (iel : Nat) (alpha scaled : Nat → K) : Res (Vec K × Mat K) :=
  match space, functions with
  | some spaces, some fs => do
    let vs ← spaces.getItem "v"
    let qs ← spaces.getItem "q"
    let phi ← entry fs.porosity
    let delta ← entry fs.dPhi
    let v ← getIdx vs.elements iel
    let q ← getIdx qs.elements iel
    let r ← projectionForm root v q.tab vs.nComp qs.nComp phi delta scaled (adVar alpha)
    pure (valDer r)
  | _, _ => .error .valueError

end

end Verif.Degenerate
