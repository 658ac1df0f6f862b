/-
Model of `LETaylorHoodWeakForm` (src/weak_forms/le_taylor_hood_weak_form.py:9-186), in exact
arithmetic.  `LETaylorHoodWeakFormBCDirichlet` (189-237) is, statement by statement, the form
`dirichlet` of Model/Elasticity.lean.

The conventions are those of Model/Elasticity.lean.  The pressure has one component and scalar basis
functions, and `alpha` has the length of the local system.  A point with `lambda + mu = 0` gives
infinite values in the code; here the quotient is arbitrary, and the theorems exclude such points.
-/
import Verif.Model.Elasticity

namespace Verif.TaylorHood
open Assembly L2Form Laplace Elasticity

section
variable {K X R : Type} [Field K] [CommRing R] [Algebra K R]

/-- le_taylor_hood_weak_form.py:70-135: `discrete_integrand` in the point `i`; `p` is the tabulation of
the pressure. -/
def integrand (u : PElem K X) (p : Tab K) (uComp : Nat) (mu lam : K) (alpha : Nat → R) (i : Nat) :
    Res (Vec R) := do
  let nU := u.tab.nPhi * uComp
  let nP := p.nPhi
  let psi : Arr K := ⟨p.nPhi, 1, fun a _ => p.val 0 i a 0⟩
  let g ← gradients u i
  if u.dim ≠ 2 then throw .assertionError
  let gu ← fieldGradient (nU + nP) 0 nU uComp 2 g alpha
  let ph ← fieldGradient (nU + nP) nU nP 1 1 psi alpha
  let s ← stress 2 mu lam gu
  let dev ← addIdentity s 2 (algebraMap K R (- (1 / 2)) * trace s)
  let t ← addIdentity dev 2 (ph.val 0 0)
  let e1 ← matmul (g.lift R) t.transpose
  let e2 ← matmul (psi.lift R) ph.transpose
  if e1.rows * e1.cols ≠ nU then throw .valueError
  pure ⟨nU + nP, fun a => if a < nU then e1.val (a / e1.cols) (a % e1.cols)
    else algebraMap K R (psi.val (a - nU) 0) * trace gu -
      algebraMap K R (1 / (lam + mu)) * e2.val (a - nU) 0⟩

/-- le_taylor_hood_weak_form.py:58-135: `el_form` -/
def form (u : PElem K X) (p : Tab K) (uComp : Nat) (rhs : X → Nat → Nat → K) (mu lam : X → Nat → K)
    (alpha : Nat → R) : Res (Vec R) := do
  let nU := u.tab.nPhi * uComp
  let nP := p.nPhi
  let r ← (List.range uComp).foldlM (fun (r : Vec R) c =>
    r.addAt (sliceIdx (nU + nP) c (c + nU) uComp) ⟨u.tab.nPhi, fun a => algebraMap K R
      (∑ i ∈ Finset.range u.nPts, u.det i * u.weights i * u.tab.val 0 i a 0 * rhs u.x c i)⟩)
    (Vec.zeros (nU + nP))
  (List.range u.nPts).foldlM (fun (r : Vec R) i => do
    let v ← integrand u p uComp (mu u.x i) (lam u.x i) alpha i
    Vec.addScaled r (algebraMap K R (u.det i * u.weights i)) v) r

/-- le_taylor_hood_weak_form.py:12-186 `evaluate_form` -/
def evaluateForm (space : Option (Dict String (FSpace (PElem K X)))) (functions : Option (Elasticity.Data K X))
    (iel : Nat) (alpha : Nat → K) : Res (Vec K × Mat K) :=
  match space, functions with
  | some spaces, some fs => do
    let us ← spaces.getItem "u"
    let ps ← spaces.getItem "p"
    let rhs ← entry fs.rhs
    let lam ← entry fs.lam
    let mu ← entry fs.mu
    let u ← getIdx us.elements iel
    let p ← getIdx ps.elements iel
    let r ← form u p.tab us.nComp rhs mu lam (adVar alpha)
    pure (valDer r)
  | _, _ => .error .valueError

end

end Verif.TaylorHood
