/-
Model of `LCEPrimalWeakForm` and `LCEPrimalWeakFormBCDirichlet`
(src/weak_forms/lce_primal_weak_form.py), in exact arithmetic.

The conventions are those of Model/Elasticity.lean.  The basis functions of both fields are scalar
(`tab.shape[3] = 1`).  The values `ux_h`, `uy_h`, `uz_h`, `uh`, which are never used, are left out:
their products have the shapes of the products for the gradients.
-/
import Verif.Model.Elasticity

namespace Verif.Cosserat
open Assembly L2Form Laplace Elasticity

/-- `self.functions`: `rhs(x)[c][i]` and the coefficients in the point `i`. -/
structure Data (K X : Type) where
  rhs : Option (X → Nat → Nat → K)
  lam : Option (X → Nat → K)
  mu : Option (X → Nat → K)
  kappa : Option (X → Nat → K)
  gamma : Option (X → Nat → K)

/-- The coefficients in one point. -/
structure Coeffs (K : Type) where
  mu : K
  kappa : K
  lam : K
  gamma : K

section
variable {K X R : Type} [Field K] [CommRing R] [Algebra K R]

/-- lce_primal_weak_form.py:95 and 161-167: `Theta_outer` for the rotations `th`. -/
def thetaOuter (m : Nat) (th : Nat → R) : Arr R :=
  if m = 2 then ⟨2, 2, fun k l => match k, l with
    | 0, 1 => -th 0
    | 1, 0 => th 0
    | _, _ => 0⟩
  else ⟨3, 3, fun k l => match k, l with
    | 0, 1 => -th 2
    | 0, 2 => th 1
    | 1, 0 => th 2
    | 1, 2 => -th 0
    | 2, 0 => -th 1
    | 2, 1 => th 0
    | _, _ => 0⟩

/-- `0.5 * (a - a.T)` of a square array -/
def skewPart (a : Arr R) : Arr R :=
  ⟨a.rows, a.cols, fun k l => algebraMap K R (1 / 2) * (a.val k l - a.val l k)⟩

/-- lce_primal_weak_form.py:98-105 (and 171-178): the stress of `eh`. -/
def stress (dim : Nat) (c : Coeffs K) (e : Arr R) : Res (Arr R) :=
  let s : Arr R := symmetricPart (K := K) e
  let w : Arr R := skewPart (K := K) e
  addIdentity ⟨e.rows, e.cols, fun k l =>
    algebraMap K R (2 * c.mu) * s.val k l + algebraMap K R (2 * c.kappa) * w.val k l⟩ dim
    (algebraMap K R c.lam * trace e)

/-- lce_primal_weak_form.py:107-108 and 180-189: `S_cross`. -/
def sCross (m : Nat) (s : Arr R) : Arr R :=
  let w : Arr R := skewPart (K := K) s
  if m = 2 then ⟨1, 1, fun _ _ => w.val 1 0 - w.val 0 1⟩
  else ⟨1, 3, fun _ c => match c with
    | 0 => w.val 2 1 - w.val 1 2
    | 1 => w.val 0 2 - w.val 2 0
    | _ => w.val 1 0 - w.val 0 1⟩

/-- `a + b` of equal shapes -/
def add (a b : Arr R) : Res (Arr R) :=
  if a.rows ≠ b.rows ∨ a.cols ≠ b.cols then .error .valueError
  else .ok ⟨a.rows, a.cols, fun i j => a.val i j + b.val i j⟩

/-- lce_primal_weak_form.py:70-202: `discrete_integrand` in the point `i`; `t` is the tabulation of
the rotations. -/
def integrand (u : PElem K X) (t : Tab K) (uComp tComp : Nat) (c : Coeffs K) (alpha : Nat → R)
    (i : Nat) : Res (Vec R) := do
  let nU := u.tab.nPhi * uComp
  let nT := t.nPhi * tComp
  let m := if u.dim = 2 then 2 else 3
  let d := if u.dim = 2 then 1 else 3
  let psi : Arr K := ⟨t.nPhi, 1, fun a _ => t.val 0 i a 0⟩
  let gU ← gradients u i
  let gT ← gradients { u with tab := t } i
  let gu ← fieldGradient (nU + nT) 0 nU uComp m gU alpha
  let gt ← fieldGradient (nU + nT) nU nT tComp d gT alpha
  let th ← fieldGradient (nU + nT) nU nT tComp d psi alpha
  let e ← add gu (thetaOuter m fun k => th.val k 0)
  let s ← stress u.dim c e
  let k := gt.scale (algebraMap K R c.gamma)
  let strain ← matmul (gU.lift R) s.transpose
  if strain.rows * strain.cols ≠ nU then throw .valueError
  let c1 ← matmul (gT.lift R) k.transpose
  let c2 ← matmul (psi.lift R) (sCross (K := K) m s)
  let curvature ← add c1 c2
  if curvature.rows * curvature.cols ≠ nT then throw .valueError
  pure ⟨nU + nT, fun p => if p < nU then strain.val (p / strain.cols) (p % strain.cols)
    else curvature.val ((p - nU) / curvature.cols) ((p - nU) % curvature.cols)⟩

/-- lce_primal_weak_form.py:52-203: `el_form` -/
def form (u : PElem K X) (t : Tab K) (uComp tComp : Nat) (rhs : X → Nat → Nat → K)
    (c : X → Nat → Coeffs K) (alpha : Nat → R) : Res (Vec R) := do
  let nU := u.tab.nPhi * uComp
  let nT := t.nPhi * tComp
  let r ← (List.range uComp).foldlM (fun (r : Vec R) c =>
    r.addAt (sliceIdx (nU + nT) c (c + nU) uComp) ⟨u.tab.nPhi, fun a => algebraMap K R
      (∑ i ∈ Finset.range u.nPts, u.det i * u.weights i * u.tab.val 0 i a 0 * rhs u.x c i)⟩)
    (Vec.zeros (nU + nT))
  let r ← (List.range tComp).foldlM (fun (r : Vec R) c =>
    r.addAt (sliceIdx (nU + nT) (c + nU) (c + nU + nT) tComp) ⟨t.nPhi, fun a => algebraMap K R
      (∑ i ∈ Finset.range u.nPts, u.det i * u.weights i * t.val 0 i a 0 * rhs u.x (c + uComp) i)⟩) r
  (List.range u.nPts).foldlM (fun (r : Vec R) i => do
    let v ← integrand u t uComp tComp (c u.x i) alpha i
    Vec.addScaled r (algebraMap K R (u.det i * u.weights i)) v) r

/-- lce_primal_weak_form.py:10-207 `evaluate_form` -/
def evaluateForm (space : Option (Dict String (FSpace (PElem K X)))) (functions : Option (Data K X))
    (iel : Nat) (alpha : Nat → K) : Res (Vec K × Mat K) :=
  match space, functions with
  | some spaces, some fs => do
    let us ← spaces.getItem "u"
    let ts ← spaces.getItem "t"
    let rhs ← entry fs.rhs
    let lam ← entry fs.lam
    let mu ← entry fs.mu
    let kappa ← entry fs.kappa
    let gamma ← entry fs.gamma
    let u ← getIdx us.elements iel
    let t ← getIdx ts.elements iel
    let r ← form u t.tab us.nComp ts.nComp rhs
      (fun x i => ⟨mu x i, kappa x i, lam x i, gamma x i⟩) (adVar alpha)
    pure (valDer r)
  | _, _ => .error .valueError

/-- One of the loops over components of lce_primal_weak_form.py:259-295: blocks of the field that
starts at `b`. -/
def fieldBlocks (total b nPhi comps : Nat) (res : Nat → Nat → K) (jac : Nat → Nat → K)
    (st : Vec K × Mat K) : Res (Vec K × Mat K) :=
  (List.range comps).foldlM (fun (st : Vec K × Mat K) c => do
    let idx := sliceIdx total (c + b) (c + b + nPhi * comps) comps
    let r ← st.1.addAt idx ⟨nPhi, res c⟩
    let j ← addBlock st.2 idx ⟨nPhi, jac⟩
    pure (r, j)) st

/-- lce_primal_weak_form.py:210-297 `LCEPrimalWeakFormBCDirichlet.evaluate_form`; `u` and `t` are the
facet with the basis functions of the two fields, `uD i c` and `tD i c` the prescribed values. -/
def dirichlet (u t : Facet K) (uComp tComp : Nat) (uD tD : Nat → Nat → K) : Res (Vec K × Mat K) := do
  let nU := u.nPhi * uComp
  let n := nU + t.nPhi * tComp
  let st ← fieldBlocks n 0 u.nPhi uComp
    (fun c a => ∑ i ∈ Finset.range u.nPts, - (penalty K * u.det i * u.weights i * uD i c * u.phi i a))
    (fun a b => ∑ i ∈ Finset.range u.nPts,
      penalty K * u.det i * u.weights i * (u.phi i a * u.phi i b)) (Vec.zeros n, zeros2 n)
  fieldBlocks n nU t.nPhi tComp
    (fun c a => ∑ i ∈ Finset.range u.nPts, - (penalty K * u.det i * u.weights i * tD i c * t.phi i a))
    (fun a b => ∑ i ∈ Finset.range u.nPts,
      penalty K * u.det i * u.weights i * (t.phi i a * t.phi i b)) st

end

end Verif.Cosserat
