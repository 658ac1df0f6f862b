/-
Model of the dual forms of elasticity without couples, in exact arithmetic: `LEDualWeakForm`
(src/weak_forms/le_dual_weak_form.py:12-511) and `LERieszMapWeakForm`
(src/weak_forms/le_riesz_map_weak_form.py:9-353).

The conventions are those of Model/Dual.lean.  The spaces are written as those of Cosserat elasticity
with a couple stress that has no basis functions, so that it takes no degrees of freedom.  Of
`evaluate_form` everything after the quadrature is a parameter.
-/
import Verif.Model.Dual

namespace Verif.Dual
open Assembly L2Form Laplace Elasticity

/-- `self.functions` -/
structure LeData (K X : Type) where
  rhs : Option (X → Nat → Nat → K)
  lam : Option (X → Nat → K)
  mu : Option (X → Nat → K)

section
variable {K X : Type} [Field K]

/-- A tabulation of no functions. -/
def noFunctions (dim : Nat) : Tab K := ⟨dim, 0, dim, fun _ _ _ _ => 0⟩

/-- le_dual_weak_form.py:359-381 -/
def readLeSpaces (spaces : Dict String (FSpace (Elem K X))) (iel : Nat) : Res (Spaces K X) := do
  let ss ← spaces.getItem "s"
  let us ← spaces.getItem "u"
  let ts ← spaces.getItem "t"
  let s ← getIdx ss.elements iel
  let u ← getIdx us.elements iel
  let t ← getIdx ts.elements iel
  pure ⟨s, noFunctions s.dim, u.tab, t.tab, ss.nComp, if s.dim = 2 then 1 else 3, us.nComp, ts.nComp⟩

/-- le_dual_weak_form.py:429-446: the block of the stress -/
def leMass (sp : Spaces K X) (lam mu : Nat → K) (j : Mat K) : Res (Mat K) := do
  let dim := sp.s.dim
  let cols := min dim sp.s.tab.nVal
  let j ← diagonalBlocks sp.total 0 sp.s.tab.nPhi sp.sComp (fun a b => ∑ i ∈ Finset.range sp.s.nPts,
    (∑ k ∈ Finset.range cols, sp.s.tab.val 0 i b k * sp.s.tab.val 0 i a k) *
      (1 / (2 * mu i) * sp.s.det i * sp.s.weights i)) j
  let idx := sliceIdx sp.total 0 sp.nS 1
  addRect j idx idx (sp.s.tab.nPhi * cols) (sp.s.tab.nPhi * cols) fun r c =>
    ∑ i ∈ Finset.range sp.s.nPts,
      -1 * (sp.s.tab.val 0 i (c / cols) (c % cols) * sp.s.tab.val 0 i (r / cols) (r % cols)) *
        (1 / (2 * mu i) * (lam i / (2 * mu i + (dim : K) * lam i)) * sp.s.det i * sp.s.weights i)

/-- le_dual_weak_form.py:399-511 -/
def leVectorized (sp : Spaces K X) (rhs : X → Nat → Nat → K) (lam mu : X → Nat → K) :
    Res (Vec K × Mat K) := do
  let dim := sp.s.dim
  let r ← loads sp rhs
  let j ← leMass sp (lam sp.s.x) (mu sp.s.x) (zeros2 sp.total)
  let j ← rotationBlocks sp.total dim (sp.nS + sp.nM + sp.nU) sp.t.nPhi sp.tComp sp.s.tab.nPhi
    sp.sComp (fun d a b => ∑ i ∈ Finset.range sp.s.nPts,
      sp.t.val 0 i a 0 * sp.s.tab.val 0 i b d * (sp.s.det i * sp.s.weights i)) j
  let j ← couplingBlocks sp.total (sp.nS + sp.nM) sp.u.nPhi sp.uComp 0 sp.s.tab.nPhi sp.sComp
    (fun a b => ∑ i ∈ Finset.range sp.s.nPts,
      sp.s.weights i * sp.u.val 0 i a 0 * traceGrad sp.s.tab dim i b) j
  pure (r, j)

/-- le_riesz_map_weak_form.py:299-353 -/
def leRieszVectorized (sp : Spaces K X) (lam mu : X → Nat → K) : Res (Vec K × Mat K) := do
  let dim := sp.s.dim
  let w := fun i => sp.s.det i * sp.s.weights i
  let j ← leMass sp (lam sp.s.x) (mu sp.s.x) (zeros2 sp.total)
  let j ← diagonalBlocks sp.total 0 sp.s.tab.nPhi sp.sComp (fun a b => ∑ i ∈ Finset.range sp.s.nPts,
    traceGrad sp.s.tab dim i b * (1 / sp.s.det i) * (traceGrad sp.s.tab dim i a * (1 / sp.s.det i)) *
      w i) j
  let j ← diagonalBlocks sp.total (sp.nS + sp.nM) sp.u.nPhi sp.uComp
    (fun a b => ∑ i ∈ Finset.range sp.s.nPts, sp.u.val 0 i b 0 * sp.u.val 0 i a 0 * w i) j
  let j ← diagonalBlocks sp.total (sp.nS + sp.nM + sp.nU) sp.t.nPhi sp.tComp
    (fun a b => ∑ i ∈ Finset.range sp.s.nPts, sp.t.val 0 i b 0 * sp.t.val 0 i a 0 * w i) j
  pure (Vec.zeros sp.total, j)

/-- le_dual_weak_form.py:354-511 `evaluate_form_vectorized` -/
def evaluateLeVectorized (space : Option (Dict String (FSpace (Elem K X))))
    (functions : Option (LeData K X)) (iel : Nat) (_alpha : Nat → K) : Res (Vec K × Mat K) :=
  match space, functions with
  | some spaces, some fs => do
    let sp ← readLeSpaces spaces iel
    let rhs ← entry fs.rhs
    let lam ← entry fs.lam
    let mu ← entry fs.mu
    leVectorized sp rhs lam mu
  | _, _ => .error .valueError

/-- le_riesz_map_weak_form.py:258-353 `evaluate_form_vectorized`; the right hand side is read. -/
def evaluateLeRieszVectorized (space : Option (Dict String (FSpace (Elem K X))))
    (functions : Option (LeData K X)) (iel : Nat) (_alpha : Nat → K) : Res (Vec K × Mat K) :=
  match space, functions with
  | some spaces, some fs => do
    let sp ← readLeSpaces spaces iel
    let _ ← entry fs.rhs
    let lam ← entry fs.lam
    let mu ← entry fs.mu
    leRieszVectorized sp lam mu
  | _, _ => .error .valueError

/-- le_dual_weak_form.py:13-352 and le_riesz_map_weak_form.py:10-256 `evaluate_form`; `riesz` tells
which, `quadrature` is `self.space.quadrature` and `rest` what follows line 34. -/
def evaluateLeForm {Q : Type} (riesz : Bool) (quadrature : List Q)
    (space : Option (Dict String (FSpace (Elem K X)))) (functions : Option (LeData K X)) (iel : Nat)
    (rest : Q → Q → Res (Vec K × Mat K)) : Res (Vec K × Mat K) :=
  match space, functions with
  | some spaces, some fs => do
    let _ ← readLeSpaces spaces iel
    if ¬ riesz then let _ ← entry fs.rhs
    let _ ← entry fs.lam
    let _ ← entry fs.mu
    let q ← unpackTwo quadrature
    rest q.1 q.2
  | _, _ => .error .valueError

end

end Verif.Dual
