/-
Model of `ThreeFieldsDiffusionWeakForm` (examples/geothermal_flow/ThreeFieldsAdvectionDiffusionWeakForm.py:11-133):
the form of a cell for the diffusive flux `q`, the advective flux `m` and the scalar `u`, in exact arithmetic.

The conventions are those of Model/Laplace.lean.  The arrays `j_el`, `r_el` and the directors `e1`, `e2`, `e3`
(lines 59-60, 67-69), which are not used, are left out.  Determinants and coefficients that vanish are excluded by
hypotheses of the theorems.
-/
import Verif.Model.Cosserat

namespace Verif.ThreeFields.Diffusion
open Assembly L2Form Laplace

/-- `self.functions`: `rhs(x)[c][i]`, `kappa` in the point `i`, and `velocity`, which is looked up only -/
structure Data (K X : Type) where
  rhs : Option (X → Nat → Nat → K)
  kappa : Option (X → Nat → K)
  velocity : Option (X → Nat → K)

/-- The element of `q` with the tabulations of the other fields, and the numbers of components -/
structure Spaces (K X : Type) where
  q : Elem K X
  m : Tab K
  u : Tab K
  qComp : Nat
  mComp : Nat
  uComp : Nat

section
variable {K X R : Type} [Field K] [CommRing R] [Algebra K R]

def Spaces.nQ (s : Spaces K X) : Nat := s.q.tab.nPhi * s.qComp
def Spaces.nM (s : Spaces K X) : Nat := s.m.nPhi * s.mComp
def Spaces.nU (s : Spaces K X) : Nat := s.u.nPhi * s.uComp
def Spaces.nDof (s : Spaces K X) : Nat := s.nQ + s.nM + s.nU

/-- Lines 87-105: the row of the divergences of the first `n` functions.  The slice `1 : dq_h.shape[0] + 1` of the layers
ends with the number of functions, not with the dimension. -/
def divergences (t : Tab K) (dim n i : Nat) (det : K) : Res (Arr K) :=
  if t.nPhi < n then .error .indexError
  else .ok ⟨1, n, fun _ a =>
    (∑ k ∈ Finset.range (min (min t.nDer t.nPhi) (min dim t.nVal)), t.val (k + 1) i a k) / det⟩

/-- Lines 79-129: `discrete_integrand` in the point `i`; `old` is `alpha_n`. -/
def integrand (s : Spaces K X) (kappa : K) (alpha : Nat → R) (old : Vec K) (i : Nat) : Res (Vec R) := do
  let dim := s.q.dim
  let dq := (s.q.tab.values dim i).lift R
  let du := (s.u.values dim i).lift R
  let divDq ← divergences s.q.tab dim s.nQ i (s.q.det i)
  let divDm ← divergences s.m dim s.nM i (s.q.det i)
  let divDq := divDq.lift R
  let divDm := divDm.lift R
  let q ← matmul (rowOf alpha 0 s.nQ) dq
  let u ← matmul (rowOf alpha (s.nQ + s.nM) s.nU) du
  let _ ← matmul ((rowOf old.val (s.nQ + s.nM) (min s.nDof old.n - (s.nQ + s.nM))).lift R) du
  let divQ ← matmul (rowOf alpha 0 s.nQ) divDq.transpose
  let q := q.scale (algebraMap K R (1 / kappa))
  let divM ← matmul (rowOf alpha s.nQ s.nM) divDm.transpose
  let a ← matmul q dq.transpose
  let b ← matmul u divDq
  let equ1 ← a.sub b
  let d ← Cosserat.add divQ divM
  let equ3 ← matmul d du.transpose
  if equ1.cols ≠ s.nQ ∨ equ3.cols ≠ s.nU then .error .valueError
  else .ok ⟨s.nDof, fun a =>
    if a < s.nQ then equ1.val 0 a
    else if a < s.nQ + s.nM then 0
    else equ3.val 0 (a - (s.nQ + s.nM))⟩

/-- Lines 63-130: `el_form` -/
def form (s : Spaces K X) (rhs : X → Nat → Nat → K) (kappa : X → Nat → K) (alpha : Nat → R) (old : Vec K) :
    Res (Vec R) := do
  let n := s.nDof
  let r ← (List.range s.uComp).foldlM (fun (r : Vec R) c =>
    r.subAt (sliceIdx n (c + s.nQ + s.nM) (c + s.nQ + s.nM + s.nU) s.uComp) ⟨s.u.nPhi, fun a => algebraMap K R
      (∑ i ∈ Finset.range s.q.nPts, s.q.det i * s.q.weights i * s.u.val 0 i a 0 * rhs s.q.x c i)⟩)
    (Vec.zeros n)
  (List.range s.q.nPts).foldlM (fun (r : Vec R) i => do
    let v ← integrand s (kappa s.q.x i) alpha old i
    Vec.addScaled r (algebraMap K R (s.q.det i * s.q.weights i)) v) r

/-- Lines 12-134 `evaluate_form`; the time `t` is not used.  `quadrature` is `space.quadrature`. -/
def evaluateForm {Q : Type} (space : Option (Dict String (FSpace (Elem K X)))) (functions : Option (Data K X))
    (quadrature : List Q) (iel : Nat) (alpha : Nat → K) (old : Vec K) (_t : K) : Res (Vec K × Mat K) :=
  match space, functions with
  | some spaces, some fs => do
    let qs ← spaces.getItem "q"
    let ms ← spaces.getItem "m"
    let us ← spaces.getItem "u"
    let rhs ← entry fs.rhs
    let kappa ← entry fs.kappa
    let _ ← entry fs.velocity
    let q ← getIdx qs.elements iel
    let m ← getIdx ms.elements iel
    let u ← getIdx us.elements iel
    let _ ← unpackTwo quadrature
    let r ← form ⟨q, m.tab, u.tab, qs.nComp, ms.nComp, us.nComp⟩ rhs kappa (adVar alpha) old
    pure (valDer r)
  | _, _ => .error .valueError

end

end Verif.ThreeFields.Diffusion
