/-
Model of `SundusDualWeakForm` and `SundusDualWeakFormBCDirichlet`
(examples/parabolic_diffusive_problem/SundusWeakForm.py): one implicit Euler step of a diffusion problem
for a pressure `p` with flux `mp` and of a reaction diffusion problem for a concentration `c` with flux
`mc`, in exact arithmetic.

The conventions are those of Model/Laplace.lean.  `inv_jac_m` (lines 102-107), which is not used, is left
out.  Determinants, coefficients and time steps that vanish are excluded by hypotheses of the theorems.
-/
import Verif.Model.Cosserat

namespace Verif.Transport
open Assembly L2Form Laplace

/-- `self.functions`: `rhs(x, t)[c][i]`, the coefficients in the point `i` and the time step -/
structure Data (K X : Type) where
  rhsF : Option (X → K → Nat → Nat → K)
  rhsR : Option (X → K → Nat → Nat → K)
  kappa : Option (X → Nat → K)
  delta : Option (X → Nat → K)
  eta : Option (X → Nat → K)
  dt : Option K

/-- The coefficients in one point -/
structure Coeffs (K : Type) where
  kappa : K
  delta : K
  eta : K

/-- The element of `mp` with the tabulations of the other fields, and the numbers of components -/
structure Spaces (K X : Type) where
  mp : Elem K X
  mc : Tab K
  p : Tab K
  c : Tab K
  mpComp : Nat
  mcComp : Nat
  pComp : Nat
  cComp : Nat

section
variable {K X R : Type} [Field K] [CommRing R] [Algebra K R]

def Spaces.nMp (s : Spaces K X) : Nat := s.mp.tab.nPhi * s.mpComp
def Spaces.nMc (s : Spaces K X) : Nat := s.mc.nPhi * s.mcComp
def Spaces.nP (s : Spaces K X) : Nat := s.p.nPhi * s.pComp
def Spaces.nC (s : Spaces K X) : Nat := s.c.nPhi * s.cComp
def Spaces.nDof (s : Spaces K X) : Nat := s.nMp + s.nMc + s.nP + s.nC

/-- Lines 117-132: the row of the divergences of the first `n` functions -/
def divergences (t : Tab K) (dim n i : Nat) (det : K) : Res (Arr K) :=
  if t.nPhi < n then .error .indexError
  else .ok { t.divergence dim i det with cols := n }

/-- Lines 100-177: `discrete_integrand` in the point `i`; `old` are the degrees of freedom of the last time
step. -/
def integrand (s : Spaces K X) (co : Coeffs K) (dt : K) (alpha : Nat → R) (old : Nat → K) (i : Nat) :
    Res (Vec R) := do
  let dim := s.mp.dim
  let vp := (s.mp.tab.values dim i).lift R
  let vc := (s.mc.values dim i).lift R
  let wp := (s.p.values dim i).lift R
  let wc := (s.c.values dim i).lift R
  let divP ← divergences s.mp.tab dim s.nMp i (s.mp.det i)
  let divC ← divergences s.mc dim s.nMc i (s.mp.det i)
  let divP := divP.lift R
  let divC := divC.lift R
  let mp ← matmul (rowOf alpha 0 s.nMp) vp
  let mc ← matmul (rowOf alpha s.nMp s.nMc) vc
  let p ← matmul (rowOf alpha (s.nMp + s.nMc) s.nP) wp
  let c ← matmul (rowOf alpha (s.nMp + s.nMc + s.nP) s.nC) wc
  let pOld ← matmul ((rowOf old (s.nMp + s.nMc) s.nP).lift R) wp
  let cOld ← matmul ((rowOf old (s.nMp + s.nMc + s.nP) s.nC).lift R) wc
  let divMp ← matmul (rowOf alpha 0 s.nMp) divP.transpose
  let divMc ← matmul (rowOf alpha s.nMp s.nMc) divC.transpose
  let mp := mp.scale (algebraMap K R (1 / co.kappa))
  let mc := mc.scale (algebraMap K R (1 / co.delta))
  let reaction : Arr R := ⟨c.rows, c.cols, fun k l => 1 + algebraMap K R co.eta * c.val k l * c.val k l⟩
  let dp ← p.sub pOld
  let dp := dp.scale (algebraMap K R (1 / dt))
  let dc ← c.sub cOld
  let dc := dc.scale (algebraMap K R (1 / dt))
  let a ← matmul mp vp.transpose
  let b ← matmul p divP
  let equ1 ← a.sub b
  let a ← matmul mc vc.transpose
  let b ← matmul c divC
  let equ2 ← a.sub b
  let a ← matmul dp wp.transpose
  let b ← matmul divMp wp.transpose
  let equ3 ← Cosserat.add a b
  let a ← matmul dc wc.transpose
  let b ← matmul divMc wc.transpose
  let ab ← Cosserat.add a b
  let r ← matmul reaction wc.transpose
  let equ4 ← Cosserat.add ab r
  if equ1.cols ≠ s.nMp ∨ equ2.cols ≠ s.nMc ∨ equ3.cols ≠ s.nP ∨ equ4.cols ≠ s.nC then .error .valueError
  else .ok ⟨s.nDof, fun a =>
    if a < s.nMp then equ1.val 0 a
    else if a < s.nMp + s.nMc then equ2.val 0 (a - s.nMp)
    else if a < s.nMp + s.nMc + s.nP then equ3.val 0 (a - (s.nMp + s.nMc))
    else equ4.val 0 (a - (s.nMp + s.nMc + s.nP))⟩

/-- Lines 78-178: `el_form`.  The slice of the concentration has the step `p_components`. -/
def form (s : Spaces K X) (rhsF rhsR : X → K → Nat → Nat → K) (co : X → Nat → Coeffs K) (dt : K)
    (alpha : Nat → R) (old : Nat → K) (t : K) : Res (Vec R) := do
  let n := s.nDof
  let r ← (List.range s.pComp).foldlM (fun (r : Vec R) c =>
    r.subAt (sliceIdx n (c + s.nMp + s.nMc) (c + s.nMp + s.nMc + s.nP) s.pComp) ⟨s.p.nPhi, fun a => algebraMap K R
      (∑ i ∈ Finset.range s.mp.nPts, s.mp.det i * s.mp.weights i * s.p.val 0 i a 0 * rhsF s.mp.x t c i)⟩)
    (Vec.zeros n)
  let r ← (List.range s.cComp).foldlM (fun (r : Vec R) c =>
    r.subAt (sliceIdx n (c + s.nMp + s.nMc + s.nP) (c + s.nMp + s.nMc + s.nP + s.nC) s.pComp)
      ⟨s.c.nPhi, fun a => algebraMap K R
      (∑ i ∈ Finset.range s.mp.nPts, s.mp.det i * s.mp.weights i * s.c.val 0 i a 0 * rhsR s.mp.x t c i)⟩) r
  (List.range s.mp.nPts).foldlM (fun (r : Vec R) i => do
    let v ← integrand s (co s.mp.x i) dt alpha old i
    Vec.addScaled r (algebraMap K R (s.mp.det i * s.mp.weights i)) v) r

/-- Lines 12-182 `evaluate_form` -/
def evaluateForm (space : Option (Dict String (FSpace (Elem K X)))) (functions : Option (Data K X)) (iel : Nat)
    (alpha old : Nat → K) (t : K) : Res (Vec K × Mat K) :=
  match space, functions with
  | some spaces, some fs => do
    let mps ← spaces.getItem "mp"
    let mcs ← spaces.getItem "mc"
    let ps ← spaces.getItem "p"
    let cs ← spaces.getItem "c"
    let rhsF ← entry fs.rhsF
    let kappa ← entry fs.kappa
    let rhsR ← entry fs.rhsR
    let delta ← entry fs.delta
    let eta ← entry fs.eta
    let dt ← entry fs.dt
    let mp ← getIdx mps.elements iel
    let mc ← getIdx mcs.elements iel
    let p ← getIdx ps.elements iel
    let c ← getIdx cs.elements iel
    let r ← form ⟨mp, mc.tab, p.tab, c.tab, mps.nComp, mcs.nComp, ps.nComp, cs.nComp⟩ rhsF rhsR
      (fun x i => ⟨kappa x i, delta x i, eta x i⟩) dt (adVar alpha) old t
    pure (valDer r)
  | _, _ => .error .valueError

/-! ### The boundary term -/

/-- One of the two fields on a facet: the trace of the neighbour's basis, the positions of the facet's degrees of
freedom, the number of components and the boundary data `f(x, t)[c]` in the point `i` -/
structure Trace (K : Type) where
  tab : Tab K
  dofs : List Nat
  comp : Nat
  data : Nat → Nat → K

/-- Lines 266-271 and 280-285: the block of the component `c` -/
def block (nPts dim : Nat) (weights det normal : Nat → K) (f : Trace K) (c : Nat) : Res (Vec K) :=
  (List.range nPts).foldlM (fun (b : Vec K) i =>
    Vec.addScaled b (det i * weights i * f.data i c) ⟨f.dofs.length, fun a =>
      ∑ d ∈ Finset.range (min dim f.tab.nVal), f.tab.val 0 i (f.dofs.getD a 0) d * normal d⟩)
    (Vec.zeros f.dofs.length)

/-- Lines 247-290.  Both slices have the step `mp_components`. -/
def boundary (nPts dim : Nat) (weights det normal : Nat → K) (mp mc : Trace K) : Res (Vec K × Mat K) := do
  if mp.dofs.any fun d => mp.tab.nPhi ≤ d then throw .indexError
  if mc.dofs.any fun d => mc.tab.nPhi ≤ d then throw .indexError
  let nMp := mp.dofs.length * mp.comp
  let nMc := mc.dofs.length * mc.comp
  let n := nMp + nMc
  let r ← (List.range mp.comp).foldlM (fun (r : Vec K) c => do
    let b ← block nPts dim weights det normal mp c
    r.addAt (sliceIdx n c (c + nMp) mp.comp) b) (Vec.zeros n)
  let r ← (List.range mc.comp).foldlM (fun (r : Vec K) c => do
    let b ← block nPts dim weights det normal mc c
    r.addAt (sliceIdx n (c + nMp) (c + nMp + nMc) mp.comp) b) r
  pure (r, zeros2 n)

end

end Verif.Transport
