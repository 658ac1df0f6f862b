/-
Model of `LMgWeakForm` (examples/degenerate_elliptic_scalar/LMWeakForm.py), the coupling of the scaled flux `v` of a
degenerate region with the flux `u` of its neighbour by a Lagrange multiplier `l` on their interface.

* Conventions of `Verif.Model.InterfaceCoupling`: what `compute_trace_space` (lines 21-71) returns is the structure
  `Side`, `none` stands for a factor that is not a finite number and for a form with such a factor in some point, and
  `np.isclose` is a parameter.
* The side `n` has the flux `v`, the side `p` the flux `u`.
-/
import Verif.Model.InterfaceCoupling

namespace Verif.Multiplier
open Assembly L2Form Laplace Coupling
open Strong.Arbogast (quot root)

/-- `self.functions`: `d_phi_c0n` and `porosity_c0n` -/
structure Data (X : Type) where
  dPhi : Option (X → Nat → ℝ)
  porosity : Option (X → Nat → ℝ)

/-- Lines 124-125, 134 and 141-143: the mobility, the factor of the multiplier in the equation of `u` and the factor of
`u` inside the equation of the multiplier -/
noncomputable def factors (phi d : ℝ) : Option (ℝ × ℝ × ℝ) := do
  let s ← root phi
  let c ← quot 1 s
  let e ← quot 1 d
  return (d, c, e)

section
variable {X R : Type} [CommRing R] [Algebra ℝ R]

/-- Lines 122-149: `discrete_integrand` in the point `i` -/
noncomputable def integrand (n p : Side ℝ X) (dim nV nU nQ : Nat) (d c e : ℝ) (alpha : Nat → R) (i : Nat) :
    Res (Vec R) := do
  let dv := (n.flux dim i).lift R
  let du := (p.flux dim i).lift R
  let dq := (n.pTab.values dim i).lift R
  let vh ← matmul (rowOf alpha 0 nV) dv
  let uh ← matmul (rowOf alpha nV nU) du
  let qh ← matmul (rowOf alpha (nV + nU) nQ) dq
  let equ1 ← matmul (qh.scale (algebraMap ℝ R d)) dv.transpose
  let equ2 ← matmul (qh.scale (algebraMap ℝ R c)) du.transpose
  let a ← matmul vh dq.transpose
  let b ← matmul (uh.scale (algebraMap ℝ R e)) dq.transpose
  let equ3 ← Cosserat.add a b
  let equ3 := equ3.scale (algebraMap ℝ R d)
  if equ1.cols ≠ nV ∨ equ2.cols ≠ nU ∨ equ3.cols ≠ nQ then .error .valueError
  else .ok ⟨nV + nU + nQ, fun k =>
    if k < nV then equ1.val 0 k else if k < nV + nU then equ2.val 0 (k - nV) else equ3.val 0 (k - (nV + nU))⟩

/-- Lines 86-150: the asserts and `el_form` -/
noncomputable def form (close : ℝ → ℝ → Bool) (closeX : X → X → Bool) (n p : Side ℝ X) (dim vComp uComp qComp : Nat)
    (f : Nat → Option (ℝ × ℝ × ℝ)) (alpha : Nat → R) : Res (Option (Vec R)) := do
  if !closeTabs close p n then throw .assertionError
  if !closeX p.x n.x then throw .assertionError
  if !closeVecs close p.nPts p.weights n.weights then throw .assertionError
  if !closeVecs close p.nPts p.det n.det then throw .assertionError
  if n.dofs.any fun d => n.trace.nPhi ≤ d then throw .indexError
  if p.dofs.any fun d => p.trace.nPhi ≤ d then throw .indexError
  if p.dofs.length ≠ n.dofs.length then throw .assertionError
  let nV := n.dofs.length * vComp
  let nU := p.dofs.length * uComp
  let nQ := p.pTab.nPhi * qComp
  let r ← (List.range n.nPts).foldlM (fun (r : Vec R) i => do
    let g := (f i).getD (0, 0, 0)
    let v ← integrand n p dim nV nU nQ g.1 g.2.1 g.2.2 alpha i
    Vec.addScaled r (algebraMap ℝ R (n.det i * n.weights i)) v) (Vec.zeros (nV + nU + nQ))
  return if (List.range n.nPts).all fun i => (f i).isSome then some r else none

/-- Lines 12-154 `evaluate_form`, with the two sides and the numbers of components -/
noncomputable def evaluateForm (close : ℝ → ℝ → Bool) (closeX : X → X → Bool) (fs : Data X) (n p : Side ℝ X)
    (dim vComp uComp qComp : Nat) (alpha : Nat → ℝ) : Res (Option (Vec ℝ × Mat ℝ)) := do
  let dPhi ← entry fs.dPhi
  let porosity ← entry fs.porosity
  let r ← form close closeX n p dim vComp uComp qComp (fun i => factors (porosity n.x i) (dPhi n.x i)) (adVar alpha)
  return r.map valDer

end

end Verif.Multiplier
