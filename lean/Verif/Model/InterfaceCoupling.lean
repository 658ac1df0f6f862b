/-
Model of `InterfaceCouplingWeakForm` (examples/md_degenerate_elliptic_scalar/InterfaceCouplingWeakForm.py), the coupling
of the scaled fluxes on the two sides of a fracture with the scaled pressure in the fracture.

* Conventions of `Verif.Model.Coupling`: what `compute_trace_space` (lines 26-72) returns is the structure `Side`.
* Over the real numbers; `none` stands for a factor that is not a finite number (numpy does not raise there), and for
  a form with such a factor in some point.
* `np.isclose` is a parameter for the comparison of the sides; for the porosity it is `|φ| ≤ 1e-8`.
-/
import Verif.Model.Coupling
import Verif.Model.StrongArbogast

namespace Verif.Interface
open Assembly L2Form Laplace Coupling
open Strong.Arbogast (quot root)

/-- `self.functions` in the point `i` -/
structure Data (X : Type) where
  mu : Option (X → Nat → ℝ)
  kappa : Option (X → Nat → ℝ)
  delta : Option (X → Nat → ℝ)
  dPhi : Option (X → Nat → ℝ)
  porosity : Option (X → Nat → ℝ)

/-- The five functions -/
structure Coefficients (X : Type) where
  mu : X → Nat → ℝ
  kappa : X → Nat → ℝ
  delta : X → Nat → ℝ
  dPhi : X → Nat → ℝ
  porosity : X → Nat → ℝ

/-- Lines 145-147 and 155-180: the factor of the flux and the factor of the pressure in a point -/
noncomputable def factors (mu kappa delta phi d : ℝ) : Option (ℝ × ℝ) := do
  let phiScale := root phi
  if ¬|phi| ≤ 1 / 10 ^ 8 ∧ 0 < phi then
    let dPhiNormal ← (quot (kappa * phi ^ 2) mu).bind root
    let alphaV ← quot (dPhiNormal ^ 2) (delta / 2)
    let s ← phiScale
    let robin ← quot (s * d) alphaV
    let exchange ← quot d s
    return (robin, exchange)
  else
    let s ← phiScale
    return (s * d, d)

section
variable {X R : Type} [CommRing R] [Algebra ℝ R]

/-- Lines 138-188: `discrete_integrand` in the point `i`, with the factors of the flux and of the pressure -/
noncomputable def integrand (p n : Side ℝ X) (dim nVp nVn nQ : Nat) (robin exchange : ℝ) (alpha : Nat → R) (i : Nat) :
    Res (Vec R) := do
  let dvp := (p.flux dim i).lift R
  let dvn := (n.flux dim i).lift R
  let dq := (n.pTab.values dim i).lift R
  let vhp ← matmul (rowOf alpha 0 nVp) dvp
  let vhn ← matmul (rowOf alpha nVp nVn) dvn
  let qh ← matmul (rowOf alpha (nVp + nVn) nQ) dq
  let a ← Cosserat.add (vhp.scale (algebraMap ℝ R robin)) (qh.scale (algebraMap ℝ R exchange))
  let equ1 ← matmul a dvp.transpose
  let b ← Cosserat.add (vhn.scale (algebraMap ℝ R robin)) (qh.scale (algebraMap ℝ R exchange))
  let equ2 ← matmul b dvn.transpose
  let c ← matmul vhp dq.transpose
  let d ← matmul vhn dq.transpose
  let equ3 ← Cosserat.add c d
  let equ3 := equ3.scale (algebraMap ℝ R exchange)
  if equ1.cols ≠ nVp ∨ equ2.cols ≠ nVn ∨ equ3.cols ≠ nQ then .error .valueError
  else .ok ⟨nVp + nVn + nQ, fun k =>
    if k < nVp then equ1.val 0 k else if k < nVp + nVn then equ2.val 0 (k - nVp) else equ3.val 0 (k - (nVp + nVn))⟩

/-- The factors in the point `i` -/
noncomputable def Coefficients.at (c : Coefficients X) (x : X) (i : Nat) : Option (ℝ × ℝ) :=
  factors (c.mu x i) (c.kappa x i) (c.delta x i) (c.porosity x i) (c.dPhi x i)

/-- Lines 74-189: the asserts and `el_form` -/
noncomputable def form (close : ℝ → ℝ → Bool) (closeX : X → X → Bool) (p n : Side ℝ X) (dim vComp qComp : Nat)
    (c : Coefficients X) (alpha : Nat → R) : Res (Option (Vec R)) := do
  if !closeTabs close p n then throw .assertionError
  if !closeX p.x n.x then throw .assertionError
  if !closeVecs close p.nPts p.weights n.weights then throw .assertionError
  if !closeVecs close p.nPts p.det n.det then throw .assertionError
  if p.dofs.any fun d => p.trace.nPhi ≤ d then throw .indexError
  if n.dofs.any fun d => n.trace.nPhi ≤ d then throw .indexError
  if p.dofs.length ≠ n.dofs.length then throw .assertionError
  let nVp := p.dofs.length * vComp
  let nVn := n.dofs.length * vComp
  let nQ := p.pTab.nPhi * qComp
  let r ← (List.range n.nPts).foldlM (fun (r : Vec R) i => do
    let f := (c.at n.x i).getD (0, 0)
    let v ← integrand p n dim nVp nVn nQ f.1 f.2 alpha i
    Vec.addScaled r (algebraMap ℝ R (n.det i * n.weights i)) v) (Vec.zeros (nVp + nVn + nQ))
  return if (List.range n.nPts).all fun i => (c.at n.x i).isSome then some r else none

/-- Lines 13-193 `evaluate_form`, with the two sides and the numbers of components -/
noncomputable def evaluateForm (close : ℝ → ℝ → Bool) (closeX : X → X → Bool) (fs : Data X) (p n : Side ℝ X)
    (dim vComp qComp : Nat) (alpha : Nat → ℝ) : Res (Option (Vec ℝ × Mat ℝ)) := do
  let mu ← entry fs.mu
  let kappa ← entry fs.kappa
  let delta ← entry fs.delta
  let dPhi ← entry fs.dPhi
  let porosity ← entry fs.porosity
  let r ← form close closeX p n dim vComp qComp ⟨mu, kappa, delta, dPhi, porosity⟩ (adVar alpha)
  return r.map valDer

end

end Verif.Interface
