/-
Model of `CouplingWeakForm` (examples/md_elliptic_scalar/CouplingWeakForm.py), the term that couples the fluxes on the
two sides of a fracture with the pressure in the fracture, in exact arithmetic.

* Conventions of `Verif.Model.Laplace`: automatic differentiation is evaluation in dual numbers; tabulations,
  determinants, normals and the values of the data at the quadrature points are parameters.
* What `compute_trace_space` (lines 19-66) returns is the structure `Side`; how it finds the neighbour and maps the
  points is modelled elsewhere (`find_higher_dimension_neighs`, `transform_lower_to_higher`, `normal`).
* `np.isclose` is a parameter `close`; arrays of different shapes, for which numpy raises or broadcasts, are
  compared by their shapes first.
-/
import Verif.Model.Cosserat

namespace Verif.Coupling
open Assembly L2Form Laplace

/-- Lines 19-66: what is read on one side of the fracture -/
structure Side (K X : Type) where
  trace : Tab K
  dofs : List Nat
  normal : Nat → K
  pTab : Tab K
  nPts : Nat
  x : X
  weights : Nat → K
  det : Nat → K

/-- `self.functions`: `kappa_normal` and `delta` in the point `i` -/
structure Data (K X : Type) where
  kappa : Option (X → Nat → K)
  delta : Option (X → Nat → K)

section
variable {K X R : Type} [Field K] [CommRing R] [Algebra K R]

/-- `np.all(np.isclose(p_phi_tab_p, p_phi_tab_n))` -/
def closeTabs (close : K → K → Bool) (s t : Side K X) : Bool :=
  s.pTab.nPhi == t.pTab.nPhi && s.pTab.nVal == t.pTab.nVal && s.pTab.nDer == t.pTab.nDer && s.nPts == t.nPts &&
    (List.range (s.pTab.nDer + 1)).all fun k => (List.range s.nPts).all fun i =>
      (List.range s.pTab.nPhi).all fun a => (List.range s.pTab.nVal).all fun d =>
        close (s.pTab.val k i a d) (t.pTab.val k i a d)

/-- `np.all(np.isclose(…))` for the weights or the determinants -/
def closeVecs (close : K → K → Bool) (n : Nat) (s t : Nat → K) : Bool :=
  (List.range n).all fun i => close (s i) (t i)

/-- `du_tr_phi_tab[0:1, i, du_dof_n_index, 0:dim] @ n[0:dim]`, transposed: a column -/
def Side.flux (s : Side K X) (dim i : Nat) : Arr K :=
  ⟨s.dofs.length, 1, fun a _ => ∑ d ∈ Finset.range (min dim s.trace.nVal), s.trace.val 0 i (s.dofs.getD a 0) d * s.normal d⟩

/-- Lines 119-148: `discrete_integrand` in the point `i` -/
def integrand (p n : Side K X) (dim nUp nUn nP : Nat) (kappa delta : K) (alpha : Nat → R) (i : Nat) :
    Res (Vec R) := do
  let dup := (p.flux dim i).lift R
  let dun := (n.flux dim i).lift R
  let dp := (n.pTab.values dim i).lift R
  let uhp ← matmul (rowOf alpha 0 nUp) dup
  let uhn ← matmul (rowOf alpha nUp nUn) dun
  let ph ← matmul (rowOf alpha (nUp + nUn) nP) dp
  let alphaV := kappa / (delta / 2)
  let a ← Cosserat.add (uhp.scale (algebraMap K R (1 / alphaV))) ph
  let equ1 ← matmul a dup.transpose
  let b ← Cosserat.add (uhn.scale (algebraMap K R (1 / alphaV))) ph
  let equ2 ← matmul b dun.transpose
  let c ← matmul uhp dp.transpose
  let d ← matmul uhn dp.transpose
  let equ3 ← Cosserat.add c d
  if equ1.cols ≠ nUp ∨ equ2.cols ≠ nUn ∨ equ3.cols ≠ nP then .error .valueError
  else .ok ⟨nUp + nUn + nP, fun k =>
    if k < nUp then equ1.val 0 k else if k < nUp + nUn then equ2.val 0 (k - nUp) else equ3.val 0 (k - (nUp + nUn))⟩

/-- Lines 68-150: the asserts and `el_form` -/
def form (close : K → K → Bool) (closeX : X → X → Bool) (p n : Side K X) (dim uComp pComp : Nat)
    (kappa delta : X → Nat → K) (alpha : Nat → R) : Res (Vec R) := do
  if !closeTabs close p n then throw .assertionError
  if !closeX p.x n.x then throw .assertionError
  if !closeVecs close p.nPts p.weights n.weights then throw .assertionError
  if !closeVecs close p.nPts p.det n.det then throw .assertionError
  if p.dofs.any fun d => p.trace.nPhi ≤ d then throw .indexError
  if n.dofs.any fun d => n.trace.nPhi ≤ d then throw .indexError
  if p.dofs.length ≠ n.dofs.length then throw .assertionError
  let nUp := p.dofs.length * uComp
  let nUn := n.dofs.length * uComp
  let nP := p.pTab.nPhi * pComp
  (List.range n.nPts).foldlM (fun (r : Vec R) i => do
    let v ← integrand p n dim nUp nUn nP (kappa n.x i) (delta n.x i) alpha i
    Vec.addScaled r (algebraMap K R (n.det i * n.weights i)) v) (Vec.zeros (nUp + nUn + nP))

/-- Lines 11-154 `evaluate_form`, with the two sides and the numbers of components -/
def evaluateForm (close : K → K → Bool) (closeX : X → X → Bool) (fs : Data K X) (p n : Side K X)
    (dim uComp pComp : Nat) (alpha : Nat → K) : Res (Vec K × Mat K) := do
  let kappa ← entry fs.kappa
  let delta ← entry fs.delta
  let r ← form close closeX p n dim uComp pComp kappa delta (adVar alpha)
  pure (valDer r)

end

end Verif.Coupling
