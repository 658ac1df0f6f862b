/-
Model of `LEPrimalWeakForm`, `LEPrimalWeakFormBCDirichlet`, `LEPrimalWeakFormBCNeumann`,
`LEPrimalWeakFormBCNormalDirichlet` (src/weak_forms/le_primal_weak_form.py) and
`LEPrimalStressConstraintWeakForm` (src/weak_forms/le_primal_stress_constraint_weak_form.py), in
exact arithmetic.

The conventions are those of Model/Laplace.lean: automatic differentiation is evaluation in an
algebra `R` over the numbers `K`, and tabulations, determinants, pseudo-inverses, normals and the
values of the data in the quadrature points are parameters.
-/
import Verif.Model.Laplace

namespace Verif.Elasticity
open Assembly L2Form Laplace

/-- `self.functions`: `rhs(x)[c][i]`, `lambda(x)[i]`, `mu(x)[i]` and `s_target(x)[k, l, i]`. -/
structure Data (K X : Type) where
  rhs : Option (X → Nat → Nat → K)
  lam : Option (X → Nat → K)
  mu : Option (X → Nat → K)
  target : Option (X → Nat → Nat → Nat → K)

section
variable {K X R : Type} [Field K] [CommRing R] [Algebra K R]

/-- `alpha[:, idx]` for an `alpha` of one row -/
def rowAt (alpha : Nat → R) (idx : List Nat) : Arr R :=
  ⟨1, idx.length, fun _ j => alpha (idx.getD j 0)⟩

/-- The gradient of a field of `comps` components, from the gradients `g` of the basis functions:
the rows `alpha[:, c + b : b + n + c : comps] @ g` for `c < m`, stacked.  `total` is the length of
`alpha`, `n` the number of degrees of freedom of the field and `b` the first one. -/
def fieldGradient (total b n comps m : Nat) (g : Arr K) (alpha : Nat → R) : Res (Arr R) := do
  let rows ← (List.range m).mapM fun c =>
    matmul (rowAt alpha (sliceIdx total (c + b) (b + n + c) comps)) (g.lift R)
  pure ⟨m, g.cols, fun c l => match rows[c]? with
    | some r => r.val 0 l
    | none => 0⟩

/-- `0.5 * (g + g.T)` of a square array -/
def symmetricPart (g : Arr R) : Arr R :=
  ⟨g.rows, g.cols, fun k l => algebraMap K R (1 / 2) * (g.val k l + g.val l k)⟩

/-- `a.trace()` of a square array -/
def trace (a : Arr R) : R := ∑ k ∈ Finset.range a.rows, a.val k k

/-- `a + c * np.identity(dim)` of a square array `a`: an identity of size one is broadcast. -/
def addIdentity (a : Arr R) (dim : Nat) (c : R) : Res (Arr R) :=
  if dim = a.rows then .ok ⟨a.rows, a.cols, fun k l => a.val k l + c * if k = l then 1 else 0⟩
  else if dim = 1 then .ok ⟨a.rows, a.cols, fun k l => a.val k l + c⟩
  else .error .valueError

/-- le_primal_weak_form.py:79-86 (and 113-120): the stress of the displacement gradient `g`. -/
def stress (dim : Nat) (mu lam : K) (g : Arr R) : Res (Arr R) :=
  let e : Arr R := symmetricPart (K := K) g
  addIdentity (e.scale (algebraMap K R (2 * mu))) dim (algebraMap K R lam * trace e)

/-- le_primal_weak_form.py:54-122: `strain_energy_h` in the point `i`. -/
def integrand (el : PElem K X) (comps : Nat) (mu lam : K) (alpha : Nat → R) (i : Nat) :
    Res (Vec R) := do
  let n := el.tab.nPhi * comps
  let m := if el.dim = 2 then 2 else 3
  let g ← gradients el i
  let gu ← fieldGradient n 0 n comps m g alpha
  let s ← stress el.dim mu lam gu
  let e ← matmul (g.lift R) s.transpose
  if e.rows * e.cols ≠ n then .error .valueError
  else .ok ⟨n, fun a => e.val (a / e.cols) (a % e.cols)⟩

/-- le_primal_weak_form.py:45-125: `el_form` -/
def form (el : PElem K X) (comps : Nat) (rhs : X → Nat → Nat → K) (mu lam : X → Nat → K)
    (alpha : Nat → R) : Res (Vec R) := do
  let n := el.tab.nPhi * comps
  let r ← (List.range comps).foldlM (fun (r : Vec R) c =>
    r.addAt (sliceIdx n c (c + n) comps) ⟨el.tab.nPhi, fun a => algebraMap K R
      (∑ i ∈ Finset.range el.nPts, el.det i * el.weights i * el.tab.val 0 i a 0 * rhs el.x c i)⟩)
    (Vec.zeros n)
  (List.range el.nPts).foldlM (fun (r : Vec R) i => do
    let v ← integrand el comps (mu el.x i) (lam el.x i) alpha i
    Vec.addScaled r (algebraMap K R (el.det i * el.weights i)) v) r

/-- le_primal_weak_form.py:13-128 `evaluate_form` -/
def evaluateForm (space : Option (Dict String (FSpace (PElem K X)))) (functions : Option (Data K X))
    (iel : Nat) (alpha : Nat → K) : Res (Vec K × Mat K) :=
  match space, functions with
  | some spaces, some fs => do
    let us ← spaces.getItem "u"
    let rhs ← entry fs.rhs
    let lam ← entry fs.lam
    let mu ← entry fs.mu
    let el ← getIdx us.elements iel
    let r ← form el us.nComp rhs mu lam (adVar alpha)
    pure (valDer r)
  | _, _ => .error .valueError

/-- le_primal_stress_constraint_weak_form.py:52-121: the integrand in the point `i`, with the target
stress `st` of the point (of the size of the cell's dimension). -/
def constraintIntegrand (el : PElem K X) (comps : Nat) (mu lam : K) (st : Nat → Nat → K)
    (alpha : Nat → R) (i : Nat) : Res (Vec R) := do
  let n := el.tab.nPhi * comps
  let m := if el.dim = 2 then 2 else 3
  let g ← gradients el i
  let gu ← fieldGradient n 0 n comps m g alpha
  let s ← stress el.dim mu lam gu
  let d ← s.transpose.sub ⟨m, m, fun k l => algebraMap K R (st l k)⟩
  let e ← matmul (g.lift R) (d.scale (algebraMap K R (10 ^ 6)))
  if e.rows * e.cols ≠ n then .error .valueError
  else .ok ⟨n, fun a => e.val (a / e.cols) (a % e.cols)⟩

/-- le_primal_stress_constraint_weak_form.py:49-124: `el_form` -/
def constraintForm (el : PElem K X) (comps : Nat) (target : X → Nat → Nat → Nat → K)
    (mu lam : X → Nat → K) (alpha : Nat → R) : Res (Vec R) :=
  (List.range el.nPts).foldlM (fun (r : Vec R) i => do
    let v ← constraintIntegrand el comps (mu el.x i) (lam el.x i)
      (fun k l => target el.x k l i) alpha i
    Vec.addScaled r (algebraMap K R (el.det i * el.weights i)) v) (Vec.zeros (el.tab.nPhi * comps))

/-- le_primal_stress_constraint_weak_form.py:13-126 `evaluate_form` -/
def evaluateConstraint (space : Option (Dict String (FSpace (PElem K X))))
    (functions : Option (Data K X)) (iel : Nat) (alpha : Nat → K) : Res (Vec K × Mat K) :=
  match space, functions with
  | some spaces, some fs => do
    let us ← spaces.getItem "u"
    let target ← entry fs.target
    let lam ← entry fs.lam
    let mu ← entry fs.mu
    let el ← getIdx us.elements iel
    let r ← constraintForm el us.nComp target mu lam (adVar alpha)
    pure (valDer r)
  | _, _ => .error .valueError

/-! ### Boundary terms

A facet: its dimension, quadrature, determinants and basis functions `phi i a`. -/

structure Facet (K : Type) where
  dim : Nat
  nPts : Nat
  nPhi : Nat
  weights : Nat → K
  det : Nat → K
  phi : Nat → Nat → K

/-- `beta` -/
def penalty (K : Type) [Field K] : K := 10 ^ 12

/-- The loops `for c in range(u_components)`: blocks of the residual and of the matrix, components
interleaved. -/
def componentBlocks (nPhi comps : Nat) (res : Nat → Nat → K) (jac : Nat → Nat → Nat → K) :
    Res (Vec K × Mat K) :=
  let n := nPhi * comps
  (List.range comps).foldlM (fun (st : Vec K × Mat K) c => do
    let r ← st.1.addAt (sliceIdx n c (c + n) comps) ⟨nPhi, res c⟩
    let j ← addBlock st.2 (sliceIdx n c (c + n) comps) ⟨nPhi, jac c⟩
    pure (r, j)) (Vec.zeros n, zeros2 n)

/-- le_primal_weak_form.py:130-177 `LEPrimalWeakFormBCDirichlet.evaluate_form`, and with the same text
le_taylor_hood_weak_form.py:189-237 `LETaylorHoodWeakFormBCDirichlet.evaluate_form`; `uD i c` is the
prescribed displacement. -/
def dirichlet (f : Facet K) (comps : Nat) (uD : Nat → Nat → K) : Res (Vec K × Mat K) :=
  componentBlocks f.nPhi comps
    (fun c a => ∑ i ∈ Finset.range f.nPts, - (penalty K * f.det i * f.weights i * uD i c * f.phi i a))
    (fun _ a b => ∑ i ∈ Finset.range f.nPts,
      penalty K * f.det i * f.weights i * (f.phi i a * f.phi i b))

/-- le_primal_weak_form.py:179-223 `LEPrimalWeakFormBCNeumann.evaluate_form`; `t i c` is the
traction. -/
def neumann (f : Facet K) (comps : Nat) (t : Nat → Nat → K) : Res (Vec K × Mat K) :=
  componentBlocks f.nPhi comps
    (fun c a => ∑ i ∈ Finset.range f.nPts, f.det i * f.weights i * t i c * f.phi i a)
    (fun _ _ _ => 0)

/-- le_primal_weak_form.py:225-286 `LEPrimalWeakFormBCNormalDirichlet.evaluate_form`.  `neighs` is
the number of neighbours, `normal` the normal of three components, `uD i` the prescribed
displacement, of `uLen` components. -/
def normalDirichlet (f : Facet K) (comps neighs : Nat) (normal : Nat → K) (uLen : Nat)
    (uD : Nat → Nat → K) : Res (Vec K × Mat K) :=
  if neighs = 0 then .error .assertionError
  else if 0 < comps ∧ 0 < f.nPts ∧ uLen ≠ min (f.dim + 1) 3 then .error .valueError
  else if 3 < comps ∧ 0 < f.nPts then .error .indexError
  else componentBlocks f.nPhi comps
    (fun c a => ∑ i ∈ Finset.range f.nPts, - (penalty K * f.det i * f.weights i *
      (∑ k ∈ Finset.range (min (f.dim + 1) 3), uD i k * normal k) * (f.phi i a * normal c)))
    (fun c a b => ∑ i ∈ Finset.range f.nPts,
      penalty K * f.det i * f.weights i * ((f.phi i a * normal c) * (f.phi i b * normal c)))

end

end Verif.Elasticity
