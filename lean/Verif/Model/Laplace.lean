/-
Model of `LaplaceDualWeakForm`, `LaplaceDualWeakFormBCDirichlet`
(src/weak_forms/laplace_dual_weak_form.py), `LaplacePrimalWeakForm`
(src/weak_forms/laplace_primal_weak_form.py) and `_define_integration_order_and_quadrature`
(src/spaces/product_space.py:24-52), in exact arithmetic.

* `auto_diff` is evaluation in dual numbers (`TrivSqZeroExt`): a value and the vector of its
  derivatives.  So the forms are written for any commutative algebra `R` over the numbers `K`.
* Tabulations, Jacobian determinants, pseudo-inverses, normals and the values of the data at the
  quadrature points are parameters.
* Divisions by a zero determinant or coefficient, where numpy computes `inf`, are not modelled: the
  theorems have hypotheses against them.
-/
import Verif.Model.L2Form
import Mathlib.Algebra.TrivSqZeroExt.Basic
import Mathlib.Algebra.Field.Defs

namespace Verif.Laplace
open Assembly L2Form

/-- A two dimensional array. -/
structure Arr (R : Type) where
  rows : Nat
  cols : Nat
  val : Nat → Nat → R

section
variable {R : Type} [CommRing R]

/-- `a @ b` -/
def matmul (a b : Arr R) : Res (Arr R) :=
  if a.cols ≠ b.rows then .error .valueError
  else .ok ⟨a.rows, b.cols, fun i j => ∑ k ∈ Finset.range a.cols, a.val i k * b.val k j⟩

/-- `a.T` -/
def Arr.transpose (a : Arr R) : Arr R := ⟨a.cols, a.rows, fun i j => a.val j i⟩

/-- `a - b` of equal shapes -/
def Arr.sub (a b : Arr R) : Res (Arr R) :=
  if a.rows ≠ b.rows ∨ a.cols ≠ b.cols then .error .valueError
  else .ok ⟨a.rows, a.cols, fun i j => a.val i j - b.val i j⟩

/-- `a *= c` -/
def Arr.scale (c : R) (a : Arr R) : Arr R := ⟨a.rows, a.cols, fun i j => a.val i j * c⟩

/-- `el_form += c * v` -/
def Vec.addScaled (r : Vec R) (c : R) (v : Vec R) : Res (Vec R) :=
  if r.n ≠ v.n then .error .valueError
  else .ok ⟨r.n, fun a => r.val a + c * v.val a⟩

end

/-- A tabulation `tab[k, i, a, d]`: the values of the basis functions `a` in the point `i`
(`k = 0`) and their derivatives in the directions `k = 1, …, nDer`; `d` is the component. -/
structure Tab (K : Type) where
  nDer : Nat
  nPhi : Nat
  nVal : Nat
  val : Nat → Nat → Nat → Nat → K

/-- A number as a constant of the algebra -/
def Arr.lift {K : Type} (R : Type) [CommRing K] [CommRing R] [Algebra K R] (a : Arr K) : Arr R :=
  ⟨a.rows, a.cols, fun i j => algebraMap K R (a.val i j)⟩

/-! ### Automatic differentiation -/

/-- A value with its derivatives. -/
abbrev Dual (K : Type) := TrivSqZeroExt K (Nat → K)

/-- The variable `j` of `ad.AutoDiff(alpha)` -/
def adVar {K : Type} [CommRing K] (alpha : Nat → K) (j : Nat) : Dual K :=
  TrivSqZeroExt.inl (alpha j) + TrivSqZeroExt.inr (Pi.single j 1)

/-- `el_form.val, el_form.der.reshape((n_dof, n_dof))` -/
def valDer {K : Type} [CommRing K] (r : Vec (Dual K)) : Vec K × Mat K :=
  (⟨r.n, fun a => (r.val a).fst⟩, ⟨r.n, fun a b => (r.val a).snd b⟩)

/-! ### The mixed form -/

/-- What is read of an element of the field `u`: dimension of the cell, quadrature, Jacobian
determinants, tabulation and mapped points. -/
structure Elem (K X : Type) where
  dim : Nat
  nPts : Nat
  weights : Nat → K
  det : Nat → K
  tab : Tab K
  x : X

/-- A discrete space. -/
structure FSpace (E : Type) where
  nComp : Nat
  elements : List E

/-- `self.functions`: `rhs(x)[c][i]` and `kappa` in the point `i`. -/
structure Data (K X : Type) where
  rhs : Option (X → Nat → Nat → K)
  kappa : Option (X → Nat → K)

/-- `d[key]` with the entry looked up -/
def entry {α : Type} : Option α → Res α
  | some a => .ok a
  | none => .error .keyError

section
variable {K X R : Type} [Field K] [CommRing R] [Algebra K R]

/-- `tab[0, i, :, 0:dim]` -/
def Tab.values (t : Tab K) (dim i : Nat) : Arr K := ⟨t.nPhi, min dim t.nVal, fun a d => t.val 0 i a d⟩

/-- laplace_dual_weak_form.py:63-66: the row of divergences -/
def Tab.divergence (t : Tab K) (dim i : Nat) (det : K) : Arr K :=
  ⟨1, t.nPhi, fun _ a =>
    (∑ k ∈ Finset.range (min t.nDer (min dim t.nVal)), t.val (k + 1) i a k) / det⟩

/-- `alpha[:, b:b + n]` -/
def rowOf (alpha : Nat → R) (b n : Nat) : Arr R := ⟨1, n, fun _ j => alpha (b + j)⟩

/-- laplace_dual_weak_form.py:57-82: `discrete_integrand` in the point `i`.  `nQ`, `nP` are the
numbers of degrees of freedom of the two fields. -/
def mixedIntegrand (u : Elem K X) (p : Tab K) (nQ nP : Nat) (kappa : K) (alpha : Nat → R) (i : Nat) :
    Res (Vec R) := do
  let psi := (u.tab.values u.dim i).lift R
  let w := (p.values u.dim i).lift R
  let div := (u.tab.divergence u.dim i (u.det i)).lift R
  let uh ← matmul (rowOf alpha 0 nQ) psi
  let uh := uh.scale (algebraMap K R (1 / kappa))
  let ph ← matmul (rowOf alpha nQ nP) w
  let divuh ← matmul (rowOf alpha 0 nQ) div.transpose
  let e ← matmul uh psi.transpose
  let e' ← matmul ph div
  let equ1 ← e.sub e'
  let equ2 ← matmul divuh w.transpose
  if equ1.cols ≠ nQ ∨ equ2.cols ≠ nP then .error .valueError
  else .ok ⟨nQ + nP, fun a => if a < nQ then equ1.val 0 a else equ2.val 0 (a - nQ)⟩

/-- laplace_dual_weak_form.py:49-83: `el_form` -/
def mixedForm (u : Elem K X) (p : Tab K) (uComp pComp : Nat) (rhs : X → Nat → Nat → K)
    (kappa : X → Nat → K) (alpha : Nat → R) : Res (Vec R) := do
  let nQ := u.tab.nPhi * uComp
  let nP := p.nPhi * pComp
  let n := nQ + nP
  let r ← (List.range pComp).foldlM (fun (r : Vec R) c =>
    r.subAt (sliceIdx n (c + nQ) (c + nQ + nP) pComp) ⟨p.nPhi, fun a => algebraMap K R
      (∑ i ∈ Finset.range u.nPts, u.det i * u.weights i * p.val 0 i a 0 * rhs u.x c i)⟩)
    (Vec.zeros n)
  (List.range u.nPts).foldlM (fun (r : Vec R) i => do
    let v ← mixedIntegrand u p nQ nP (kappa u.x i) alpha i
    Vec.addScaled r (algebraMap K R (u.det i * u.weights i)) v) r

/-- laplace_dual_weak_form.py:11-87 `evaluate_form`.  The argument `alpha` is overwritten in line
46. -/
def evaluateMixed (space : Option (Dict String (FSpace (Elem K X)))) (functions : Option (Data K X))
    (iel : Nat) (_alpha : Nat → K) : Res (Vec K × Mat K) :=
  match space, functions with
  | some spaces, some fs => do
    let us ← spaces.getItem "u"
    let ps ← spaces.getItem "p"
    let rhs ← entry fs.rhs
    let kappa ← entry fs.kappa
    let u ← getIdx us.elements iel
    let p ← getIdx ps.elements iel
    let r ← mixedForm u p.tab us.nComp ps.nComp rhs kappa (adVar fun _ => 0)
    pure (valDer r)
  | _, _ => .error .valueError

/-- laplace_dual_weak_form.py:137-154: the boundary term, from the facet's quadrature and
determinants, the trace `q_tr_phi_tab` of the neighbour's basis, the positions `dofs` of the facet's
degrees of freedom, the normal and the boundary data `p_D(x)[c]` in the point `i`. -/
def mixedBoundary (nPts nPhi uComp dim : Nat) (weights det : Nat → K) (trace : Tab K)
    (dofs : List Nat) (normal : Nat → K) (pD : Nat → Nat → K) : Res (Vec K × Mat K) := do
  let n := nPhi * uComp
  if dofs.any fun d => trace.nPhi ≤ d then throw .indexError
  let r ← (List.range uComp).foldlM (fun (r : Vec K) c => do
    let block ← (List.range nPts).foldlM (fun (b : Vec K) i =>
      Vec.addScaled b (det i * weights i * pD i c) ⟨dofs.length, fun a =>
        ∑ d ∈ Finset.range (min dim trace.nVal), trace.val 0 i (dofs.getD a 0) d * normal d⟩)
      (Vec.zeros nPhi)
    r.addAt (sliceIdx n c (c + n) uComp) block) (Vec.zeros n)
  pure (r, zeros2 n)

/-! ### The primal form -/

/-- What is read of an element: `inv k l` is entry `(k, l)` of the pseudo-inverse (`dim` rows, three
columns). -/
structure PElem (K X : Type) where
  dim : Nat
  nPts : Nat
  weights : Nat → K
  det : Nat → K
  inv : Nat → Nat → Nat → K
  tab : Tab K
  x : X

/-- laplace_primal_weak_form.py:57-65: the gradients of the basis functions in the point `i` -/
def gradients (el : PElem K X) (i : Nat) : Res (Arr K) := do
  let m : Arr K := ⟨if el.dim = 2 then 2 else 3, el.dim, fun l k => el.inv i k l⟩
  let g ← matmul m ⟨el.tab.nDer, el.tab.nPhi, fun k a => el.tab.val (k + 1) i a 0⟩
  pure g.transpose

/-- laplace_primal_weak_form.py:57-71: the integrand in the point `i` -/
def primalIntegrand (el : PElem K X) (n : Nat) (kappa : K) (alpha : Nat → R) (i : Nat) :
    Res (Vec R) := do
  let g ← gradients el i
  let guh ← matmul (rowOf alpha 0 n) (g.lift R)
  let guh := guh.scale (algebraMap K R kappa)
  let energy ← matmul (g.lift R) guh.transpose
  if energy.rows * energy.cols ≠ n then .error .valueError
  else .ok ⟨n, fun a => energy.val a 0⟩

/-- laplace_primal_weak_form.py:46-71: `el_form` -/
def primalForm (el : PElem K X) (nComp : Nat) (rhs : X → Nat → Nat → K) (kappa : X → Nat → K)
    (alpha : Nat → R) : Res (Vec R) := do
  let n := el.tab.nPhi * nComp
  let r ← (List.range nComp).foldlM (fun (r : Vec R) c =>
    r.subAt (sliceIdx n c (c + n) nComp) ⟨el.tab.nPhi, fun a => algebraMap K R
      (∑ i ∈ Finset.range el.nPts, el.det i * el.weights i * el.tab.val 0 i a 0 * rhs el.x c i)⟩)
    (Vec.zeros n)
  (List.range el.nPts).foldlM (fun (r : Vec R) i => do
    let v ← primalIntegrand el n (kappa el.x i) alpha i
    Vec.addScaled r (algebraMap K R (el.det i * el.weights i)) v) r

/-- `points, weights = l` -/
def unpackTwo {α : Type} : List α → Res (α × α)
  | [a, b] => .ok (a, b)
  | _ => .error .valueError

/-- laplace_primal_weak_form.py:11-75 `evaluate_form`.  `elements` gives what is computed from the
quadrature. -/
def evaluatePrimal {Q : Type} (quadrature : List Q)
    (space : Option (Dict String (FSpace (Q → Q → PElem K X)))) (functions : Option (Data K X))
    (iel : Nat) (alpha : Nat → K) : Res (Vec K × Mat K) :=
  match space, functions with
  | some spaces, some fs => do
    let ps ← spaces.getItem "p"
    let rhs ← entry fs.rhs
    let kappa ← entry fs.kappa
    let el ← getIdx ps.elements iel
    let q ← unpackTwo quadrature
    let r ← primalForm (el q.1 q.2) ps.nComp rhs kappa (adVar alpha)
    pure (valDer r)
  | _, _ => .error .valueError

end

/-- `l[i] = v` -/
def setItem {α : Type} (l : List α) (i : Nat) (v : α) : Res (List α) :=
  if i < l.length then .ok (l.set i v) else .error .indexError

/-- product_space.py:33-42: `self.quadrature`; `rule` is the quadrature of a dimension. -/
def spaceQuadrature {Q : Type} (rule : Nat → Q) (dims : List Nat) : Res (List (Option Q)) := do
  let m ← npMax dims
  (List.range (m + 1)).foldlM (fun (l : List (Option Q)) d => setItem l d (some (rule d)))
    [none, none, none, none]

end Verif.Laplace
