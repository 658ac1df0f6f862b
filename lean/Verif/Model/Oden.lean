/-
Model of `OdenDualWeakForm` and `OdenDualWeakFormBCDirichlet` (examples/oden_problem/oden_dual_weak_form.py) and of
`OdenPrimalWeakForm` and `OdenPrimalWeakFormBCDirichlet` (examples/oden_problem/oden_primal_weak_form.py), in exact
arithmetic.  The conventions are those of Model/Laplace.lean.
-/
import Verif.Model.Laplace

namespace Verif.Oden
open Assembly L2Form Laplace

section
variable {R : Type} [CommRing R]

/-- `a + b` of equal shapes -/
def add (a b : Arr R) : Res (Arr R) :=
  if a.rows ≠ b.rows ∨ a.cols ≠ b.cols then .error .valueError
  else .ok ⟨a.rows, a.cols, fun i j => a.val i j + b.val i j⟩

end

section
variable {K X R : Type} [Field K] [CommRing R] [Algebra K R]

/-- oden_dual_weak_form.py:56-79: `discrete_integrand` in the point `i` -/
def integrand (q : Elem K X) (u : Tab K) (nQ nU : Nat) (alpha : Nat → R) (i : Nat) : Res (Vec R) := do
  let psi := (q.tab.values q.dim i).lift R
  let w := (u.values q.dim i).lift R
  let div := (q.tab.divergence q.dim i (q.det i)).lift R
  let qh ← matmul (rowOf alpha 0 nQ) psi
  let uh ← matmul (rowOf alpha nQ nU) w
  let divqh ← matmul (rowOf alpha 0 nQ) div.transpose
  let e ← matmul qh psi.transpose
  let e' ← matmul uh div
  let equ1 ← e.sub e'
  let e ← matmul divqh w.transpose
  let e' ← matmul uh w.transpose
  let equ2 ← add e e'
  if equ1.cols ≠ nQ ∨ equ2.cols ≠ nU then .error .valueError
  else .ok ⟨nQ + nU, fun a => if a < nQ then equ1.val 0 a else equ2.val 0 (a - nQ)⟩

/-- oden_dual_weak_form.py:49-80: `el_form`.  The loop over the points is inside the loop over the components. -/
def form (q : Elem K X) (u : Tab K) (qComp uComp : Nat) (rhs : X → Nat → Nat → K) (alpha : Nat → R) : Res (Vec R) := do
  let nQ := q.tab.nPhi * qComp
  let nU := u.nPhi * uComp
  let n := nQ + nU
  (List.range uComp).foldlM (fun (r : Vec R) c => do
    let r ← r.subAt (sliceIdx n (c + nQ) (c + nQ + nU) uComp) ⟨u.nPhi, fun a => algebraMap K R
      (∑ i ∈ Finset.range q.nPts, q.det i * q.weights i * u.val 0 i a 0 * rhs q.x c i)⟩
    (List.range q.nPts).foldlM (fun (r : Vec R) i => do
      let v ← integrand q u nQ nU alpha i
      Vec.addScaled r (algebraMap K R (q.det i * q.weights i)) v) r) (Vec.zeros n)

/-- oden_dual_weak_form.py:12-84 `evaluate_form`.  The function `kappa` is not read. -/
def evaluateDual (space : Option (Dict String (FSpace (Elem K X)))) (functions : Option (Data K X))
    (iel : Nat) (alpha : Nat → K) : Res (Vec K × Mat K) :=
  match space, functions with
  | some spaces, some fs => do
    let qs ← spaces.getItem "q"
    let us ← spaces.getItem "u"
    let rhs ← entry fs.rhs
    let q ← getIdx qs.elements iel
    let u ← getIdx us.elements iel
    let r ← form q u.tab qs.nComp us.nComp rhs (adVar alpha)
    pure (valDer r)
  | _, _ => .error .valueError

/-- oden_dual_weak_form.py:101-149: the boundary term, with the parameters of `mixedBoundary` and the data `u_D(x)[c]` in
the point `i` -/
def dualBoundary (nPts nPhi qComp dim : Nat) (weights det : Nat → K) (trace : Tab K) (dofs : List Nat)
    (normal : Nat → K) (uD : Nat → Nat → K) : Res (Vec K × Mat K) := do
  let n := nPhi * qComp
  if dofs.any fun d => trace.nPhi ≤ d then throw .indexError
  let r ← (List.range qComp).foldlM (fun (r : Vec K) c => do
    let block ← (List.range nPts).foldlM (fun (b : Vec K) i =>
      Vec.addScaled b (det i * weights i * uD i c) ⟨dofs.length, fun a =>
        ∑ d ∈ Finset.range (min dim trace.nVal), trace.val 0 i (dofs.getD a 0) d * normal d⟩)
      (Vec.zeros nPhi)
    r.addAt (sliceIdx n c (c + n) qComp) block) (Vec.zeros n)
  pure (r, zeros2 n)

/-- oden_primal_weak_form.py:11-78 `evaluate_form`: line 25 reads `u_cell`, which is not defined. -/
def evaluatePrimal {E : Type} (space : Option (Dict String (FSpace E))) (functions : Option (Data K X)) (iel : Nat) :
    Res (Vec K × Mat K) :=
  match space, functions with
  | some spaces, some fs => do
    let us ← spaces.getItem "u"
    let _ ← entry fs.rhs
    let _ ← entry fs.kappa
    let _ ← getIdx us.elements iel
    .error .nameError
  | _, _ => .error .valueError

/-- oden_primal_weak_form.py:82-92: the Dirichlet form, `elements` are the boundary elements; line 92 reads `u_cell`. -/
def primalBoundary {E Q F : Type} (bcQuadrature : List Q) (spaces : Dict String (FSpace E)) (functions : Dict String F)
    (iel : Nat) : Res (Vec K × Mat K) := do
  let _ ← functions.getItem "u"
  let us ← spaces.getItem "u"
  let _ ← getIdx us.elements iel
  let _ ← unpackTwo bcQuadrature
  .error .nameError

end
end Verif.Oden
