/-
Model of `L2ProjectorWeakForm.evaluate_form` (src/weak_forms/l2_projector_weak_form.py), in exact
arithmetic.

Arrays are functions on indices together with their size.  What basix and the geometry give for
an element (quadrature weights, Jacobian determinants, basis tabulation, mapped points) is a
parameter.
-/
import Verif.Model.Assembly
import Mathlib.Algebra.BigOperators.Intervals

namespace Verif.L2Form
open Assembly

variable {K X : Type}

/-- A one dimensional array. -/
structure Vec (K : Type) where
  n : Nat
  val : Nat → K

/-- The indices of the slice `b:e:step` of an axis of length `len` (`0 ≤ b`, `1 ≤ step`; the end
is clipped). -/
def sliceIdx (len b e step : Nat) : List Nat :=
  List.range' b ((min e len - b + step - 1) / step) step

section
variable [Zero K] [Add K] [Sub K]

/-- `np.zeros(n)` -/
def Vec.zeros (n : Nat) : Vec K := ⟨n, fun _ => 0⟩

/-- `np.zeros((n, n))` -/
def zeros2 (n : Nat) : Mat K := ⟨n, fun _ _ => 0⟩

/-- `r[idx] -= v`; shapes must agree (broadcasting of a single value never happens here, see
C25). -/
def Vec.subAt (r : Vec K) (idx : List Nat) (v : Vec K) : Res (Vec K) :=
  if idx.length ≠ v.n then .error .valueError
  else .ok { r with val := fun i => if i ∈ idx then r.val i - v.val (idx.idxOf i) else r.val i }

/-- `r[idx] += v` -/
def Vec.addAt (r : Vec K) (idx : List Nat) (v : Vec K) : Res (Vec K) :=
  if idx.length ≠ v.n then .error .valueError
  else .ok { r with val := fun i => if i ∈ idx then r.val i + v.val (idx.idxOf i) else r.val i }

/-- `j[idx, idx] += m` with a slice `idx` -/
def addBlock (j : Mat K) (idx : List Nat) (m : Mat K) : Res (Mat K) :=
  if idx.length ≠ m.n then .error .valueError
  else .ok { j with val := fun a b =>
    if a ∈ idx ∧ b ∈ idx then j.val a b + m.val (idx.idxOf a) (idx.idxOf b) else j.val a b }

end

/-- What an element contributes: cell dimension, numbers of quadrature points and of basis
functions, weights, Jacobian determinants, `phi_tab[0, i, a, d]` and the mapped points. -/
structure ElementTab (K X : Type) where
  dim : Nat
  nPts : Nat
  nPhi : Nat
  weights : Nat → K
  det : Nat → K
  phi : Nat → Nat → Nat → K
  x : X

/-- A discrete space as read here. -/
structure FormSpace (K X : Type) where
  nComp : Nat
  lagrange : Bool
  elements : List (ElementTab K X)

/-- A function to project: `f(x)[c, d, i]`, or `f(x)[c, i]` for scalar families (`d = 0`). -/
abbrev Fun (K X : Type) := X → Nat → Nat → Nat → K

section
variable [CommRing K]

/-- Lines 43-58: the residual of one field. -/
def fieldRes (s : FormSpace K X) (el : ElementTab K X) (f : Fun K X) : Res (Vec K) :=
  let nDof := el.nPhi * s.nComp
  (List.range s.nComp).foldlM (fun r c =>
    let idx := sliceIdx nDof c (c + nDof) s.nComp
    if s.lagrange then
      r.subAt idx ⟨el.nPhi, fun a =>
        ∑ i ∈ Finset.range el.nPts, el.det i * el.weights i * el.phi i a 0 * f el.x c 0 i⟩
    else
      (List.range el.nPts).foldlM (fun r i =>
        r.subAt idx ⟨el.nPhi, fun a =>
          ∑ d ∈ Finset.range el.dim, el.det i * el.weights i * el.phi i a d * f el.x c d i⟩) r)
    (Vec.zeros nDof)

/-- Lines 60-77: the matrix of one field. -/
def fieldJac (s : FormSpace K X) (el : ElementTab K X) : Res (Mat K) :=
  let nDof := el.nPhi * s.nComp
  (List.range s.nComp).foldlM (fun j c =>
    let idx := sliceIdx nDof c (c + nDof) s.nComp
    (List.range el.nPts).foldlM (fun j i =>
      if s.lagrange then
        addBlock j idx ⟨el.nPhi, fun a b => el.det i * el.weights i * (el.phi i a 0 * el.phi i b 0)⟩
      else
        (List.range el.dim).foldlM (fun j d =>
          addBlock j idx ⟨el.nPhi,
            fun a b => el.det i * el.weights i * (el.phi i a d * el.phi i b d)⟩) j) j)
    (zeros2 nDof)

/-- Lines 19-80: the loop over the fields; `self.functions[name]` comes first. -/
def fieldSystems (functions : Dict String (Fun K X)) (iel : Nat) :
    Dict String (FormSpace K X) → Res (List (Vec K × Mat K))
  | [] => .ok []
  | (name, s) :: rest => do
    let f ← functions.getItem name
    let el ← getIdx s.elements iel
    let r ← fieldRes s el f
    let j ← fieldJac s el
    let more ← fieldSystems functions iel rest
    pure ((r, j) :: more)

/-- Lines 82-99: the blocks are placed at the accumulated sizes. -/
def place (blocks : List (Vec K × Mat K)) : Res (Vec K × Mat K) :=
  let acc := Space.strides (blocks.map fun b => b.1.n)
  let nDof := (blocks.map fun b => b.1.n).sum
  (acc.dropLast.zip blocks).foldlM (fun (st : Vec K × Mat K) (p : Nat × (Vec K × Mat K)) => do
      let idx := sliceIdx nDof p.1 (p.1 + p.2.1.n) 1
      let r ← st.1.addAt idx p.2.1
      let j ← addBlock st.2 idx p.2.2
      pure (r, j))
    (Vec.zeros nDof, zeros2 nDof)

/-- l2_projector_weak_form.py:9-93 `evaluate_form` -/
def evaluateForm (space : Option (Dict String (FormSpace K X)))
    (functions : Option (Dict String (Fun K X))) (iel : Nat) : Res (Vec K × Mat K) :=
  match space, functions with
  | some spaces, some fs => do
    let blocks ← fieldSystems fs iel spaces
    place blocks
  | _, _ => .error .valueError

end

end Verif.L2Form
