/-
Model of `div_error`, `div_scaled_error`, `grad_error` and `devia_l2_error`
(src/postprocess/l2_error_post_processor.py:120-421) and of `div_norm` and `devia_l2_norm`
(src/postprocess/solution_norms_post_processor.py:42-147), in exact arithmetic.

The conventions are those of Model/L2Error.lean; there is at least one quadrature point.  Of
`grad_error` what follows the call `evaluate_basis(points)`, and of the two functions for deviators
what follows the quadrature, are parameters.
-/
import Verif.Model.L2Error
import Verif.Model.DualBoundary

namespace Verif.DivError
open Assembly L2Form MeshGraph Trace L2Error Laplace

variable {X : Type}

/-- element_family.py:4-12; `"N2E"` names the family of `"N1E"`. -/
inductive Family
  | lagrange | rt | bdm | n1e
  deriving DecidableEq

/-- A discrete space as read here. -/
structure DSpace (X : Type) where
  nComp : Nat
  family : Family
  elements : List (Laplace.Elem ℝ X)

/-- What is read of a product space. -/
structure DFe (X : Type) where
  quadrature : List (Option Unit)
  spaces : Dict String (DSpace X)
  dests : Nat → Res (Dict String (List Nat))

/-- An exact divergence: the number of components of its values, `none` if they are scalars. -/
structure DExact (X : Type) where
  cols : Option Nat
  val : X → Nat → Nat → ℝ

/-- `l` and `grad_l`, with the number of rows of the latter. -/
structure Scale (X : Type) where
  gamma : Option (X → Nat → ℝ)
  grad : Option (Nat × (X → Nat → Nat → ℝ))

/-- `functions`: the entries `div_…`, and the scale -/
structure Funs (X : Type) where
  exact : Dict String (DExact X)
  scale : Scale X

/-- An array of shape `(len(points), cols)`. -/
structure Sheet where
  cols : Nat
  val : Nat → Nat → ℝ

/-- `f_e - f_h`; the values of a scalar function make a row, not a column. -/
def diff (nPts : Nat) (x : X) (f : DExact X) (h : Sheet) : Res Sheet :=
  match f.cols with
  | some k => do
    let r ← bdim k h.cols
    pure ⟨r, fun i c => f.val x (bpick k c) i - h.val i (bpick h.cols c)⟩
  | none => do
    let r ← bdim nPts h.cols
    pure ⟨r, fun i c => f.val x 0 (bpick nPts c) - h.val i (bpick h.cols c)⟩

/-- `np.sum((d * d).T @ (det_jac * weights))` -/
noncomputable def sheetSq (el : Laplace.Elem ℝ X) (d : Sheet) : ℝ :=
  ∑ c ∈ Finset.range d.cols, ∑ i ∈ Finset.range el.nPts,
    d.val i c * d.val i c * (el.det i * el.weights i)

/-- `div_v_star`, lines 208-209: divergences of the basis functions -/
noncomputable def divStar (dim : Nat) (el : Laplace.Elem ℝ X) (i a : Nat) : ℝ :=
  Dual.traceGrad el.tab dim i a * (1 / el.det i)

/-- `div_v_star`, lines 267-279: divergences of the scaled basis functions -/
noncomputable def scaledStar (dim : Nat) (el : Laplace.Elem ℝ X) (gamma : X → Nat → ℝ)
    (grad : Nat × (X → Nat → Nat → ℝ)) (i a : Nat) : ℝ :=
  ∑ d ∈ Finset.range (min grad.1 (min dim el.tab.nVal)), grad.2 el.x d i * el.tab.val 0 i a d +
    Dual.traceGrad el.tab dim i a * (gamma el.x i / el.det i)

/-- Lines 192-214 and 247-284 `compute_div_error(idx)` -/
noncomputable def contribution (fe : DFe X) (alpha : List ℝ) (name : String) (f : DExact X)
    (star : Laplace.Elem ℝ X → Nat → Nat → ℝ) (idx : Nat) (el : Laplace.Elem ℝ X) : Res ℝ := do
  let d ← fe.dests idx
  let dest ← d.getItem name
  let al ← fancy alpha dest
  let m ← splitCols al.length el.tab.nPhi
  let s ← diff el.nPts el.x f ⟨m, fun i c =>
    ∑ a ∈ Finset.range el.tab.nPhi, star el i a * al.getD (a * m + c) 0⟩
  pure (sheetSq el s)

/-- The loops over the fields; `field` gives the contribution of an element, or `none` if the field is
passed over. -/
noncomputable def overSpaces (dim : Nat) (wanted : Family → Bool) (skip : List String)
    (field : String → Res (Option (Nat → Laplace.Elem ℝ X → Res ℝ))) :
    Dict String (DSpace X) → Res (List (Option ℝ))
  | [] => .ok []
  | (name, s) :: rest =>
    if wanted s.family = false then overSpaces dim wanted skip field rest
    else if name ∈ skip then overSpaces dim wanted skip field rest
    else do
      match ← field name with
      | none => overSpaces dim wanted skip field rest
      | some contrib => do
        let e ← (s.elements.zipIdx.filter fun p => p.1.dim == dim).foldlM
          (fun acc p => do
            let v ← contrib p.2 p.1
            pure (acc + v)) (0 : ℝ)
        let r ← overSpaces dim wanted skip field rest
        pure (npSqrt e :: r)

/-- `vec_families` -/
def vecFamily (f : Family) : Bool := f = .rt ∨ f = .bdm

/-- The families of line 218-224 -/
def errorFamily (dim : Nat) (f : Family) : Bool := if dim = 1 then f = .lagrange else vecFamily f

/-- l2_error_post_processor.py:185-237 `div_error` -/
noncomputable def divError (dim : Nat) (fe : DFe X) (fs : Funs X) (alpha : List ℝ)
    (skip : List String) : Res (List (Option ℝ)) := do
  rule fe.quadrature dim
  overSpaces dim (errorFamily dim) skip (fun name => do
    let f ← fs.exact.getItem ("div_" ++ name)
    pure (some (contribution fe alpha name f (divStar dim)))) fe.spaces

/-- l2_error_post_processor.py:240-305 `div_scaled_error` -/
noncomputable def divScaledError (dim : Nat) (fe : DFe X) (fs : Funs X) (alpha : List ℝ)
    (skip : List String) : Res (List (Option ℝ)) := do
  rule fe.quadrature dim
  overSpaces dim vecFamily skip (fun name => do
    let f ← fs.exact.getItem ("div_" ++ name)
    match fs.scale.gamma, fs.scale.grad with
    | some gamma, some grad =>
      pure (some (contribution fe alpha name f fun el => scaledStar dim el gamma grad))
    | _, _ => pure none) fe.spaces

/-- The values of an exact divergence. -/
def exactSheet (f : DExact X) (x : X) : Sheet := ⟨f.cols.getD 1, fun i c => f.val x c i⟩

/-- solution_norms_post_processor.py:42-78 `div_norm` -/
noncomputable def divNorm (dim : Nat) (fe : DFe X) (fs : Funs X) (skip : List String) :
    Res (List (Option ℝ)) := do
  rule fe.quadrature dim
  overSpaces dim vecFamily skip (fun name => do
    let f ← fs.exact.getItem ("div_" ++ name)
    pure (some fun _ el => pure (sheetSq el (exactSheet f el.x)))) fe.spaces

/-- l2_error_post_processor.py:120-182 `grad_error`; `rest` is what follows the call
`evaluate_basis(points)`. -/
noncomputable def gradError (dim : Nat) (fe : DFe X)
    (rest : String → Nat → Laplace.Elem ℝ X → Res ℝ) : Res (List (Option ℝ)) :=
  overSpaces dim (fun _ => true) [] (fun name => pure (some fun idx el => do
    Dual.checkCall Dual.evaluateBasisParameters 1
    rest name idx el)) fe.spaces

/-- l2_error_post_processor.py:308-421 `devia_l2_error` and solution_norms_post_processor.py:81-147
`devia_l2_norm`; `rest` is what follows `points, weights = fe_space.quadrature`. -/
def deviator (fe : DFe X) (rest : Option Unit → Option Unit → Res (List (Option ℝ))) :
    Res (List (Option ℝ)) := do
  let q ← unpackTwo fe.quadrature
  rest q.1 q.2

end Verif.DivError
