/-
Model of `l2_error`, `l2_error_projected` (src/postprocess/l2_error_post_processor.py:7-117) and
`l2_norm` (src/postprocess/solution_norms_post_processor.py:7-38), in exact arithmetic.

As in `L2Form`, what basix and the geometry give for an element, here at the quadrature points of
dimension `dim`, is a parameter; so are the destination indices (C17) and the exact functions.
There is at least one quadrature point, and exact functions return one column per point.
-/
import Verif.Model.L2Form
import Verif.Model.Trace
import Mathlib.Analysis.SpecialFunctions.Pow.Real

namespace Verif.L2Error
open Assembly L2Form MeshGraph Trace

variable {X : Type}

/-- An element with the number of value components of its basis functions. -/
structure Elem (X : Type) extends ElementTab ℝ X where
  nVal : Nat

/-- A discrete space as read here. -/
structure ESpace (X : Type) where
  nComp : Nat
  lagrange : Bool
  elements : List (Elem X)

/-- What is read of a product space: `quadrature`, `discrete_spaces` and
`discrete_spaces_destination_indexes`. -/
structure FeSpace (X : Type) where
  quadrature : List (Option Unit)
  spaces : Dict String (ESpace X)
  dests : Nat → Res (Dict String (List Nat))

/-- An exact function: numbers of components and of spatial components of its values. -/
structure Exact (X : Type) where
  rows : Nat
  cols : Nat
  val : Fun ℝ X

/-- Values at the quadrature points: `val i c d`. -/
structure Table where
  rows : Nat
  cols : Nat
  val : Nat → Nat → Nat → ℝ

/-- numpy broadcasting of one axis. -/
def bdim (r s : Nat) : Res Nat :=
  if r = s then .ok r else if r = 1 then .ok s else if s = 1 then .ok r else .error .valueError

/-- The position read on a broadcast axis. -/
def bpick (n c : Nat) : Nat := if n = 1 then 0 else c

/-- `f - g` with broadcasting. -/
def bsub (f g : Table) : Res Table := do
  let r ← bdim f.rows g.rows
  let s ← bdim f.cols g.cols
  pure ⟨r, s, fun i c d => f.val i (bpick f.rows c) (bpick f.cols d) -
    g.val i (bpick g.rows c) (bpick g.cols d)⟩

/-- Lines 37-39 and 57-59: `np.sum(det_jac * weights * ...)` of the squares. -/
noncomputable def sumSq (el : Elem X) (t : Table) : ℝ :=
  ∑ i ∈ Finset.range el.nPts, el.det i * el.weights i *
    ∑ d ∈ Finset.range t.cols, ∑ c ∈ Finset.range t.rows, t.val i c d * t.val i c d

/-- Lines 35 and 41: values of the exact function, cut to `dim` components, for vector families
to `dim` spatial components. -/
def exactTable (dim : Nat) (s : ESpace X) (el : Elem X) (f : Exact X) : Table :=
  if s.lagrange then ⟨min dim f.rows, 1, fun i c _ => f.val el.x c 0 i⟩
  else ⟨f.rows, min dim f.cols, fun i c d => f.val el.x c d i⟩

/-- `np.split(alpha_l, n_phi)`: the number of columns. -/
def splitCols (len nPhi : Nat) : Res Nat :=
  if nPhi = 0 then .error .zeroDivisionError
  else if len % nPhi ≠ 0 then .error .valueError
  else .ok (len / nPhi)

/-- Lines 33-36 and 42-54: values of the discrete function; entry `(a, c)` of `alpha_star` with
`m` columns is `alpha_l[a * m + c]`. -/
noncomputable def discreteTable (dim : Nat) (s : ESpace X) (el : Elem X) (al : List ℝ) : Res Table := do
  let m ← splitCols al.length el.nPhi
  if s.lagrange then
    pure ⟨min dim m, 1, fun i c _ =>
      ∑ a ∈ Finset.range el.nPhi, el.phi i a 0 * al.getD (a * m + c) 0⟩
  else if s.nComp = 0 then .error .valueError
  else if m < s.nComp then .error .indexError
  else pure ⟨s.nComp, min dim el.nVal, fun i c d =>
    ∑ a ∈ Finset.range el.nPhi, el.phi i a d * al.getD (a * m + c) 0⟩

/-- `points, weights = fe_space.quadrature[dim]` -/
def rule (q : List (Option Unit)) (dim : Nat) : Res Unit := do
  match ← getIdx q dim with
  | some _ => pure ()
  | none => .error .typeError

/-- `np.sqrt`; `none` is `nan`. -/
noncomputable def npSqrt (x : ℝ) : Option ℝ := if x < 0 then none else some (Real.sqrt x)

/-- The loops of the three functions: the fields not skipped, the elements of dimension `dim`
with their positions, the root of the sum. -/
noncomputable def overFields (dim : Nat) (skip : List String)
    (contrib : String → ESpace X → Nat → Elem X → Res ℝ) :
    Dict String (ESpace X) → Res (List (Option ℝ))
  | [] => .ok []
  | (name, s) :: rest =>
    if name ∈ skip then overFields dim skip contrib rest
    else do
      let e ← (s.elements.zipIdx.filter fun p => p.1.dim == dim).foldlM
        (fun acc p => do
          let v ← contrib name s p.2 p.1
          pure (acc + v)) (0 : ℝ)
      let r ← overFields dim skip contrib rest
      pure (npSqrt e :: r)

/-- l2_error_post_processor.py:7-64 `l2_error` -/
noncomputable def l2Error (dim : Nat) (fe : FeSpace X) (functions : Dict String (Exact X))
    (alpha : List ℝ) (skip : List String) : Res (List (Option ℝ)) := do
  rule fe.quadrature dim
  overFields dim skip (fun name s i el => do
    let d ← fe.dests i
    let dest ← d.getItem name
    let al ← fancy alpha dest
    let f ← functions.getItem name
    let fh ← discreteTable dim s el al
    let diff ← bsub (exactTable dim s el f) fh
    pure (sumSq el diff)) fe.spaces

/-- l2_error_post_processor.py:67-117 `l2_error_projected` -/
noncomputable def l2ErrorProjected (dim : Nat) (fe : FeSpace X) (alpha : List ℝ)
    (skip : List String) (shift : Nat) : Res (List (Option ℝ)) := do
  rule fe.quadrature dim
  overFields dim skip (fun name s i el => do
    let d ← fe.dests i
    let dest ← d.getItem name
    let al ← fancy alpha (dest.map (· + shift))
    let fh ← discreteTable dim s el al
    pure (sumSq el fh)) fe.spaces

/-- solution_norms_post_processor.py:28-34: for vector families the values are not cut. -/
def normTable (dim : Nat) (s : ESpace X) (el : Elem X) (f : Exact X) : Table :=
  if s.lagrange then ⟨min dim f.rows, 1, fun i c _ => f.val el.x c 0 i⟩
  else ⟨f.rows, f.cols, fun i c d => f.val el.x c d i⟩

/-- solution_norms_post_processor.py:7-38 `l2_norm` -/
noncomputable def l2Norm (dim : Nat) (fe : FeSpace X) (functions : Dict String (Exact X))
    (skip : List String) : Res (List (Option ℝ)) := do
  rule fe.quadrature dim
  overFields dim skip (fun name s _ el => do
    let f ← functions.getItem name
    pure (sumSq el (normTable dim s el f))) fe.spaces

end Verif.L2Error
