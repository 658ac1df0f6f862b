/-
Model of the advection forms of examples/geothermal_flow/ThreeFieldsAdvectionDiffusionWeakForm.py (lines 267-527) and of
the sequences of facets of examples/geothermal_flow/three_fields_advection_diffusion.py:320-343 and
examples/geothermal_flow/hydrothermal_system.py:224-245.

The forms are modelled in dimension one, the only one of the example: a facet is a vertex with one quadrature point of
weight one and `det_jacs` is one (lines 332, 469).  Values are elements of an ordered field; of the arrays with derivatives
the values are kept.  The traces of the basis functions, the positions and the normal are given.
-/
import Verif.Model.MeshGraph
import Verif.Model.Laplace
import Mathlib.Algebra.Order.Field.Basic
import Mathlib.Algebra.Order.AbsoluteValue.Basic

namespace Verif.ThreeFields
open MeshGraph MeshBuild Laplace L2Form

/-! ### The sequences of facets -/

/-- What is looked up: a cell id or a node of the graph -/
inductive Key where
  | id (n : Nat)
  | node (n : Node)

/-- `gidx_midx[k]`: the keys of `id_to_element` are cell ids (discrete_space.py:152). -/
def lookup (gidx : Dict Nat Nat) : Key → Res Nat
  | .id n => gidx.getItem n
  | .node _ => .error .keyError

/-- `list(graph.predecessors(k))`: the nodes of the graph are pairs (mesh.py:649-651). -/
def predecessorsOf (g : DiGraph Node) : Key → Res (List Node)
  | .id _ => .error .networkXError
  | .node n => g.predecessors n

/-- three_fields_advection_diffusion.py:321-325 (hydrothermal_system.py:225-229); `key` is what is passed to
`predecessors` for a facet. -/
def c1Triplets (key : Cell → Key) (m : Mesh) (dim : Nat) : Res (List (Nat × List Node)) := do
  let c1 ← selectCells (fun c => c.dimension + 1 == dim) m.cells
  let g ← buildGraph m dim 1
  mapRes (fun c => do
    let ps ← predecessorsOf g (key c)
    pure (c.id, ps)) c1

/-- three_fields_advection_diffusion.py:326-343, hydrothermal_system.py:230-245; `pair` is what is looked up for the cell of
a boundary facet. -/
def sequencesOf (pair : Node → Key) (gidx : Dict Nat Nat) (t : List (Nat × List Node)) :
    Res (List (Nat × List Nat) × List (Nat × Nat)) := do
  let si ← mapRes (fun t : Nat × List Node => do
    let n0 ← getIdx t.2 0
    let a ← lookup gidx (.node n0)
    let n1 ← getIdx t.2 1
    let b ← lookup gidx (.node n1)
    pure (t.1, [a, b])) (t.filter fun t => t.2.length == 2)
  let se ← mapRes (fun t : Nat × List Node => do
    let n0 ← getIdx t.2 0
    let a ← lookup gidx (pair n0)
    pure (t.1, a)) (t.filter fun t => t.2.length == 1)
  pure (si, se)

/-- three_fields_advection_diffusion.py:321-343 -/
def sequencesThree (m : Mesh) (dim : Nat) (gidx : Dict Nat Nat) :
    Res (List (Nat × List Nat) × List (Nat × Nat)) := do
  let t ← c1Triplets (fun c => .node (c.dimension, c.id)) m dim
  sequencesOf (fun n => .id n.2) gidx t

/-- hydrothermal_system.py:225-245 -/
def sequencesHydro (m : Mesh) (dim : Nat) (gidx : Dict Nat Nat) :
    Res (List (Nat × List Nat) × List (Nat × Nat)) := do
  let t ← c1Triplets (fun c => .id c.id) m dim
  sequencesOf .node gidx t

/-! ### The forms -/

section
variable {K : Type} [Field K] [LinearOrder K]

/-- `np.isclose(a, b)` -/
def isClose (a b : K) : Bool := decide (|a - b| ≤ 1 / 10 ^ 8 + 1 / 10 ^ 5 * |b|)

/-- Lines 389-393 and 512-516: the value of the inner side `inner` or of the outer one -/
def upwind (vn inner outer : K) : K :=
  let beta : K := if vn > 0 ∨ isClose vn 0 then 1 else 0
  (1 - beta) * outer + beta * inner

/-- One side of a facet: number of degrees of freedom of the fields, the degrees of freedom of the facet and the values of
the basis functions there -/
structure Side (K : Type) where
  nQ : Nat
  nM : Nat
  nU : Nat
  dofs : List Nat
  dm : Nat → K
  du : Nat → K
  /-- the outward normal -/
  normal : K

/-- Number of degrees of freedom of a cell -/
def Side.nDof (s : Side K) : Nat := s.nQ + s.nM + s.nU

/-- Lines 370-371: `alpha[:, idx_dof["m"]][:, dofs]` -/
def Side.alphaM (s : Side K) (alpha : Nat → K) : Res (List K) :=
  mapRes (fun d => if d < s.nM then .ok (alpha (s.nQ + d)) else .error .indexError) s.dofs

/-- Line 382: the trace of the advective flux -/
def Side.m (s : Side K) (am : List K) : K := ((List.range am.length).map fun l => am.getD l 0 * s.dm l).sum

/-- Line 386: the trace of the scalar -/
def Side.u (s : Side K) (alpha : Nat → K) : K :=
  ((List.range s.nU).map fun a => alpha (s.nQ + s.nM + a) * s.du a).sum

/-- Lines 399-400, 521: the values `v` are written in the places `shift + dofs`; the last one wins. -/
def scatter (r : Nat → K) (shift : Nat) (dofs : List Nat) (v : Nat → K) : Nat → K :=
  (List.range dofs.length).foldl (fun r k => Function.update r (shift + dofs.getD k 0) (v k)) r

/-- Lines 267-406 `ThreeFieldsAdvectionWeakForm.evaluate_form` after the traces: `p` and `n` are the sides, `velocity` the
velocity in the point.  The facet has the same number of degrees of freedom on both sides; for other numbers, which do
not occur, the shapes of line 375 do not match. -/
def interfaceForm (velocity : K) (p n : Side K) (alphaP alphaN : Nat → K) : Res (Vec K) := do
  if p.nQ ≠ n.nQ then .error .assertionError
  else if p.nM ≠ n.nM then .error .assertionError
  else if p.nU ≠ n.nU then .error .assertionError
  else do
    let amP ← p.alphaM alphaP
    let amN ← n.alphaM alphaN
    if amP.length ≠ amN.length then .error .valueError
    else if !(List.zipWith isClose amP amN).all id then .error .assertionError
    else
      let vn := velocity * p.normal
      let uv := upwind vn (p.u alphaP) (n.u alphaN) * vn
      let r := scatter (fun _ => 0) p.nQ p.dofs fun k => 1 / 2 * (p.m amP - uv) * p.dm k
      let r := scatter r (p.nDof + p.nQ) n.dofs fun k => 1 / 2 * (n.m amN - uv) * n.dm k
      pure ⟨2 * p.nDof, r⟩

/-- `np.sign` -/
def sgn (a : K) : K := if a > 0 then 1 else if a < 0 then -1 else 0

/-- Lines 409-527 `ThreeFieldsAdvectionWeakFormBC.evaluate_form` after the traces; `value` is the prescribed scalar -/
def boundaryForm (velocity value : K) (s : Side K) (alpha : Nat → K) : Res (Vec K) := do
  let am ← s.alphaM alpha
  let vn := velocity * s.normal
  let uv := upwind vn (s.u alpha) value * vn
  pure ⟨s.nDof, scatter (fun _ => 0) s.nQ s.dofs fun k => (s.m am - sgn s.normal * uv) * s.dm k⟩

/-- The head of the forms (lines 12-37, 137-158, 268-299 and 410-437, HydrothermalWeakForms.py:15-61, 304-319, 399-441
and 631-668): the fields and the functions are looked up, the elements `iels` of the fields `data` are read and the quadrature is
unpacked; `body` is the rest and `missing` what is raised without space or functions. -/
def header {E F Q R : Type} (missing : Err) (fields functions data : List String) (iels : List Nat) (quadrature : List Q)
    (space : Option (Dict String (FSpace E))) (fs : Option (Dict String F)) (body : Q × Q → Res R) : Res R :=
  match space, fs with
  | some spaces, some fs => do
    let _ ← mapRes (fun f => spaces.getItem f) fields
    let _ ← mapRes (fun f => fs.getItem f) functions
    let _ ← mapRes (fun iel => mapRes (fun f => do
      let s ← spaces.getItem f
      getIdx s.elements iel) data) iels
    let q ← unpackTwo quadrature
    body q
  | _, _ => .error missing

end

end Verif.ThreeFields
