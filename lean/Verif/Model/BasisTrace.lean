/-
Model of src/basis/basis_trace.py, with `FiniteElement.evaluate_mapping`
(src/basis/finite_element.py:131-155), and of the search for the element of a neighbour
(product_space.py:139-144 and the boundary forms in src/weak_forms).

* What a basix element of a given kind does is a parameter (`Kind`).
* The values of `find_higher_dimension_neighs` are pairs of a dimension and an id, while the keys of
  `id_to_element` are ids; a key is therefore an id or a pair.
-/
import Verif.Model.Basis
import Verif.Model.Space

namespace Verif.BasisTrace
open MeshBuild MeshGraph Dof Space Trace Orient Basis Mapping

/-- A Python value used as a key -/
inductive Key where
  | id (n : Nat)
  | index (n : Node)
  deriving DecidableEq

/-- `id_to_element` with its keys seen as Python values -/
def keyed (d : Dict Nat Nat) : Dict Key Nat := d.map fun p => (.id p.1, p.2)

/-- `neigh_list = find_higher_dimension_neighs(cell, space.dof_map.mesh_topology)`, the assertion, and
`neigh_list[k]` -/
def neighbour (s : Space) (c1 : Cell) (k : Nat) : Res Node := do
  let m ← s.getDofMap
  let neighs ← findHigherNeighs c1 m.topology
  if neighs.length = 0 then .error .assertionError else getIdx neighs k

/-- `space.elements[space.id_to_element[key]]` -/
def elementAt (s : Space) (key : Key) : Res Element := do
  let i ← (keyed s.idToElement).getItem key
  getIdx s.elements i

/-- The search with `neigh_list[k][1]` (`k = 0`): laplace_dual_weak_form.py:118-123,
le_primal_weak_form.py:252-257, le_dual_weak_form.py:542-547, lce_dual_weak_form.py:692-697, 715-720,
799-804, 822-827, lce_scaled_dual_weak_form.py:746-751, 769-774, degenerate_elliptic_weak_form.py:165-170,
unscaled_elliptic_weak_form.py:171-176 -/
def elementById (s : Space) (c1 : Cell) (k : Nat) : Res Element := do
  let n ← neighbour s c1 k
  elementAt s (.id n.2)

/-- The search with `neigh_list[k]`: basis_trace.py:40-47, and with `k = 0`
laplace_primal_weak_form.py:106-111, le_dual_weak_form.py:610-615, lce_scaled_dual_weak_form.py:852-857,
870-875 -/
def elementByIndex (s : Space) (c1 : Cell) (k : Nat) : Res Element := do
  let n ← neighbour s c1 k
  elementAt s (.index n)

section
variable {K : Type} [Field K]

/-- What an element does: its degrees of freedom, its map, `tabulate(1, points)` and whether the family
asked for is one of vectors. -/
structure Kind (K : Type) where
  data : DofData K
  map : MapType
  tabulate : List (List K) → Table K
  vector : Bool

/-- finite_element.py:131-155 and mapping.py:40-58 for cells of positive dimension: the Jacobian with its determinant and
inverse at every point.  Without points the results cannot be unpacked. -/
noncomputable def evaluateGeometry [LinearOrder K]
    (qr : ∀ d, Matrix (Fin 3) (Fin d) K → Matrix (Fin 3) (Fin d) K × Matrix (Fin d) (Fin d) K)
    (pts : Points K) (c : Cell) (points : List (List K)) : Res (Geo K c.dimension) := do
  let cellPoints ← fancy pts c.nodeTags
  if cellPoints.length ≠ c.dimension + 1 then .error .valueError
  else if points.length = 0 then .error .valueError
  else do
    let jac := jacobian c.dimension cellPoints
    let p ← detAndPseudoInverse (qr c.dimension) jac
    pure ⟨jac, p.1, p.2⟩

/-- basis_trace.py:20-27: the functions of the facet alone -/
def selectDofs (data : DofData K) (c1 c0 : Cell) (t : Table K) : Res (Table K) := do
  let ids ← Cell.subIds c0 c1.dimension
  let i ← indexOf ids c1.id
  let row ← getIdx data.entityDofs c1.dimension
  let dofs ← getIdx row i
  let phi ← fancy t.phi dofs
  pure { t with phi := phi }

/-- basis_trace.py:9-28 `_trace`; the geometry is the same at all points. -/
noncomputable def trace [LinearOrder K]
    (qr : ∀ d, Matrix (Fin 3) (Fin d) K → Matrix (Fin 3) (Fin d) K × Matrix (Fin d) (Fin d) K)
    (pts : Points K) (cells : Cells) (kind : Kind K) (points : List (List K)) (c1 c0 : Cell)
    (bc : List Bool) (all : Bool) : Res (Table K) := do
  let mapped ← transformLowerToHigher points c1 c0
  let geo ← evaluateGeometry qr pts c0 mapped
  let t ← evaluateBasis cells c0 bc kind.data kind.vector kind.map (fun _ => geo) (kind.tabulate mapped)
  if all then pure t else selectDofs kind.data c1 c0 t

/-- basis_trace.py:31-50 `trace_discrete_space` -/
noncomputable def traceSpace [LinearOrder K]
    (qr : ∀ d, Matrix (Fin 3) (Fin d) K → Matrix (Fin 3) (Fin d) K × Matrix (Fin d) (Fin d) K)
    (pts : Points K) (kind : Kind K) (s : Space) (points : List (List K)) (c1 : Cell) (all : Bool)
    (neighIdx : Nat) : Res (Table K) := do
  let el ← elementByIndex s c1 neighIdx
  trace qr pts s.mesh.cells kind points c1 el.cell el.bcEntities all

/-- basis_trace.py:53-70 `trace_product_space`; unknown fields raise `KeyError` before anything else. -/
noncomputable def traceProduct [LinearOrder K]
    (qr : ∀ d, Matrix (Fin 3) (Fin d) K → Matrix (Fin 3) (Fin d) K × Matrix (Fin d) (Fin d) K)
    (pts : Points K) (kind : String → Kind K) (fields : List String) (p : Product)
    (points : List (List K)) (c1 : Cell) (all : Bool) (neighIdx : Nat) :
    Res (Dict String (Table K)) := do
  let subs ← mapRes (fun f => do
    let s ← p.spaces.getItem f
    pure (f, s)) fields
  let traces ← mapRes (fun q : String × Space => do
    let t ← traceSpace qr pts (kind q.1) q.2 points c1 all neighIdx
    pure (q.1, t)) (Dict.ofList subs)
  pure traces

end

end Verif.BasisTrace
