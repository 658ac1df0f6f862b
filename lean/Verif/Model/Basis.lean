/-
Model of `FiniteElement.evaluate_basis` (src/basis/finite_element.py:157-187), in exact arithmetic.

* A table `phi_tab[d, p, a, c]` (derivative, point, degree of freedom, component) is kept as the list over
  `a` of functions of `d`, `p` and `c`, with the sizes of the other axes.  The functions are only
  meaningful below the sizes.
* The basix element is a parameter: the result of `tabulate` and the map of `push_forward`, which is
  the identity or one of the Piola maps.  After a Piola map there are three components, as the rows of the
  Jacobian.
* The family is the one requested; on edges the element itself is a Lagrange element
  (`FiniteElement.family`), so that its map is the identity.
-/
import Verif.Model.Mapping
import Verif.Model.Orientation

namespace Verif.Basis
open MeshBuild MeshGraph Trace Orient

variable {K : Type} [Field K]

/-- The geometry at one point: `jac`, `det_jac`, `inv_jac` -/
structure Geo (K : Type) (d : Nat) where
  jac : Matrix (Fin 3) (Fin d) K
  det : K
  inv : Matrix (Fin d) (Fin 3) K

/-- The same with another name for the dimension -/
def Geo.cast {K : Type} {d e : Nat} (g : Geo K d) (h : d = e) : Geo K e :=
  ⟨fun i k => g.jac i (Fin.cast h.symm k), g.det, fun k i => g.inv (Fin.cast h.symm k) i⟩

/-- The map of a basix element -/
inductive MapType where
  | identity
  | contravariant
  | covariant
  deriving DecidableEq

/-- A table -/
structure Table (K : Type) where
  nDer : Nat
  nPts : Nat
  nComp : Nat
  phi : List (Nat → Nat → Nat → K)

/-- The number of components after `push_forward` -/
def MapType.size (m : MapType) (nComp : Nat) : Nat :=
  match m with
  | .identity => nComp
  | _ => 3

/-- `push_forward` at one point: `v` are the components on the reference cell -/
def MapType.push {d : Nat} (m : MapType) (g : Geo K d) (v : Nat → K) (c : Nat) : K :=
  match m with
  | .identity => v c
  | .contravariant => if h : c < 3 then g.det⁻¹ * ∑ k : Fin d, g.jac ⟨c, h⟩ k * v k else 0
  | .covariant => if h : c < 3 then ∑ k : Fin d, g.inv k ⟨c, h⟩ * v k else 0

/-- `phi_tab[0] = phi_mapped` -/
def setValues (phi : Nat → Nat → Nat → K) (mapped : Nat → Nat → K) : Nat → Nat → Nat → K :=
  fun d p c => if d = 0 then mapped p c else phi d p c

/-- `np.insert(phi_tab, 2, 0, axis=3)` for one degree of freedom -/
def insertZero (phi : Nat → Nat → Nat → K) : Nat → Nat → Nat → K :=
  fun d p c => if c < 2 then phi d p c else if c = 2 then 0 else phi d p (c - 1)

/-- Lines 163-172 after `tabulate`: the values are mapped; the table gets one more component if the
shapes differ. -/
def mapTable {d : Nat} (m : MapType) (geo : Nat → Geo K d) (t : Table K) : Res (Table K) :=
  if t.nDer = 0 then .error .indexError
  else
    let mapped := fun (phi : Nat → Nat → Nat → K) (p : Nat) => m.push (geo p) (phi 0 p)
    if m.size t.nComp = t.nComp then
      .ok { t with phi := t.phi.map fun phi => setValues phi (mapped phi) }
    else if t.nComp < 2 then .error .indexError
    else if m.size t.nComp ≠ t.nComp + 1 then .error .valueError
    else .ok { t with nComp := t.nComp + 1
                      phi := t.phi.map fun phi => setValues (insertZero phi) (mapped phi) }

/-- `(1.0 / det_jac) * phi_mapped[:, :, 0] * (jac[:, :, 0] @ [1, 0, 0])` for one degree of freedom with
its number, out of `n` points -/
def scaled (geo : Nat → Geo K 1) (n : Nat) (x : (Nat → Nat → Nat → K) × Nat) :
    Nat → Nat → Nat → K :=
  let g := geo (if n = 1 then 0 else x.2)
  setValues x.1 fun p c => if c = 0 then g.det⁻¹ * x.1 0 p 0 * g.jac 0 0 else x.1 0 p c

/-- Lines 174-185: the factor for the families of vectors on edges.  `t` is the table after the
mapping, which is the identity.  A row of shape `(n,)` is multiplied with values of shape `(n, nDof)`, so that
its entries belong to the degrees of freedom instead of the points; for `n = 1` there is one entry. -/
def linePiola (geo : Nat → Geo K 1) (t : Table K) : Res (Table K) :=
  if t.nPts ≠ t.phi.length ∧ t.nPts ≠ 1 then .error .valueError
  else .ok { t with phi := t.phi.zipIdx.map (scaled geo t.nPts) }

/-- `np.ones((1, 1, 1, 1))` -/
def pointTable : Table K := ⟨1, 1, 1, [fun _ _ _ => 1]⟩

/-- Lines 157-187 `evaluate_basis`: `vector` says that the requested family is RT, BDM or N1E. -/
def evaluateBasis (cells : Cells) (c : Cell) (bc : List Bool) (data : DofData K) (vector : Bool)
    (m : MapType) (geo : Nat → Geo K c.dimension) (tab : Table K) : Res (Table K) :=
  if c.dimension = 0 then .ok pointTable
  else do
    let t ← mapTable m geo tab
    let t ← (if h : c.dimension = 1 ∧ vector = true then
        linePiola (fun p => (geo p).cast h.1) t
      else pure t)
    let phi ← permuteAndTransform cells c bc data t.phi
    pure { t with phi := phi }

end Verif.Basis
