/-
Model of the elasticity drivers with a stress constraint
(examples/cauchy_elasticity_stress_constraint/cg_elasticity_example_1.py and cg_elasticity_example_2.py, whose lines
are those of the first one moved by five from line 196 on): the Lamé parameters (`compute_lame`), the cells and
facets to which the forms are applied, and the stress in the nodes (`write_vtk_file_with_stress`), in exact
arithmetic.

Simplifications: the elements are those of Model/Laplace.lean, with tabulations, determinants and pseudo-inverses
as parameters; arrays of sizes `dim × dim` are functions; the accumulation over the quadrature points and over the
elements is exact.  The displacement that the file contains too is that of Model/Vtk.lean.
-/
import Verif.Model.Elasticity
import Verif.Model.MeshMetrics
import Verif.Model.Trace

namespace Verif.StressRecovery
open Assembly L2Form Laplace Elasticity MeshGraph Trace

section
variable {K X : Type} [Field K]

/-- lines 392-400 `compute_lame` -/
def computeLame [DecidableEq K] (E nu : K) : Res (K × K) :=
  if (1 + nu) * (1 - 2 * nu) = 0 then .error .zeroDivisionError
  else
    let lam := E * nu / ((1 + nu) * (1 - 2 * nu))
    if 2 * (1 + nu) = 0 then .error .zeroDivisionError
    else .ok (lam, E / (2 * (1 + nu)))

/-- What is read of an element: mapping and tabulation, its degrees of freedom in the global vector and the nodes of
its cell. -/
structure SEl (K X : Type) where
  el : PElem K X
  dest : List Nat
  nodes : List Nat

/-- line 328 `alpha[dest[c::u_comp]]` -/
def component (alpha : List K) (dest : List Nat) (comps c : Nat) : Res (List K) := do
  let idx ← fancy dest (sliceIdx dest.length c dest.length comps)
  fancy alpha idx

/-- lines 345-346: one row `grad_u[c, :] = a_comp[c] @ grad_phi_u` -/
def gradRow (dim : Nat) (g : Arr K) (a : List K) (c : Nat) : Res (Nat → K) := do
  let r ← matmul ⟨1, a.length, fun _ j => a.getD j 0⟩ g
  if dim ≤ c then .error .indexError
  else if r.cols ≠ dim then .error .valueError
  else pure (r.val 0)

/-- lines 344-346: `grad_u` -/
def gradU (dim : Nat) (g : Arr K) (aComp : List (List K)) : Res (Nat → Nat → K) := do
  let rows ← mapRes (fun p : List K × Nat => gradRow dim g p.1 p.2) aComp.zipIdx
  pure fun k l => match rows[k]? with
    | some r => r l
    | none => 0

/-- lines 348-350: `sigma` -/
def pointStress (dim : Nat) (lam mu : K) (gu : Nat → Nat → K) (k l : Nat) : K :=
  let eps : Nat → Nat → K := fun k l => 1 / 2 * (gu k l + gu l k)
  lam * (∑ q ∈ Finset.range dim, eps q q) * (if k = l then 1 else 0) + 2 * mu * eps k l

/-- lines 328-353: `stress_acc` and `vol_acc` of an element -/
def elementStress (dim comps : Nat) (lam mu : K) (alpha : List K) (e : SEl K X) :
    Res ((Nat → Nat → K) × K) := do
  let aComp ← mapRes (component alpha e.dest comps) (List.range comps)
  (List.range e.el.nPts).foldlM (fun (acc : (Nat → Nat → K) × K) i => do
    let g ← gradients e.el i
    let gu ← gradU dim g aComp
    let w := e.el.det i * e.el.weights i
    pure (fun k l => acc.1 k l + w * pointStress dim lam mu gu k l, acc.2 + w)) (fun _ _ => 0, 0)

/-- `stress_nodes` and `weight_nodes` -/
structure Acc (K : Type) where
  stress : Nat → Nat → Nat → K
  weight : Nat → K

/-- lines 361-363, one node -/
def addNode (nPoints : Nat) (s : Nat → Nat → K) (vol : K) (acc : Acc K) (nt : Nat) : Res (Acc K) :=
  if nPoints ≤ nt then .error .indexError
  else .ok ⟨fun p k l => if p = nt then acc.stress p k l + s k l * vol else acc.stress p k l,
    fun p => if p = nt then acc.weight p + vol else acc.weight p⟩

variable [LinearOrder K]

/-- lines 355-363: an element without volume is passed over -/
def addElement (nPoints dim comps : Nat) (lam mu : K) (alpha : List K) (acc : Acc K) (e : SEl K X) : Res (Acc K) := do
  let sv ← elementStress dim comps lam mu alpha e
  if sv.2 ≤ 0 then pure acc
  else e.nodes.foldlM (addNode nPoints (fun k l => sv.1 k l / sv.2) sv.2) acc

/-- lines 366-371: means and symmetric parts in the nodes with a weight -/
def finish (acc : Acc K) (p k l : Nat) : K :=
  if 0 < acc.weight p then 1 / 2 * (acc.stress p k l / acc.weight p + acc.stress p l k / acc.weight p)
  else acc.stress p k l

/-- lines 301-371: the stress in the nodes -/
def recover (nPoints dim comps : Nat) (lam mu : K) (alpha : List K) (els : List (SEl K X)) :
    Res (Nat → Nat → Nat → K) := do
  let acc ← els.foldlM (addElement nPoints dim comps lam mu alpha) ⟨fun _ _ _ => 0, fun _ => 0⟩
  pure (finish acc)

end

/-! ### Where the forms are applied -/

/-- lines 404-412: `mat_ids` of the boundary -/
def bcBottom : List Nat := [4]
def bcTop : List Nat := [5]
def bcWest : List Nat := [6]
def bcEast : List Nat := [7]

/-- lines 184-187: positions of the boundary elements whose material is in the list -/
def facetsOf (tags : List Nat) (materials : List Nat) : List Nat :=
  (materials.zipIdx.filter fun p => p.1 ∈ tags).map Prod.snd

/-- lines 184-191: the positions for the normal condition and for the load, in the order of their evaluation -/
def dirichletFacets (materials : List Nat) : List Nat :=
  facetsOf bcBottom materials ++ facetsOf (bcWest ++ bcEast) materials
def neumannFacets (materials : List Nat) : List Nat := facetsOf bcTop materials

/-- lines 200-204: the squared distance to `xc` -/
noncomputable def dist2 (c : Pt ℝ) : ℝ := (c 0 - 500) ^ 2 + (c 1 - 277) ^ 2 + (c 2 - 0) ^ 2

open Classical in
/-- lines 198-210: positions of the elements that get the constraint -/
noncomputable def insideIdx (centroids : List (Pt ℝ)) : List Nat :=
  (centroids.zipIdx.filter fun p => decide (dist2 p.1 ≤ 100 * 100 + 1 / 10 ^ 12)).map Prod.snd

/-- lines 425-429: modulus (in units of 10⁹ Pa), ratio (in hundredths) and density of the layers -/
def materials : List (String × Nat × Nat × Nat) :=
  [("under", 25, 25, 2500), ("reservoir", 25, 22, 2300), ("over", 20, 26, 2400)]

/-- lines 422-424: the modulus and the ratio of the comment above the table -/
def documented : List (String × Nat × Nat) := [("under", 25, 25), ("reservoir", 12, 22), ("over", 20, 26)]

/-- lines 431-433: the layer whose data are used, for all cells -/
def usedLayer : String := "reservoir"

/-- Numbers and lists of numbers, as far as `==` compares them. -/
inductive PyVal where
  | int (n : Int)
  | list (l : List Int)
deriving DecidableEq

/-- cg_elasticity_example_2.py:417-419: `mat_ids` of wells and fault -/
def matId : String → Option PyVal
  | "well_1" => some (.list [8])
  | "well_2" => some (.list [9])
  | "fault" => some (.list [10])
  | _ => none

/-- cg_elasticity_example_2.py:197-199: `[cell for cell in gmesh.cells if cell.material_id == mat_ids[name]]` -/
def facetsByName (name : String) (cells : List Int) : Res (List Int) :=
  match matId name with
  | none => .error .keyError
  | some v => .ok (cells.filter fun m => PyVal.int m = v)

end Verif.StressRecovery
