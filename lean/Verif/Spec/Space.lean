/-
Specification vocabulary for C16-C20: discrete spaces and product spaces.
-/
import Verif.Spec.DofMap
import Verif.Model.Space

namespace Verif.Space
open MeshBuild MeshGraph Dof

/-- What is assumed of basix: an element created for cells of dimension `d` has one non-empty
dof list per dimension `0..d`. -/
def GoodBasix (basix : Basix) : Prop :=
  ∀ f d k disc ned, basix f d k disc = .ok ned → IsRef ned d

/-- The mesh of a space is a well-formed mesh of non-degenerate simplices (as produced by
`build_conformal_mesh`, see `built_wellFormed`). -/
structure GoodMesh (m : Mesh) : Prop where
  wf : WellFormed m.cells
  nodup : SubNodup m.cells
  closed : SubClosed m.cells

/-- The topology of a space is one of its mesh and dimension (true after `__init__`). -/
def Space.Consistent (s : Space) : Prop :=
  s.topology.mesh = s.mesh ∧ s.topology.dimension = s.dimension

/-- `s` results from `build_structures(tags)` and `build_boundary_structures(bTags)`. -/
def IsBuilt (basix : Basix) (tags bTags : List (Option Int)) (s : Space) : Prop :=
  ∃ s₀ s₁ : Space, s₀.Consistent ∧ s₀.bcElements = [] ∧ s₀.bcElementIds = [] ∧
    s₀.idToBcElement = [] ∧ s₀.buildStructures basix tags = .ok s₁ ∧
    s₁.buildBoundaryStructures basix bTags = .ok s

/-- Number of degrees of freedom of a built space. -/
def Space.nDof (s : Space) : Nat := match s.dofMap with | some m => m.nDof | none => 0

/-- `p` was made from `data`, some fields made discontinuous, and its structures built. -/
def BuiltFrom (basix : Basix) (data : Dict String FieldData) (disc : Dict String Bool)
    (tags bTags : Dict String (List (Option Int))) (p : Product) : Prop :=
  data.keys.Nodup ∧ (∀ q ∈ data, GoodMesh q.2.mesh) ∧
    ∃ p₀, Product.new data = .ok p₀ ∧
      (p₀.makeDiscontinuous disc).buildStructures basix tags bTags = .ok p

/-- First number of field `k`: after the shift come all dofs of the earlier fields. -/
def fieldStart (spaces : Dict String Space) (shift k : Nat) : Nat :=
  shift + ((spaces.take k).map fun p => p.2.nDof).sum

/-- Translate all index lists of a dictionary. -/
def translate (n : Nat) (d : Dict String (List Nat)) : Dict String (List Nat) :=
  d.map fun p => (p.1, p.2.map (· + n))

/-- The intended family of a space: Lagrange on points, Lagrange for vector families on lines. -/
def intendedFamily (dimension : Nat) (f : Family) : Family :=
  match dimension, f with
  | 0, _ => .P
  | 1, _ => .P
  | _, f => f

/-- The intended boundary element: order 0 Lagrange on points; otherwise Lagrange `k` for BDM and
`k-1` for RT, both discontinuous, Lagrange `k` for Lagrange; `N1E k` on faces, Lagrange `k` on
edges for the remaining family. -/
def intendedBc (dimension : Nat) (f : Family) (k : Int) (disc : Bool) : Family × Int × Bool :=
  match dimension, f with
  | 0, _ => (.P, 0, disc)
  | 1, _ => (.P, 0, disc)
  | _, .BDM => (.P, k, true)
  | _, .RT => (.P, k - 1, true)
  | _, .P => (.P, k, disc)
  | 2, .N1E => (.P, k, disc)
  | _, .N1E => (.N1E, k, disc)

end Verif.Space
