/- What the spaces of a mixed method should be. -/
import Verif.Model.DriverSpaces

namespace Verif.DriverSpaces
open Space MeshGraph

/-- The order of the divergences of a family: those of `RT k` and `BDM k` are all polynomials of order `k - 1`. -/
def divergenceOrder : Family → Int → Option Int
  | .RT, k => some (k - 1)
  | .BDM, k => some (k - 1)
  | _, _ => none

/-- The number of rows of a tensor and the number of rotations in dimension `d` -/
def rotations (d : Nat) : Nat := d * (d - 1) / 2

/-- `flux` and `potential` fit: the divergences of the flux are the potentials, which have no continuity; the flux is
conforming; both live on the same cells with as many components; only the flux has boundary elements. -/
structure Pair (p : Plan) (flux potential : String) : Prop where
  fields : ∃ f q fam, p.data.get? flux = some f ∧ p.data.get? potential = some q ∧
    familyByName f.family = .ok fam ∧ familyByName q.family = .ok .P ∧
    divergenceOrder fam f.kOrder = some q.kOrder ∧ f.nComp = q.nComp ∧ f.dimension = q.dimension ∧ f.mesh = q.mesh
  conforming : p.disc.get? flux = some false
  broken : p.disc.get? potential = some true
  cells : ∃ t, p.tags.get? flux = some t ∧ p.tags.get? potential = some t
  boundary : (∃ t, p.bTags.get? flux = some t ∧ t ≠ []) ∧ p.bTags.get? potential = none

/-- The components of a field -/
def HasComponents (p : Plan) (name : String) (n : Nat) : Prop := ∃ f, p.data.get? name = some f ∧ f.nComp = n

/-- The attributes of a built space that the plan decides -/
def Follows (p : Plan) (s : Dict String Space) : Prop :=
  s.keys = p.data.keys ∧ ∀ name f, p.data.get? name = some f → ∃ sp, s.get? name = some sp ∧
    familyByName f.family = .ok sp.generator ∧ sp.dimension = f.dimension ∧ sp.nComp = f.nComp ∧
    sp.kOrder = f.kOrder ∧ sp.discontinuous = (p.disc.get? name).getD false

/-- The tags of a box: the first of the default tags is the interior, the others are the sides. -/
def boxTags : Nat → Dict String Int
  | 1 => Topology.defaultTags1
  | 2 => Topology.defaultTags2
  | _ => Topology.defaultTags3

end Verif.DriverSpaces
