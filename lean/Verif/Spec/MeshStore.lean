/-
Specification vocabulary for C06 and C10.
-/
import Verif.Spec.MeshGraph
import Verif.Model.MeshStore

namespace Verif.MeshStore
open MeshBuild MeshGraph

/-- Every slot holds a cell and ids are positions. -/
def IdsArePositions (cells : Cells) : Prop :=
  ∀ i (_ : i < cells.length), ∃ c, Stored cells i c ∧ c.id = i

/-- Two requests for the same entity. -/
def SameEntity (r r' : Request) : Prop :=
  r.sign = r'.sign ∧ r.typeIndex = r'.typeIndex ∧ r.tags = r'.tags

instance (r r' : Request) : Decidable (SameEntity r r') := by unfold SameEntity; infer_instance

/-- `n` is written with `w` decimal digits. -/
def HasWidth (w n : Nat) : Prop := n < 10 ^ w ∧ (10 ^ (w - 1) ≤ n ∨ (n = 0 ∧ w = 1))

/-- A request for a simplex (as many tags as its type index says), with a one digit sign and node
tags of one common number of digits. -/
def Plain (w : Nat) (r : Request) : Prop :=
  r.tags.length = r.typeIndex ∧ r.typeIndex ≤ 4 ∧ r.sign.natAbs < 10 ∧ ∀ t ∈ r.tags, HasWidth w t

end Verif.MeshStore
