/-
What a box-shaped domain should be.
-/
import Verif.Model.DomainMarket
import Verif.Spec.Shape

namespace Verif.Topology
open Shape
variable {P : Type}

/-- The edges form a closed loop through the corners, and the orientation of a wire made of them
follows it. -/
def ClosedLoop (close : P → P → Bool) (edges corners : List (Shape P)) : Prop :=
  ∃ v rest signs, corners = v :: rest ∧ IsChain edges (corners ++ [v]) ∧
    orientEdges close edges = .ok signs ∧ FollowsChain edges (corners ++ [v]) signs

/-- The corner of the unit cube with number `i`: counterclockwise around the bottom, then around the
top. -/
def cubeCorner (i : Nat) : Fin 3 → Bool
  | 0 => i % 4 = 1 ∨ i % 4 = 2
  | 1 => i % 4 = 2 ∨ i % 4 = 3
  | 2 => 4 ≤ i

/-- The side of the unit cube that gets the label `bc_k`: the coordinate that is fixed, and
whether it is at its greater value. -/
def cubeSide (k : Nat) : Option (Fin 3 × Bool) :=
  [((2 : Fin 3), false), (2, true), (1, false), (0, true), (1, true), (0, false)][k]?

/-- Two corners of the unit cube that differ in one coordinate. -/
def Adjacent (i j : Nat) : Prop :=
  ∃ c, cubeCorner i c ≠ cubeCorner j c ∧ ∀ c', c' ≠ c → cubeCorner i c' = cubeCorner j c'

instance (i j : Nat) : Decidable (Adjacent i j) := by unfold Adjacent; infer_instance

/-- The vertices of a domain on the given points, numbered from 0. -/
def VerticesAt (points : List P) (tag : Nat → Option Int) (vertices : List (Shape P)) : Prop :=
  vertices.length = points.length ∧
    ∀ (i : Nat) x, points[i]? = some x → vertices[i]? = some (Shape.vertex i (tag i) x)

end Verif.Topology
