/-
What the transfer of a domain to gmsh by `DiscreteDomain` is expected to do.
-/
import Verif.Model.DiscreteDomain
import Verif.Spec.Mesher
import Verif.Spec.Shape

namespace Verif.DiscreteDomain
open Topology Topology.Shape Mesher
variable {P : Type}

/-- The choices of this transfer: the curves left out and the orientation of wires. -/
def variant (close : P → P → Bool) : Variant P := ⟨skipCurve, wireOrientation close⟩

/-- The tag in gmsh of a shape of dimension `k`: its tag after the numbers of shapes of dimension up
to `k`. -/
def occTag (shapes : List (List (Shape P))) (k : Nat) (t : Int) : Int := stride shapes (k + 1) + t + 1

/-- The entities of dimension `k` are those of the transferred shapes, as long as no dimension below
is empty. -/
def EntitiesAre (v : Variant P) (shapes : List (List (Shape P))) (made : List Ent) : Prop :=
  ∀ (k : Nat) (t : Int), k < shapes.length → (∀ j < k, noShapes shapes j = false) →
    (.dim k t ∈ made ↔
      ∃ l, shapes[k]? = some l ∧ ∃ s ∈ l, Transferred v k s ∧ t = occTag shapes k s.tag)

/-- A domain whose shapes up to dimension two have their parts in it: the tags are natural
numbers, unique in each dimension, and only surfaces that are not composite have physical tags. -/
structure Whole (v : Variant P) (shapes : List (List (Shape P))) : Prop where
  pos : 0 < shapes.length
  small : shapes.length ≤ 4
  nonneg : ∀ (k : Nat) l, shapes[k]? = some l → ∀ s ∈ l, 0 ≤ s.tag
  unique : ∀ (k : Nat) l, shapes[k]? = some l → (l.map Shape.tag).Nodup
  vertices : ∀ l, shapes[0]? = some l → ∀ s ∈ l, ∃ t p x, s = .vertex t p x
  curves : ∀ l, shapes[1]? = some l → ∀ s ∈ l, v.skipCurve s = false →
    ∃ b e rest, s.boundary = b :: e :: rest ∧ Known v shapes 0 b.tag ∧ Known v shapes 0 e.tag
  surfaces : ∀ l, shapes[2]? = some l → ∀ s ∈ l, s.composite = false →
    ∃ wire rest o, s.boundary = wire :: rest ∧ v.orientation wire = .ok o ∧
      o.length ≤ wire.immersed.length ∧ (∀ x ∈ o, x = 1 ∨ x = -1) ∧
      ∀ c ∈ wire.immersed, Known v shapes 1 c.tag
  inCurve : ∀ l, shapes[1]? = some l → ∀ s ∈ l, v.skipCurve s = false →
    ∀ w ∈ s.immersed, Known v shapes 0 w.tag
  inSurface : ∀ l, shapes[2]? = some l → ∀ s ∈ l, s.composite = false → ∀ c ∈ s.immersed,
    (∀ w ∈ c.boundary, Known v shapes 0 w.tag) ∧ (∀ w ∈ c.immersed, Known v shapes 1 w.tag) ∧
    (c.immersed = [] → Known v shapes 1 c.tag)
  tagged : ∀ l, shapes[2]? = some l → ∀ s ∈ l, s.physicalTag ≠ none → s.composite = false

/-- The shapes of dimension `k` that the transfer sees. -/
def shapesAt (shapes : List (List (Shape P))) (k : Nat) : List (Shape P) :=
  if k ≤ scanDimension shapes then shapes[k]?.getD [] else []

/-- The dimension and the physical tag of the groups. -/
def groupKeys (calls : List (Call P)) : List (Nat × Int) :=
  calls.filterMap fun
    | .addPhysicalGroup k _ p => some (k, p)
    | _ => none

end Verif.DiscreteDomain
