/- What the domains of the degenerate examples should be. -/
import Verif.Model.ExampleDomain
import Verif.Spec.DomainMarket

namespace Verif.Topology
open Shape
variable {P : Type}

/-- The number of edges that end at a vertex -/
def degree (edges : List (Shape P)) (i : Nat) : Nat :=
  (edges.filter fun e => (i : Int) ∈ e.boundary.map Shape.tag).length

/-- The signs a wire stores for the edges with a given tag -/
def signsOf (close : P → P → Bool) (w : Shape P) (t : Int) : List Int :=
  ((w.immersed.zip (storedOrientation close w)).filter fun p => p.1.tag = t).map Prod.snd

/-- The physical tags of edges in the order of their numbers, beginning with `first`; the
skipped ones get none. -/
def numbered (skip : List Nat) (first : Int) (i : Nat) : Option Int :=
  if i ∈ skip then none else some (first + (((List.range i).filter (· ∉ skip)).length : Int))

end Verif.Topology
