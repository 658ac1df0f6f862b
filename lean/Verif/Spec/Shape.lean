/-
What shape equality and wire orientation should mean, without reference to the algorithms.
-/
import Verif.Model.Shape

namespace Verif.Topology
open Shape
variable {P : Type}

/-- The direction in which a sign says that an edge is traversed: from its first to its second
boundary vertex for `1`, back for `-1`. -/
def Traverses (e : Shape P) (sign : Int) (v w : Shape P) : Prop :=
  (sign = 1 ∧ e.boundary = [v, w]) ∨ (sign = -1 ∧ e.boundary = [w, v])

/-- The edges form a chain through the vertices `vs`: the `i`-th edge joins `vs[i]` and
`vs[i + 1]`, in either order. -/
structure IsChain (edges vs : List (Shape P)) : Prop where
  length : vs.length = edges.length + 1
  joins : ∀ i e v w, edges[i]? = some e → vs[i]? = some v → vs[i + 1]? = some w →
    e.boundary = [v, w] ∨ e.boundary = [w, v]
  isVertex : ∀ v ∈ vs, v.dimension = 0

/-- Consecutive vertices of the chain have different tags. -/
def StepsDiffer (vs : List (Shape P)) : Prop :=
  ∀ (i : Nat) (v w : Shape P), vs[i]? = some v → vs[i + 1]? = some w → v.tag ≠ w.tag

/-- The signs follow the chain head to tail. -/
def FollowsChain (edges vs : List (Shape P)) (signs : List Int) : Prop :=
  signs.length = edges.length ∧ ∀ (i : Nat) (e v w : Shape P) (s : Int), edges[i]? = some e →
    vs[i]? = some v → vs[i + 1]? = some w → signs[i]? = some s → Traverses e s v w

/-- What numpy's `argsort` returns: some order of the positions along which the values do not
decrease. -/
structure IsArgsort (argsort : List Int → List Nat) : Prop where
  perm : ∀ l, (argsort l).Perm (List.range l.length)
  sorted : ∀ l, ((argsort l).filterMap fun i => l[i]?).Pairwise (· ≤ ·)

end Verif.Topology
