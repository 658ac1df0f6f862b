/-
What retagging should do.
-/
import Verif.Model.Retag

namespace Verif.Topology

/-- The references of a domain are valid, and each list holds objects of its own dimension. -/
structure StoreOK (st : Store) : Prop where
  refs : ∀ (k : Nat) (l : List Nat), st.shapes[k]? = some l → ∀ r ∈ l, ∃ o, st.objs[r]? = some o ∧
    o.dimension = k
  immersed : ∀ (r : Nat) (o : Obj), st.objs[r]? = some o → ∀ i ∈ o.immersed, i < st.objs.length

/-- The objects met when the shapes in `l` are visited in order, each followed by its immersed
shapes. -/
def visited (objs : List Obj) (l : List Nat) : List Nat :=
  l.flatMap fun r => r :: (objs[r]?.map Obj.immersed).getD []

/-- The objects of `l` have the tags 0, 1, … in order and the others are as before. -/
structure Retagged (l : List Nat) (objs objs' : List Obj) : Prop where
  length : objs'.length = objs.length
  inOrder : ∀ (i r : Nat) (o : Obj), l[i]? = some r → objs[r]? = some o →
    objs'[r]? = some { o with tag := (i : Int) }
  others : ∀ r : Nat, r ∉ l → objs'[r]? = objs[r]?

end Verif.Topology
