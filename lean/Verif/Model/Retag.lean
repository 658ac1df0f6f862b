/-
Model of `Domain.retag_shapes_with_dimension` and `retag_shapes` (src/topology/domain.py:51-65).

Retagging mutates shapes that are referenced from several places, so here a domain is a store of
objects and its lists hold references into it.
-/
import Verif.Prelude

namespace Verif.Topology

/-- A shape object, without its geometry.  `immersed` are the references returned by the getter
`immersed_shapes`: they do not depend on tags. -/
structure Obj where
  dimension : Nat
  tag : Int
  immersed : List Nat
  deriving DecidableEq, Repr

/-- The shape objects and the lists of the domain. -/
structure Store where
  objs : List Obj
  shapes : List (List Nat)
  deriving DecidableEq, Repr

/-- `shape.tag = tag; tag += 1` -/
def setTag (st : List Obj × Int) (r : Nat) : Res (List Obj × Int) := do
  let o ← getIdx st.1 r
  pure (st.1.set r { o with tag := st.2 }, st.2 + 1)

/-- domain.py:57-61: the immersed shapes; the guard (line 58) looks at the dimension of `shape`,
not at that of `ishape`. -/
def retagImmersed (dim shapeDim : Nat) (st : List Obj × Int) (r : Nat) : Res (List Obj × Int) :=
  if shapeDim ≠ dim then pure st else setTag st r

/-- domain.py:53-61: one shape of the list. -/
def retagShape (dim : Nat) (st : List Obj × Int) (r : Nat) : Res (List Obj × Int) := do
  let o ← getIdx st.1 r
  let st ← setTag st r
  o.immersed.foldlM (retagImmersed dim o.dimension) st

/-- domain.py:51-61 `retag_shapes_with_dimension` -/
def retagDim (st : Store) (dim : Nat) : Res Store := do
  let refs ← getIdx st.shapes dim
  let out ← refs.foldlM (retagShape dim) (st.objs, 0)
  pure { st with objs := out.1 }

/-- domain.py:63-65 `retag_shapes`, for a domain of dimension `dimension`. -/
def retagAll (dimension : Nat) (st : Store) : Res Store :=
  (List.range (dimension + 1)).foldlM retagDim st

end Verif.Topology
