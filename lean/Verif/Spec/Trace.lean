/-
Specification vocabulary for C27: facets of a cell and points of a reference cell.
-/
import Verif.Spec.Mesh
import Verif.Model.Trace

namespace Verif.Trace
open MeshBuild

/-- `facet` is a facet of `neigh`: its id is listed, and the face of `neigh` at the first position
where it is listed has the nodes of `facet`, in some order. -/
structure FacetOf (neigh facet : Cell) : Prop where
  dim : neigh.dimension = facet.dimension + 1
  dimLe : neigh.dimension ≤ 3
  nodes : neigh.nodeTags.length = neigh.dimension + 1
  listed : ∃ ids, neigh.sub[facet.dimension]? = some ids ∧ facet.id ∈ ids ∧
    ∃ x, (faces facet.dimension neigh.nodeTags)[ids.idxOf facet.id]? = some x ∧
      facet.nodeTags.Perm x

/-- Points of the reference cell of dimension `d`, as the quadrature rules give them: rows of `d`
coordinates, and the array `[1.0]` for a point (product_space.py:41-43). -/
def RefPoints {K : Type} [One K] (d : Nat) (points : List (List K)) : Prop :=
  (d = 0 → points = [[1]]) ∧ (d ≠ 0 → ∀ p ∈ points, p.length = d)

end Verif.Trace
