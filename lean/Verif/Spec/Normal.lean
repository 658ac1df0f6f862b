/-
Specification of facet normals.
-/
import Verif.Model.Normal
import Mathlib.LinearAlgebra.Span.Defs
import Mathlib.Analysis.Convex.Hull

namespace Verif.Normal
open Trace MeshMetrics Geometry

/-- `n` is the unit normal of the facet with the given nodes that points away from the simplex with
the additional node `o`: it is orthogonal to the facet, lies in the space spanned by the simplex,
and the node `o` is strictly behind the facet. -/
structure OutwardNormal (n : Pt ℝ) (facet : List (Pt ℝ)) (o : Pt ℝ) : Prop where
  unit : norm3 n = 1
  orthogonal : ∀ x ∈ facet, ∀ y ∈ facet, dot n (x - y) = 0
  span : n ∈ Submodule.span ℝ {v | ∃ x ∈ facet, v = x - o}
  away : ∀ x ∈ facet, dot n (o - x) < 0

end Verif.Normal
