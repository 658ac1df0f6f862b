/-
Specification vocabulary for C36 and C37.
-/
import Verif.Spec.MeshGraph
import Verif.Model.MeshMetrics
import Mathlib.Analysis.InnerProductSpace.PiL2
import Mathlib.Analysis.Normed.Module.Convex

namespace Verif.MeshMetrics
open MeshBuild MeshGraph Trace

/-- A point as an element of the Euclidean space. -/
noncomputable def toE (p : Pt ℝ) : EuclideanSpace ℝ (Fin 3) := WithLp.toLp 2 p

/-- The simplex spanned by the nodes of a cell. -/
noncomputable def hull (ps : List (Pt ℝ)) : Set (EuclideanSpace ℝ (Fin 3)) :=
  convexHull ℝ {x | ∃ p ∈ ps, x = toE p}

/-- The cells `mesh_size` is asked about. -/
def Selected (m : Mesh) (dim : Option Nat) (tag : Option Int) (c : Cell) : Prop :=
  c.dimension = dim.getD m.dimension ∧ ∀ t, tag = some t → c.material = some t

instance (m : Mesh) (dim : Option Nat) (tag : Option Int) :
    DecidablePred (Selected m dim tag) := fun c =>
  match tag with
  | none => if h : c.dimension = dim.getD m.dimension then isTrue ⟨h, by simp⟩
      else isFalse fun h' => h h'.1
  | some t => if h : c.dimension = dim.getD m.dimension ∧ c.material = some t then
        isTrue ⟨h.1, by simpa using h.2⟩
      else isFalse fun h' => h ⟨h'.1, h'.2 t rfl⟩

end Verif.MeshMetrics
