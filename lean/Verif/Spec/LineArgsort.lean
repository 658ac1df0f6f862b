/-
What it means that points are sorted along a segment.
-/
import Verif.Model.LineArgsort
import Verif.Spec.FractureNetwork

namespace Verif.Geometry
open MeshBuild MeshGraph Trace MeshMetrics

/-- The point of the line through `a` and `b` with parameter `t`: `a` for 0 and `b` for 1. -/
def onLine (a b : Pt ℝ) (t : ℝ) : Pt ℝ := a + t • (b - a)

/-- The positions `idx`, each once, put the numbers in an order along which `R` holds. -/
def Arranges (R : ℝ → ℝ → Prop) (ts : List ℝ) (idx : List Nat) : Prop :=
  idx.Perm (List.range ts.length) ∧ (idx.filterMap fun i => ts[i]?).Pairwise R

end Verif.Geometry
