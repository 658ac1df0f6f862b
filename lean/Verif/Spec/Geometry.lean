/-
Specification vocabulary of the geometry operations.  Segments are Mathlib's `segment ℝ a b`.
-/
import Verif.Model.LineGeometry
import Verif.Model.TriangleTest
import Mathlib.Analysis.Convex.Segment

namespace Verif.Geometry
open Trace

/-- `p` is in the closed triangle with the vertices `a`, `b`, `c`. -/
def InTriangle (p a b c : Pt ℝ) : Prop :=
  ∃ u v : ℝ, 0 ≤ u ∧ 0 ≤ v ∧ u + v ≤ 1 ∧ p = a + u • (b - a) + v • (c - a)

/-- The two directions are not parallel. -/
def NotParallel (u v : Pt ℝ) : Prop := cross u v ≠ 0

/-- The squared length of the residual of `t d1 - s d2 = r`. -/
def residual (d1 d2 r : Pt ℝ) (x : ℝ × ℝ) : ℝ :=
  dot (x.1 • d1 - x.2 • d2 - r) (x.1 • d1 - x.2 • d2 - r)

/-- What `np.linalg.lstsq` promises: a solution with the least residual, and among those the one
with the least norm. -/
structure IsLstsq (f : Pt ℝ → Pt ℝ → Pt ℝ → ℝ × ℝ) : Prop where
  residual : ∀ d1 d2 r x, residual d1 d2 r (f d1 d2 r) ≤ residual d1 d2 r x
  norm : ∀ d1 d2 r x, Geometry.residual d1 d2 r x = Geometry.residual d1 d2 r (f d1 d2 r) →
    (f d1 d2 r).1 ^ 2 + (f d1 d2 r).2 ^ 2 ≤ x.1 ^ 2 + x.2 ^ 2

/-- The returned results are those of the items marked in the mask, in order. -/
def MatchesMask {α : Type} (all : List (Out α)) (r : List (Out α) × List Bool) : Prop :=
  r.2.length = all.length ∧ r.1 = maskFilter all r.2 ∧ r.1.length = r.2.count true

/-- The sides of a closed polygon: every vertex with the next one, the last with the first. -/
def sides (points : List (Pt ℝ)) : List (Pt ℝ × Pt ℝ) := points.zip (points.rotate 1)

/-- The vector area of a closed polygon. -/
noncomputable def polygonArea (points : List (Pt ℝ)) : Pt ℝ :=
  (1 / 2 : ℝ) • ((sides points).map fun s => cross s.1 s.2).sum

/-- The vector area of a triangle. -/
noncomputable def triangleArea (t : Triangle) : Pt ℝ :=
  (1 / 2 : ℝ) • cross (t.2.1 - t.1) (t.2.2 - t.1)

/-- The projection to the coordinates `pos` is injective on the planes with normal `n`. -/
def Keeps (pos : Fin 3 × Fin 3) (n : Pt ℝ) : Prop :=
  pos.1 ≠ pos.2 ∧ ∀ k, k ≠ pos.1 → k ≠ pos.2 → n k ≠ 0

end Verif.Geometry
