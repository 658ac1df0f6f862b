/-
Notions for C97: what the intersection of two triangles should be.
-/
import Verif.Spec.Geometry
import Verif.Model.TriangleTriangle

namespace Verif.Geometry
open Trace MeshMetrics

/-- An answer describes a set: no answer the empty set, two points the segment between them. -/
def Describes : Answer → Set (Pt ℝ) → Prop
  | none, S => S = ∅
  | some (x, some y), S => S = segment ℝ x y
  | some (_, none), _ => False

/-- The two ends of the segment are on none of the lines through the sides of the triangle, and no corner of
the triangle is on the segment; neither is the point (1, 1, 1), with which the code compares one. -/
structure General (pos : Fin 3 × Fin 3) (a b c p q : Pt ℝ) : Prop where
  abP : det2 (proj pos (a - p)) (proj pos (b - p)) ≠ 0
  bcP : det2 (proj pos (b - p)) (proj pos (c - p)) ≠ 0
  caP : det2 (proj pos (c - p)) (proj pos (a - p)) ≠ 0
  abQ : det2 (proj pos (a - q)) (proj pos (b - q)) ≠ 0
  bcQ : det2 (proj pos (b - q)) (proj pos (c - q)) ≠ 0
  caQ : det2 (proj pos (c - q)) (proj pos (a - q)) ≠ 0
  cornerA : a ∉ segment ℝ p q
  cornerB : b ∉ segment ℝ p q
  cornerC : c ∉ segment ℝ p q
  one : ![1, 1, 1] ∉ segment ℝ p q

/-- The points of a triangle -/
def pointsOf (t : Triangle) : Set (Pt ℝ) := {x | InTriangle x t.1 t.2.1 t.2.2}

/-- Perpendicular to the plane of a triangle -/
def normalOf (t : Triangle) : Pt ℝ := cross (t.2.1 - t.1) (t.2.2 - t.1)

/-- The height of a point over the plane of a triangle, up to a factor -/
def height (t : Triangle) (x : Pt ℝ) : ℝ := dot (x - t.1) (normalOf t)

/-- No corner of one triangle is in the plane of the other one; where the sides of `o` meet the plane of `t`
they are on none of the lines through the sides of `t`; and (1, 1, 1) is not a point of `o`. -/
structure GeneralPair (o t : Triangle) : Prop where
  first : ∀ x ∈ [o.1, o.2.1, o.2.2], height t x ≠ 0
  second : ∀ x ∈ [t.1, t.2.1, t.2.2], height o x ≠ 0
  off : ∀ x, x ∈ segment ℝ o.1 o.2.1 ∨ x ∈ segment ℝ o.2.1 o.2.2 ∨ x ∈ segment ℝ o.2.2 o.1 → height t x = 0 →
    cross (t.1 - x) (t.2.1 - x) ≠ 0 ∧ cross (t.2.1 - x) (t.2.2 - x) ≠ 0 ∧ cross (t.2.2 - x) (t.1 - x) ≠ 0
  one : ![1, 1, 1] ∉ pointsOf o

end Verif.Geometry
