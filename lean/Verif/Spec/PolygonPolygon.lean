/-
Notions for C98: the intersection of two quadrilaterals.
-/
import Verif.Spec.TriangleTriangle
import Verif.Model.PolygonPolygon
import Mathlib.Analysis.Convex.Join

namespace Verif.Geometry
open Trace MeshMetrics

/-- Two points describe the segment between them, `none` the empty set. -/
def DescribesLine : Option (Pt ℝ × Pt ℝ) → Set (Pt ℝ) → Prop
  | none, S => S = ∅
  | some (x, y), S => S = segment ℝ x y

/-- The diagonals of a quadrilateral meet: it is plane and convex. -/
def DiagonalsMeet (p0 p1 p2 p3 : Pt ℝ) : Prop := ∃ m, m ∈ segment ℝ p0 p2 ∧ m ∈ segment ℝ p1 p3

/-- The two triangles into which a quadrilateral is cut along the diagonal from its second to its fourth corner -/
def cut1 (p : Fin 4 → Pt ℝ) : Triangle := (p 0, p 1, p 3)
def cut2 (p : Fin 4 → Pt ℝ) : Triangle := (p 1, p 2, p 3)

/-- The points of both triangles -/
def cutPoints (p : Fin 4 → Pt ℝ) : Set (Pt ℝ) := pointsOf (cut1 p) ∪ pointsOf (cut2 p)

/-- The four corners as a list -/
def corners (p : Fin 4 → Pt ℝ) : List (Pt ℝ) := [p 0, p 1, p 2, p 3]

/-- All four pairs of triangles are in general position. -/
structure GeneralQuads (p q : Fin 4 → Pt ℝ) : Prop where
  g11 : GeneralPair (cut1 p) (cut1 q)
  g12 : GeneralPair (cut1 p) (cut2 q)
  g21 : GeneralPair (cut2 p) (cut1 q)
  g22 : GeneralPair (cut2 p) (cut2 q)

/-- Two points of a set with all of the set between them, `none` for the empty set. -/
def Spans : Option (Pt ℝ × Pt ℝ) → Set (Pt ℝ) → Prop
  | none, S => S = ∅
  | some (x, y), S => x ∈ S ∧ y ∈ S ∧ S ⊆ segment ℝ x y

end Verif.Geometry
