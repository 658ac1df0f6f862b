/-
What winding numbers of polygons are.  Nothing here refers to the program.
-/
import Mathlib.Analysis.SpecialFunctions.Complex.Arg
import Mathlib.Analysis.Convex.Segment
import Mathlib.Data.List.Forall2

namespace Verif.Polygon
open Real

/-- `t` is an angle of the direction from `p` to `v`. -/
def Direction (p v : ℂ) (t : ℝ) : Prop := v ≠ p ∧ v - p = ‖v - p‖ * Complex.exp (t * Complex.I)

/-- Going round the closed polygon one turns `W` times about `p`: there are angles of the directions to the
vertices, with `W` turns after the start at the end, that change by less than half a turn along every edge. -/
def Winding (p : ℂ) (polygon : List ℂ) (W : ℤ) : Prop :=
  ∃ (t : ℝ) (θ : List ℝ), List.Forall₂ (Direction p) polygon (t :: θ)
    ∧ (t :: θ ++ [t + W * (2 * π)]).IsChain (fun a b => |b - a| < π)

/-- The point is strictly to the left of the line from `a` to `b`. -/
def LeftOf (a b p : ℂ) : Prop := 0 < (b - a).re * (p - a).im - (b - a).im * (p - a).re

/-- The vertices and the first one again -/
def closed : List ℂ → List ℂ
  | [] => []
  | v :: l => v :: l ++ [v]

/-- The point is on no edge. -/
def OffEdges (p : ℂ) (polygon : List ℂ) : Prop := (closed polygon).IsChain fun a b => p ∉ segment ℝ a b

/-- The point is strictly to the left of every edge. -/
def LeftOfEdges (p : ℂ) (polygon : List ℂ) : Prop := (closed polygon).IsChain fun a b => LeftOf a b p

end Verif.Polygon
