/-
Specification for C116: the cells of separate polygons.
-/
import Verif.Model.PlaneNetwork
import Verif.Spec.FractureNetwork

namespace Verif.PlaneNet
open Trace Builder Geometry

/-- The cells of a polygon with `n` vertices whose first cell has the number `off`: the vertices, the edges from each vertex
to the next one around the polygon, and the surface bounded by the edges. -/
def block (off n : Nat) : List GCell :=
  (List.range n).map (fun i => ⟨0, off + i, none, some (off + i), [], [], []⟩) ++
  (List.range n).map (fun i => ⟨1, off + n + i, some (off : Int), none,
    [off + i, off + (i + 1) % n], [], []⟩) ++
  [⟨2, off + n + n, none, none, (List.range n).map (off + n + ·), [], []⟩]

/-- The cells of several polygons. -/
def blocks : Nat → List (List (Pt ℝ)) → List GCell
  | _, [] => []
  | off, f :: fs => block off f.length ++ blocks (off + f.length + f.length + 1) fs

/-- A cell with the given parts added to its immersed cells. -/
def withParts (c : GCell) (l : List Nat) : GCell := { c with immersed := c.immersed ++ l }

/-- The lines on a fracture, given the row of the table. -/
def linesOf (row : List (Option Line)) : List Line := row.filterMap id

/-- The number of the line with the fracture `j` among the lines on a fracture. -/
def rankOf (row : List (Option Line)) (j : Nat) : Nat := (linesOf (row.take j)).length

/-- The axes kept for a fracture with at least four points. -/
noncomputable def axesOf : List (Pt ℝ) → Fin 3 × Fin 3
  | p :: q :: _ :: r :: _ => keptAxes (cross (p - q) (r - q))
  | _ => (0, 1)

/-- Every line meets another one. -/
def AllMeet (lines : List Line) : Prop := ∀ k, k < lines.length → ∃ x, Fracture.Common lines k x

/-- The fractures the code can handle: without lines, with one line, or with lines that all meet
other ones; with four points at least if there are lines. -/
def RowOK (f : List (Pt ℝ)) (row : List (Option Line)) : Prop :=
  linesOf row = [] ∨ (4 ≤ f.length ∧ ((linesOf row).length = 1 ∨ AllMeet (linesOf row)))

end Verif.PlaneNet
