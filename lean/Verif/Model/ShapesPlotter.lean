/-
Model of examples/domains/shapes_plotter.py:6-22: the sequences of vertices that are drawn, and the strokes of
`draw_vertex_sequence` (src/topology/graphical_shape.py:6-29).  Coordinates are rational numbers.
-/
import Verif.Model.GeometryTests

namespace Verif.ShapesPlotter
open Verif.Topology Verif.Topology.Shape

/-- shapes_plotter.py:6-17 -/
def boxPoints : List (Fin 3 → ℚ) :=
  [![0, 0, 0], ![1, 0, 0], ![1, 1, 0], ![0, 1, 0], ![0, 0, 1], ![1, 0, 1], ![1, 1, 1], ![0, 1, 1]]

/-- `shape.orient_immersed_vertices()`: only wires have this method. -/
def oriented : Shape (Fin 3 → ℚ) → Res (List (Shape (Fin 3 → ℚ)))
  | .vertex .. => .error .attributeError
  | .composed .wire _ _ _ immersed => orientVertices closePoints immersed
  | .composed .edge .. | .composed .face .. | .composed .shell .. | .composed .solid ..
  | .composed .compositeSolid .. => .error .attributeError

/-- shapes_plotter.py:18-21: the sequences of the shapes that `part` takes of the shell of the solid; line 20 takes its
`boundary_shapes`. -/
def sequences (part : Shape (Fin 3 → ℚ) → List (Shape (Fin 3 → ℚ))) : Res (List (List (Shape (Fin 3 → ℚ)))) := do
  let d ← buildBox3D closePoints ShapeTests.argsort boxPoints none
  let solid ← GeometryTests.shapeAt d 3 0
  let shell ← getIdx solid.boundary 0
  (part shell).mapM oriented

/-- graphical_shape.py:13-23: the strokes of a sequence, as pairs of points; the last one closes it. -/
def strokes {α : Type} (close : Bool) (sequence : List α) : List (α × α) :=
  sequence.zip sequence.tail ++
    (if close ∧ 2 < sequence.length then (sequence.getLast?.toList).zip sequence.head?.toList else [])

end Verif.ShapesPlotter
