/-
C149: the repository's own tests of shapes.
-/
import Verif.Props.Shape
import Verif.Model.ShapeTests

namespace Verif.ShapeTests
open Verif.Topology Verif.Topology.Shape

/-- C149.  `test_vertex` passes: all that it asserts is true and no exception is raised. -/
theorem C149_vertex : testVertex.toOption = some (List.replicate 11 true) := by decide +kernel
/-- C149.  `test_edge` passes. -/
theorem C149_edge : testEdge.toOption = some (List.replicate 11 true) := by decide +kernel
/-- C149.  `test_wire` passes, with the orientations of its three wires. -/
theorem C149_wire : testWire.toOption = some (List.replicate 17 true) := by decide +kernel
/-- C149.  `test_face` passes. -/
theorem C149_face : testFace.toOption = some (List.replicate 10 true) := by decide +kernel
/-- C149.  `test_shell` passes. -/
theorem C149_shell : testShell.toOption = some (List.replicate 8 true) := by decide +kernel
/-- C149.  `test_solid` passes on the cube with 12 edges. -/
theorem C149_solid : testSolid.toOption = some (List.replicate 4 true) := by decide +kernel
/-- C149.  `test_commposite_solid` passes on two cubes with the same tags. -/
theorem C149_composite_solid : testCompositeSolid.toOption = some (List.replicate 8 true) := by decide +kernel
/-- C149.  `test_shape_assignment` passes. -/
theorem C149_assignment : testShapeAssignment.toOption = some (List.replicate 10 true) := by decide +kernel

/-- C149.  The order used by these tests is one that numpy's `argsort` may return. -/
theorem C149_argsort : IsArgsort argsort := stableArgsort_is

#print axioms C149_vertex
#print axioms C149_edge
#print axioms C149_wire
#print axioms C149_face
#print axioms C149_shell
#print axioms C149_solid
#print axioms C149_composite_solid
#print axioms C149_assignment
#print axioms C149_argsort

end Verif.ShapeTests
