/-
Model of the fracture networks of the tests of meshing (tests/test_meshing/test_meshing.py:8-45; test_meshing_1d.py is
the same file), with the decimal numbers taken as exact.  The network is that of `Verif.Model.FractureNetwork`; the
meshes gmsh makes of it are not modelled.
-/
import Verif.Model.FractureNetwork

namespace Verif.MeshingTests
open MeshGraph Trace Fracture

/-- Line 8 `fracture_tags` -/
def sets : List (List Nat) := [[0], [0, 1], [0, 1, 2], [0, 1, 2, 3], [0, 1, 2, 3, 4]]

/-- Lines 18-25 `fracture_2d_set` -/
noncomputable def fractureSet : List (List (Pt ℝ)) :=
  [[![0.5, 0.25, 0], ![0.5, 0.75, 0]], [![0.25, 0.5, 0], ![0.75, 0.5, 0]], [![0.2, 0.35, 0], ![0.85, 0.35, 0]],
    [![0.15, 0.15, 0], ![0.85, 0.85, 0]], [![0.15, 0.85, 0], ![0.85, 0.15, 0]]]

/-- Line 29: the shift of the tags, and the defaults of `FractureNetwork` and `intersect_1D_fractures` -/
def tagShift : Nat := 10
noncomputable def eps : ℝ := 1 / 10 ^ 12
def pos : Fin 3 × Fin 3 := (0, 1)

/-- Lines 28-30 and 38-41: the network of the chosen fractures -/
noncomputable def network (argsort : List ℝ → List Nat) (chosen : List Nat) : Res Net := do
  let fractures ← mapRes (getIdx fractureSet) chosen
  intersectFractures eps argsort pos tagShift fractures

/-- mesh.py:1042, 1052, 1120 and 1137: the materials of the two sides of a cut fracture -/
def sideTags (tag : Nat) : List Nat := [10 * tag + 1, 10 * tag - 1]

end Verif.MeshingTests
