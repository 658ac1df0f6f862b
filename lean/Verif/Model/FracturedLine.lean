/-
Model of examples/domains/conformal_md_domain_1d.py:13-73: the edges of the example, their common points, and the call
of the mesher.  The points of the edges are exact, and the tolerances of the intersections are 0.

Left out: the domains made of the edges and the points (lines 38-66), which the mesher gets in line 72.
-/
import Verif.Model.LineGeometry

namespace Verif.FracturedLine
open MeshBuild MeshGraph Trace MeshMetrics Geometry

/-- Lines 16-25: the points of the vertices, in the order of their tags -/
def vertices : List (Pt ℝ) := [![0, 0, 0], ![1, 0, 1], ![1, 0, 0], ![0, 1, 0], ![0, 1, 0], ![0, 0, 0]]

/-- Lines 18, 22 and 26: the vertices of the edges -/
def edges : List (Nat × Nat) := [(0, 1), (2, 3), (4, 5)]

/-- Line 46: `np.array([e.boundary_points() for e in [e0, e1, e2]])` -/
def lines : Res (List Line) := mapRes (fun e => do
  let a ← getIdx vertices e.1
  let b ← getIdx vertices e.2
  pure (a, b)) edges

/-- Line 47: the points of the intersections -/
noncomputable def uniquePoints (lstsq : Pt ℝ → Pt ℝ → Pt ℝ → ℝ × ℝ) (dedup : List (Pt ℝ) → List (Pt ℝ)) :
    Res (List (Pt ℝ)) := do
  let ls ← lines
  linesLinesPoints ⟨0, 0⟩ lstsq dedup ls ls 0

/-- Lines 49-56: the vertices of the intersections have the tags from `tag` on. -/
def newTags (tag : Nat) : List (Pt ℝ) → List (Nat × Pt ℝ)
  | [] => []
  | x :: xs => (tag, x) :: newTags (tag + 1) xs

/-- discrete_domain.py:323 `generate_mesh(self, mesh_arguments={})`, called with the given number of arguments besides
`self` -/
def generateMesh (given : Nat) : Res Unit := if given ≤ 1 then .ok () else .error .typeError

/-- The script up to line 73; `domain` stands for the lines left out. -/
noncomputable def script {D : Type} (lstsq : Pt ℝ → Pt ℝ → Pt ℝ → ℝ × ℝ) (dedup : List (Pt ℝ) → List (Pt ℝ))
    (domain : List (Nat × Pt ℝ) → Res D) : Res D := do
  let xs ← uniquePoints lstsq dedup
  let d ← domain (newTags 6 xs)
  generateMesh 2
  pure d

end Verif.FracturedLine
