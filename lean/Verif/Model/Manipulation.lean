/-
Model of the functions of src/topology/shape_manipulation.py:18-132 that compare vertices, edges and points, over the
real numbers, with shape.py:182-196 and vertex.py:29-31 `shape_assignment` for vertices.

* `collapse_tol` is `1e-10` (globals.py:5).
* Vertices have no boundary and no immersed shapes (see `Verif.Model.Shape`), so what `shape_assignment` copies is the tag,
  the physical tag and the point; the setter of the dimension does nothing, and the dimensions of vertices agree.
* A function that returns one of the objects it was given returns which one.
-/
import Verif.Model.VertexOps

namespace Verif.Manip
open MeshBuild MeshGraph Trace MeshMetrics Geometry VertexOps
open scoped Classical

/-- globals.py:5 -/
noncomputable def collapseTol : ℝ := 1 / 10 ^ 10

/-- lines 18-24 `vertex_with_same_geometry` -/
def SameGeometry (a b : Vtx) (eps : ℝ) : Prop := Close eps eps a.point b.point

/-- lines 27-31 `vertex_strong_equality`, with vertex.py:16-19 `__eq__` -/
def StrongEquality (a b : Vtx) : Prop :=
  (a.tag = b.tag ∧ DefaultClose a.point b.point) ∧ SameGeometry a b collapseTol

/-- vertex.py:29-31 -/
def assign (_self other : Vtx) : Vtx := ⟨other.tag, other.physical, other.point⟩

/-- Which of the two vertices -/
inductive Which where
  | tool | object
  deriving DecidableEq

/-- lines 34-43 `collapse_vertex`: the vertex that is returned, and the object as it is left -/
noncomputable def collapseVertex (tool object : Vtx) (eps : ℝ) : Which × Vtx :=
  if StrongEquality tool object then (.tool, object)
  else if SameGeometry tool object eps then (.object, assign object tool)
  else (.object, object)

/-- lines 56-69: the parameter of the point in one coordinate -/
noncomputable def parameter (a b p : ℝ) : Option ℝ := if b ≠ a then some ((p - a) / (b - a)) else none

/-- lines 46-79 `point_line_intersection` -/
noncomputable def pointLine (A B P : Pt ℝ) : Bool :=
  if A 0 = B 0 ∧ A 1 = B 1 ∧ A 2 = B 2 then decide (P 0 = A 0 ∧ P 1 = A 1 ∧ P 2 = A 2)
  else
    let ts := [parameter (A 0) (B 0) (P 0), parameter (A 1) (B 1) (P 1), parameter (A 2) (B 2) (P 2)].filterMap id
    match ts with
    | [] => false
    | t :: _ => ts.all fun s => decide (s = t)

/-- An edge with its boundary shapes -/
structure BEdge where
  tag : Int
  ends : List Vtx

/-- lines 86-95 and, with the other tests, 104-112 and 116-122: which entry of the boundary is returned -/
noncomputable def firstOf (test : Vtx → Prop) (edge : BEdge) : Res (Option Nat) := do
  let a ← getIdx edge.ends 0
  if test a then return some 0
  let b ← getIdx edge.ends 1
  if test b then return some 1
  return none

/-- lines 82-95 `vertex_edge_boundary_intersection` -/
noncomputable def vertexEdgeBoundary (tool : Vtx) (edge : BEdge) (eps : ℝ) : Res (Option Nat) :=
  firstOf (fun v => SameGeometry tool v eps) edge

/-- lines 98-112 `vertex_edge_intersection` -/
noncomputable def vertexEdge (tool : Vtx) (edge : BEdge) (eps : ℝ) : Res (Option Nat) := do
  let bc ← vertexEdgeBoundary tool edge eps
  match bc with
  | some i => return some i
  | none => firstOf (fun v => SameGeometry tool v collapseTol) edge

/-- lines 115-122 `point_on_edge_boundary` -/
noncomputable def pointOnEdge (point : Pt ℝ) (edge : BEdge) : Res (Option Nat) :=
  firstOf (fun v => DefaultClose point v.point) edge

/-- lines 129-133: the loop over the edges of a wire -/
noncomputable def onWire (x y : Pt ℝ) : List BEdge → Res (Option BEdge)
  | [] => return none
  | e :: es => do
    let a ← getIdx e.ends 0
    let b ← getIdx e.ends 1
    if DefaultClose a.point x ∧ DefaultClose b.point y then return some e
    else if DefaultClose b.point x ∧ DefaultClose a.point y then return some e
    else onWire x y es

/-- lines 125-134 `points_on_face_boundary`, for the points `x` and `y` -/
noncomputable def onFace (x y : Pt ℝ) : List (List BEdge) → Res (Option BEdge)
  | [] => return none
  | w :: ws => do
    match ← onWire x y w with
    | some e => return some e
    | none => onFace x y ws

end Verif.Manip
