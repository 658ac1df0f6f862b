/-
Model of the one-dimensional part of src/geometry/fracture_network.py, over the real numbers.

Cells are referred to by their id.  A cell is stored at the position given by its id
(`FractureNetwork` appends cells with `id = len(self.cells)`), so looking up an id and following a
reference are the same.
-/
import Verif.Model.TriangleTest

namespace Verif.Fracture
open MeshBuild MeshGraph Trace MeshMetrics Geometry
open scoped Classical

/-- fracture_network.py:285-292 `pair_intergers`, on non-negative integers.  `max(x, y)` is `x`
itself unless `x < y`. -/
def pairIntegers (x y : Nat) : Nat := if x < y then y ^ 2 + x else x ^ 2 + x + y

/-- fracture_network.py:294-302 `unpair_intergers` -/
noncomputable def unpairIntegers (z : ℝ) : ℝ × ℝ :=
  if z - Real.sqrt z ^ 2 < Real.sqrt z then (z - Real.sqrt z ^ 2, Real.sqrt z)
  else (Real.sqrt z, z - Real.sqrt z ^ 2 - Real.sqrt z)

/-- `GeometryCell` (src/geometry/geometry_cell.py:13-29) -/
structure FCell where
  dimension : Nat
  id : Nat
  physical : Nat
  pointId : Option Nat
  boundary : List Nat
  immersed : List Nat
  deriving DecidableEq, Repr

/-- The points and the cells of the network. -/
structure Net where
  points : List (Pt ℝ)
  cells : List FCell

/-- `GeometryCell(0, id, point_id=…, physical_tag=…)` -/
def vertexCell (id pointId physical : Nat) : FCell := ⟨0, id, physical, some pointId, [], []⟩

/-- `GeometryCell(1, id, physical_tag=…)` with its boundary cells -/
def edgeCell (id physical : Nat) (boundary : List Nat) : FCell :=
  ⟨1, id, physical, none, boundary, []⟩

/-- `np.argwhere(np.linalg.norm(points - point, axis=1) < eps)` (fracture_network.py:49-53) -/
noncomputable def nearPoints (eps : ℝ) (points : List (Pt ℝ)) (point : Pt ℝ) : List Nat :=
  (List.range points.length).filter fun i =>
    (points[i]?).any fun x => decide (norm3 (x - point) < eps)

/-- fracture_network.py:48-67 `insert_vertex_cell`.  Returns the id of the vertex; without a vertex
for the point found, Python returns `None`. -/
noncomputable def insertVertex (eps : ℝ) (net : Net) (point : Pt ℝ) (physical : Nat) :
    Net × Option Nat :=
  match nearPoints eps net.points point with
  | [] =>
    (⟨net.points ++ [point],
      net.cells ++ [vertexCell net.cells.length net.points.length physical]⟩,
      some net.cells.length)
  | target :: _ =>
    (net, (net.cells.find? fun c => c.dimension = 0 ∧ c.pointId = some target).map FCell.id)

/-- `cell.immersed_cells = np.append(cell.immersed_cells, …)` -/
def addImmersed (net : Net) (id v : Nat) : Res Net := do
  let c ← getIdx net.cells id
  pure { net with cells := net.cells.set id { c with immersed := c.immersed ++ [v] } }

/-- fracture_network.py:207-230: the disjoint fractures.  Fracture `i` has the tag `i + shift`; its
vertices and edge are the cells `3 i`, `3 i + 1` and `3 i + 2`. -/
def disjointNet (shift : Nat) (fractures : List (Pt ℝ × Pt ℝ)) : Net :=
  ⟨fractures.flatMap fun f => [f.1, f.2],
   (List.range fractures.length).flatMap fun i =>
    [vertexCell (3 * i) (2 * i) (i + shift), vertexCell (3 * i + 1) (2 * i + 1) (i + shift),
     edgeCell (3 * i + 2) (i + shift) [3 * i, 3 * i + 1]]⟩

/-- `self.points[cell.point_id]` -/
def cellPoint (net : Net) (c : FCell) : Res (Pt ℝ) :=
  match c.pointId with
  | some i => getIdx net.points i
  | none => .error .indexError

/-- The two end points of an edge cell. -/
def endPoints (net : Net) (c : FCell) : Res (Pt ℝ × Pt ℝ) := do
  let vs ← mapRes (getIdx net.cells) c.boundary
  let xs ← mapRes (cellPoint net) vs
  match xs with
  | [a, b] => pure (a, b)
  | _ => .error .valueError

/-- fracture_network.py:243-255: the intersection of the fractures `i < j`, given by the ids of
their edges. -/
noncomputable def intersectPair (eps : ℝ) (pos : Fin 3 × Fin 3) (net : Net) (ij : Nat × Nat) :
    Res Net := do
  let ci ← getIdx net.cells ij.1
  let cj ← getIdx net.cells ij.2
  let (a, b) ← endPoints net ci
  let (p, q) ← endPoints net cj
  match lineLineTest (1 / 10 ^ 12) pos a b p q with
  | none => pure net
  | some (point, _) =>
    match insertVertex eps net point (pairIntegers ci.physical cj.physical) with
    | (_, none) => .error .attributeError   -- `None` among the immersed cells (line 260)
    | (net, some v) => do
      let net ← addImmersed net ij.1 v
      addImmersed net ij.2 v

/-- The pairs `i < j` in the order of the two loops. -/
def pairsOf : List Nat → List (Nat × Nat)
  | [] => []
  | i :: is => is.map (fun j => (i, j)) ++ pairsOf is

/-- fracture_network.py:257-283: the fracture with the edge `id` is split at its immersed
vertices. -/
noncomputable def splitFracture (argsort : List ℝ → List Nat) (net : Net) (id : Nat) : Res Net := do
  let c ← getIdx net.cells id
  match c.boundary with
  | [b, e] =>
    if c.immersed = [] then pure net
    else do
      let vs ← mapRes (getIdx net.cells) c.immersed
      let xs ← mapRes (cellPoint net) vs
      let cb ← getIdx net.cells b
      let xb ← cellPoint net cb
      let perm := argsort (xs.map fun x => norm3 (x - xb))
      let sorted ← fancy c.immersed perm
      let ids := uniq sorted
      let ids := if b ∈ ids then ids else b :: ids
      let ids := if e ∈ ids then ids else ids ++ [e]
      let edges := (ids.zip ids.tail).mapIdx fun k con =>
        edgeCell (net.cells.length + k) c.physical [con.1, con.2]
      pure ⟨net.points, net.cells.set id { c with immersed := edges.map FCell.id } ++ edges⟩
  | _ => .error .valueError

/-- `a, b = …`: the two points of a fracture -/
def twoPoints : List (Pt ℝ) → Res (Pt ℝ × Pt ℝ)
  | [a, b] => pure (a, b)
  | _ => .error .valueError

/-- fracture_network.py:200-283 `intersect_1D_fractures`.  The tolerance of the segment test is the
default of `TriangleTriangleIntersectionTest`. -/
noncomputable def intersectFractures (eps : ℝ) (argsort : List ℝ → List Nat)
    (pos : Fin 3 × Fin 3) (shift : Nat) (fractures : List (List (Pt ℝ))) : Res Net := do
  let lines ← mapRes twoPoints fractures
  if lines = [] then .error .valueError          -- `np.stack` of an empty list
  else do
    let net := disjointNet shift lines
    let edges := (List.range lines.length).map fun i => 3 * i + 2
    let net ← (pairsOf edges).foldlM (intersectPair eps pos) net
    edges.foldlM (splitFracture argsort) net

end Verif.Fracture
