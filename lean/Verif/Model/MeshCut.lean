/-
Model of `cut_conformity_along_c1_line(s)` (src/mesh/mesh_operations.py:274-411), over the real
numbers.
-/
import Verif.Model.MeshOps

namespace Verif.MeshOps
open MeshBuild MeshGraph MeshStore Trace MeshMetrics

/-- `physical_tags`, whose five entries are present. -/
structure CutTags where
  line : Option Int
  lineClones : Option Int
  point : Option Int
  pointClones : Option Int
  internalBc : Option Int

/-- The cells and points of the mesh. -/
structure Parts where
  cells : Cells
  points : Points ℝ

/-- `np.dot` -/
def dot3 (u v : Pt ℝ) : ℝ := u 0 * v 0 + u 1 * v 1 + u 2 * v 2

/-- mesh_operations.py:281-283: the unit tangent turned by a right angle in the plane.  For `a = b`
numpy computes `nan` instead of 0; both make every comparison below false. -/
noncomputable def normalDir (a b : Pt ℝ) : Pt ℝ :=
  let t : Pt ℝ := fun k => (b k - a k) / norm3 (b - a)
  ![-t 1, t 0, t 2]

/-- `np.mean([a, b], axis=0)` -/
noncomputable def midpoint (a b : Pt ℝ) : Pt ℝ := fun k => (a k + b k) / 2

/-- mesh_operations.py:320-323, 331, 348 (and 386-391): the cells whose centroid lies on the
positive and on the negative side. -/
noncomputable def sideCells (a b : Pt ℝ) (points : Points ℝ) (cs : List Cell) :
    Res (List Cell × List Cell) :=
  if cs = [] then .error .valueError             -- shapes (0,) and (3,) do not broadcast
  else do
    let xcs ← mapRes (cellCentroid points) cs
    let s := cs.zip (xcs.map fun x => dot3 (x - midpoint a b) (normalDir a b))
    pure ((s.filter fun p => 0 < p.2).map Prod.fst, (s.filter fun p => p.2 < 0).map Prod.fst)

/-- mesh_operations.py:316-319 (and 382-385): the cells around the given vertices. -/
def around (g : DiGraph Node) (cells : Cells) (c2 : List Cell) : Res (List Cell) := do
  let data ← mapRes (fun c => g.predecessors (cellIndex c)) c2
  mapRes (cellAt cells) (npSort (uniq (data.flatten.map Prod.snd)))

/-- mesh_operations.py:326-341 (and 348-358): the copies for one side.  Returns the mesh and the
copies of the edges and of the vertices. -/
noncomputable def copySide (argsort : List ℝ → List Nat)
    (tagMap : Dict (Option Int) (Option Int)) (bump : Bump) (p : Parts) (c1 c2 : List Cell) :
    Res (Parts × List Cell × List Cell) := do
  let (c1', next) ← duplicateCells tagMap p.cells.length c1
  let cells ← appendCells p.cells c1'
  if next ≠ cells.length then .error .assertionError
  else do
    let (c2', next) ← duplicateCells tagMap next c2
    let (points, c2') ← duplicatePoints argsort (some bump) c2' p.points
    let cells ← appendCells cells c2'
    if next ≠ cells.length then .error .assertionError
    else pure (⟨cells, points⟩, c1', c2')

/-- The selected edges: mesh_operations.py:294-300.  `onLine x` tells whether
`point_line_intersection(x, a, b)` returns a point. -/
noncomputable def selectC1 (onLine : Pt ℝ → Bool) (tags : CutTags) (p : Parts) :
    Res (List Cell) := do
  let raw ← selectCells (fun c => c.material == tags.line) p.cells
  if raw = [] then .error .indexError          -- indexing with an array of floats
  else do
    let xcs ← mapRes (cellCentroid p.points) raw
    pure (((raw.zip xcs).filter fun q => onLine q.2).map Prod.fst)

/-- mesh_operations.py:307-314: their vertices, except those of the internal boundary. -/
def selectC2 (tags : CutTags) (cells : Cells) (c1 : List Cell) : Res (List Cell) :=
  if c1 = [] then .error .valueError           -- np.concatenate([])
  else do
    let subs ← mapRes (fun c => Cell.subIds c 0) c1
    let c2 ← mapRes (cellAt cells) (npSort (uniq subs.flatten))
    pure (c2.filter fun c => c.material != tags.internalBc)

/-- The returned dictionary, by ids. -/
structure Interface where
  c1 : List Nat × List Nat × List Nat
  c2 : List Nat × List Nat × List Nat

/-- mesh_operations.py:365-373, 393-396: the six updates. -/
def cutUpdates (cells : Cells) (c0 : List Cell × List Cell)
    (c1 p1 n1 c2 p2 n2 : List Cell) : Res Cells := do
  let cells ← updateCells ⟨2, cells⟩ c0.1 [none, some (c1.zip p1), some (c2.zip p2)]
  let cells ← updateCells ⟨2, cells⟩ c0.2 [none, some (c1.zip n1), some (c2.zip n2)]
  let cells ← updateCells ⟨2, cells⟩ p1 [none, some (c2.zip p2)]
  updateCells ⟨2, cells⟩ n1 [none, some (c2.zip n2)]

/-- mesh_operations.py:274-398 `cut_conformity_along_c1_line`, returning the changed mesh too. -/
noncomputable def cutLine (argsort : List ℝ → List Nat) (onLine : Pt ℝ → Bool) (a b : Pt ℝ)
    (tags : CutTags) (visual : Bool) (dimension : Nat) (p : Parts) : Res (Parts × Interface) :=
  if dimension ≠ 2 then .error .assertionError
  else do
    let c1 ← selectC1 onLine tags p
    let g2 ← buildGraph ⟨2, p.cells⟩ 2 2
    let g1 ← buildGraph ⟨2, p.cells⟩ 1 1
    let c2 ← selectC2 tags p.cells c1
    let c0 ← around g2 p.cells c2
    let c0 ← sideCells a b p.points c0
    let tagMap := Dict.ofList [(tags.line, tags.lineClones), (tags.point, tags.pointClones)]
    let scale : ℝ := if visual then 1 / 20 else 0
    let (q, p1, p2) ← copySide argsort tagMap ⟨a, normalDir a b, 1, scale⟩ p c1 c2
    let (q, n1, n2) ← copySide argsort tagMap ⟨a, normalDir a b, -1, scale⟩ q c1 c2
    let cells ← cutUpdates q.cells c0 c1 p1 n1 c2 p2 n2
    let e ← around g1 cells c2
    let e ← sideCells a b q.points e
    let cells ← updateCells ⟨2, cells⟩ e.1 [none, some (c2.zip p2)]
    let cells ← updateCells ⟨2, cells⟩ e.2 [none, some (c2.zip n2)]
    let ids := fun l : List Cell => l.map (·.id)
    pure (⟨cells, q.points⟩, ⟨(ids c1, ids p1, ids n1), (ids c2, ids p2, ids n2)⟩)

/-- mesh_operations.py:401-411 `cut_conformity_along_c1_lines`; `onLine` is given per line. -/
noncomputable def cutLines (argsort : List ℝ → List Nat) (tags : CutTags) (visual : Bool)
    (dimension : Nat) :
    List ((Pt ℝ → Bool) × Pt ℝ × Pt ℝ) → Parts → Res (Parts × List Interface)
  | [], p => .ok (p, [])
  | (onLine, a, b) :: lines, p => do
    let (p, i) ← cutLine argsort onLine a b tags visual dimension p
    let (p, is) ← cutLines argsort tags visual dimension lines p
    pure (p, i :: is)

end Verif.MeshOps
