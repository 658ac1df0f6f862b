/-
Model of the two-dimensional part of src/geometry/fracture_network.py (lines 68-198:
`insert_fracture_cell` and `intersect_2D_fractures`), over the real numbers.

* The answer of `polygon_polygon_intersection` for two polygons (`PolygonPolygon`) is a parameter: `none` is
  `(False, …)`.
* A cell refers to other cells by their position in the array of cells, as in `Builder`.
* The network of the lines on one fracture is that of `FractureNetwork`; its cells are taken over with
  new numbers.
-/
import Verif.Model.FractureNetwork
import Verif.Model.TriangleTriangle
import Verif.Model.Builder

namespace Verif.PlaneNet
open MeshGraph Trace Geometry Builder

/-- A line of intersection. -/
abbrev Line := Pt ℝ × Pt ℝ

/-- The points and the cells. -/
structure Planes where
  points : List (Pt ℝ)
  cells : List GCell

/-- fracture_network.py:85-89: the edges of one polygon. -/
def addEdges (cellId n : Nat) (tag : Int) (cells : List GCell) : Res (List GCell) :=
  (List.range n).foldlM (fun cells k =>
    addCell cells 1 (cellId + n + k) (some tag) [cellId + k, cellId + (k + 1) % n] []) cells

/-- fracture_network.py:68-97 `insert_fracture_cell`; also the id of the surface.  The empty polygon is
refused by `np.append`. -/
def insertPlane (net : Planes) (cellId : Nat) (fracture : List (Pt ℝ)) (tag : Int) :
    Res (Planes × Nat) :=
  if fracture = [] then .error .valueError
  else do
    let n := fracture.length
    let cells := net.cells ++ (List.range n).map fun i => Builder.vertexCell (i + cellId)
    let cells ← addEdges cellId n tag cells
    let cells ← addCell cells 2 (cellId + n + n) none ((List.range n).map (cellId + n + ·)) []
    pure (⟨net.points ++ fracture, cells⟩, cellId + n + n)

/-- fracture_network.py:103-107: all polygons; the tag of a polygon is the number of its first cell. -/
def insertPlanes : Planes → Nat → List (List (Pt ℝ)) → Res Planes
  | net, _, [] => .ok net
  | net, id, f :: fs => do
    let (net, id) ← insertPlane net id f id
    insertPlanes net (id + 1) fs

/-- fracture_network.py:109-127: the table of the intersections; only the pairs `i < j` are computed. -/
def meetTable (meet : List (Pt ℝ) → List (Pt ℝ) → Res (Option Line)) (fractures : List (List (Pt ℝ))) :
    Res (List (List (Option Line))) :=
  mapRes (fun p => mapRes (fun q => if q.2 ≤ p.2 then .ok none else meet p.1 q.1) fractures.zipIdx)
    fractures.zipIdx

/-- fracture_network.py:165-169: a cell of the network of the lines among the cells of this one. -/
def toGeo (off pointOff : Nat) (c : Fracture.FCell) : GCell :=
  ⟨c.dimension, c.id + off, some c.physical, c.pointId.map (· + pointOff), c.boundary.map (· + off), [],
    c.immersed.map (· + off)⟩

/-- `cell.immersed_cells = np.append(cell.immersed_cells, …)` -/
def addImmersed (cells : List GCell) (i v : Nat) : Res (List GCell) := do
  let c ← getIdx cells i
  pure (cells.set i { c with immersed := c.immersed ++ [v] })

/-- fracture_network.py:185-198: the lines `lines` become parts of the surface `s` and of its partners. -/
def attach (s : Nat) : List Nat → List Nat → List GCell → Res (List GCell)
  | _, [], cells => .ok cells
  | [], _ :: _, _ => .error .indexError
  | l :: ls, t :: ts, cells => do
    let cells ← addImmersed cells s l
    let cells ← addImmersed cells t l
    attach s ls ts cells

/-- fracture_network.py:171-183: the positions of the edges that stand for the lines. -/
def lineEdges (n : Nat) (cells : List Fracture.FCell) : List Nat :=
  (cells.zipIdx.filter fun p =>
    decide (p.1.dimension = 1) && (decide (n = 1) || decide (p.1.immersed.length > 0))).map Prod.snd

/-- fracture_network.py:129-198: one fracture, with its row of the table and the surfaces of all. -/
noncomputable def stepPlane (eps : ℝ) (argsort : List ℝ → List Nat) (surfaces : List Nat)
    (net : Planes) (i : Nat) (f : List (Pt ℝ)) (row : List (Option Line)) : Res Planes :=
  let lines := row.filterMap id
  if lines = [] then .ok net
  else do
    let p ← getIdx f 0
    let q ← getIdx f 1
    let r ← getIdx f 3
    let pos := keptAxes (cross (p - q) (r - q))
    let sub ← Fracture.intersectFractures eps argsort pos 1 (lines.map fun l => [l.1, l.2])
    let off := net.cells.length
    let cells := net.cells ++ sub.cells.map (toGeo off net.points.length)
    let s ← getIdx surfaces i
    let partners := ((surfaces.zip row).filter fun p => p.2.isSome).map Prod.fst
    let cells ← attach s ((lineEdges lines.length sub.cells).map (· + off)) partners cells
    pure ⟨net.points ++ sub.points, cells⟩

/-- fracture_network.py:129-198: the loop. -/
noncomputable def stepPlanes (eps : ℝ) (argsort : List ℝ → List Nat) (surfaces : List Nat) :
    Planes → Nat → List (List (Pt ℝ)) → List (List (Option Line)) → Res Planes
  | net, _, [], _ => .ok net
  | net, _, _ :: _, [] => .ok net
  | net, i, f :: fs, row :: rows => do
    let net ← stepPlane eps argsort surfaces net i f row
    stepPlanes eps argsort surfaces net (i + 1) fs rows

/-- The positions of the surfaces. -/
def surfacesOf (cells : List GCell) : List Nat :=
  (cells.zipIdx.filter fun p => decide (p.1.dimension = 2)).map Prod.snd

/-- fracture_network.py:99-198 `intersect_2D_fractures` -/
noncomputable def intersectPlanes (eps : ℝ) (argsort : List ℝ → List Nat)
    (meet : List (Pt ℝ) → List (Pt ℝ) → Res (Option Line)) (fractures : List (List (Pt ℝ))) :
    Res Planes := do
  let net ← insertPlanes ⟨[], []⟩ 0 fractures
  let table ← meetTable meet fractures
  stepPlanes eps argsort (surfacesOf net.cells) net 0 fractures table

end Verif.PlaneNet
