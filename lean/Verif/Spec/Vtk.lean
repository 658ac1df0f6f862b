/-
Specification vocabulary for C83: the data written for a discrete function.
-/
import Verif.Model.Vtk
import Verif.Spec.L2Error

namespace Verif.Vtk
open Assembly MeshBuild MeshGraph Trace L2Error

/-- The position of the element of a cell. -/
def elementIdx (s : VSpace) (c : Cell) : Nat := (s.idToElement.get? c.id).getD 0

/-- The basis on a cell. -/
def basisOn (s : VSpace) (c : Cell) : VElem :=
  s.elements.getD (elementIdx s c) ⟨0, 0, fun _ _ _ => 0⟩

/-- The destination indices of the field on a cell. -/
def dofsOn (fe : VFe) (name : String) (s : VSpace) (c : Cell) : List Nat :=
  match fe.dests (elementIdx s c) with
  | .ok d => (d.get? name).getD []
  | .error _ => []

/-- The value of component `c`, direction `d`, of the discrete function on a cell, in a vertex or in the
centre. -/
noncomputable def oneSided (fe : VFe) (name : String) (s : VSpace) (alpha : List ℝ) (cell : Cell)
    (p : Option Nat) (c d : Nat) : ℝ :=
  ∑ a ∈ Finset.range (basisOn s cell).nPhi,
    (basisOn s cell).value p a d * coef alpha (dofsOn fe name s cell) s.nComp c a

/-- The cell has an element, and coefficients in a vector of length `n`. -/
structure CellReady (dim : Nat) (fe : VFe) (name : String) (s : VSpace) (n : Nat) (c : Cell) : Prop where
  element : ∃ k el d l, s.idToElement.get? c.id = some k ∧ s.elements[k]? = some el ∧
    fe.dests k = .ok d ∧ d.get? name = some l ∧ l.length = el.nPhi * s.nComp ∧ (∀ j ∈ l, j < n) ∧
    0 < el.nPhi ∧ (s.family ≠ .lagrange → dim ≤ el.nVal)

/-- Scalar families have at most `dim` components, vector families at least one. -/
structure SpaceReady (dim : Nat) (s : VSpace) : Prop where
  lagrange : s.family = .lagrange → s.nComp ≤ dim
  vector : s.family ≠ .lagrange → 0 < s.nComp

/-- The node is a vertex of the cell. -/
structure HasNode (s : VSpace) (c : Cell) (node : Nat) : Prop where
  mem : node ∈ c.nodeTags
  nodup : c.nodeTags.Nodup
  length : c.nodeTags.length = s.nVert

/-- A row of data from components and directions. -/
def fieldRow (dim : Nat) (s : VSpace) (v : Nat → Nat → ℝ) : List (Option ℝ) :=
  (List.range (nData dim s)).map fun k =>
    some (if s.family = .lagrange then v k 0 else v (k / dim) (k % dim))

/-- The mean over cells of the one sided values in a node. -/
noncomputable def average (fe : VFe) (name : String) (s : VSpace) (alpha : List ℝ) (node : Nat)
    (cells : List Cell) (c d : Nat) : ℝ :=
  (cells.map fun cell => oneSided fe name s alpha cell (some (cell.nodeTags.idxOf node)) c d).sum /
    cells.length

/-- The cells around a vertex. -/
def around (g : VMesh) (s : VSpace) (v : Nat) : List Cell :=
  ((s.graph.edges.filter fun e => e.2 = (0, v)).map Prod.fst).filterMap fun i =>
    (g.cells[i.2]?).join

/-- Those on which the field lives. -/
def support (g : VMesh) (fe : VFe) (name : String) (s : VSpace) (v : Nat) : List Cell :=
  (around g s v).filter fun c => ((fe.tags.get? name).getD []).contains c.material

/-- The node of a vertex. -/
def nodeOf (g : VMesh) (v : Nat) : Nat :=
  match (g.cells[v]?).join with
  | some c => c.nodeTags.getD 0 0
  | none => 0

/-- Rows of data for the nodes: `row v` in the node of the vertex `v`, `init` in nodes of no vertex. -/
def nodal (g : VMesh) (s : VSpace) (row : Nat → List (Option ℝ)) (init : List (Option ℝ)) :
    List (List (Option ℝ)) :=
  (List.range g.nPoints).map fun i =>
    match s.vertices.find? fun v => nodeOf g v == i with
    | some v => row v
    | none => init

/-- The vertices are cells of the mesh and nodes of the graph, with different nodes; the cells around
them are cells of the mesh. -/
structure VerticesReady (g : VMesh) (s : VSpace) : Prop where
  node : ∀ v ∈ s.vertices, (0, v) ∈ s.graph.nodes ∧ ∃ c, g.cells[v]? = some (some c) ∧ c.nodeTags ≠ [] ∧
    nodeOf g v < g.nPoints
  nodup : (s.vertices.map (nodeOf g)).Nodup
  cells : ∀ v ∈ s.vertices, ∀ e ∈ s.graph.edges, e.2 = (0, v) → ∃ c, g.cells[e.1.2]? = some (some c)

/-- Around every vertex there are cells with the field, whose elements have the node. -/
structure NodalReady (g : VMesh) (fe : VFe) (n : Nat) (q : String × VSpace) : Prop where
  space : fe.spaces.get? q.1 = some q.2
  tags : (fe.tags.get? q.1).isSome
  shape : SpaceReady g.dimension q.2
  vertices : VerticesReady g q.2
  cells : ∀ v ∈ q.2.vertices, ∀ c ∈ support g fe q.1 q.2 v,
    CellReady g.dimension fe q.1 q.2 n c ∧ HasNode q.2 c (nodeOf g v)

/-- The cells of the mesh dimension. -/
def topCells (g : VMesh) : List Cell :=
  (g.cells.filterMap id).filter fun c => c.dimension == g.dimension

/-- Every cell of the mesh dimension has an element of the field. -/
structure CentredReady (g : VMesh) (fe : VFe) (n : Nat) (q : String × VSpace) : Prop where
  space : fe.spaces.get? q.1 = some q.2
  shape : SpaceReady g.dimension q.2
  cells : ∀ c ∈ topCells g, CellReady g.dimension fe q.1 q.2 n c

/-- No empty slots, and simplices of a dimension that vtk has. -/
structure MeshReady (g : VMesh) : Prop where
  filled : none ∉ g.cells
  dim : g.dimension ≤ 3
  simplex : ∀ c ∈ topCells g, c.nodeTags.length = g.dimension + 1

/-- The row of averages of a vertex; `nan` without cells of the field. -/
noncomputable def averageRow (g : VMesh) (fe : VFe) (alpha : List ℝ) (q : String × VSpace) (v : Nat) :
    List (Option ℝ) :=
  if support g fe q.1 q.2 v = [] then List.replicate (nData g.dimension q.2) none
  else fieldRow g.dimension q.2 (average fe q.1 q.2 alpha (nodeOf g v) (support g fe q.1 q.2 v))

/-- The row of a cell: values in the centre. -/
noncomputable def centreRow (g : VMesh) (fe : VFe) (alpha : List ℝ) (q : String × VSpace) (c : Cell) :
    List (Option ℝ) :=
  fieldRow g.dimension q.2 (oneSided fe q.1 q.2 alpha c none)

/-- A row of zeros. -/
def zeroRow (dim : Nat) (s : VSpace) : List (Option ℝ) := List.replicate (nData dim s) (some 0)

/-- The exact values have the number of entries of a row. -/
structure ExactReady (g : VMesh) (functions : Dict String Exact) (q : String × VSpace) (f : Exact) : Prop where
  get : functions.get? q.1 = some f
  node : ∀ v ∈ q.2.vertices, (f.node (nodeOf g v)).ravel.length = nData g.dimension q.2
  centroid : ∀ c ∈ topCells g, (f.centroid c).ravel.length = nData g.dimension q.2

/-- The exact function of a field. -/
def exactOf (functions : Dict String Exact) (q : String × VSpace) : Exact :=
  (functions.get? q.1).getD ⟨fun _ => .flat [], fun _ => .flat []⟩

/-- The exact values in the node of a vertex. -/
noncomputable def exactNode (g : VMesh) (functions : Dict String Exact) (q : String × VSpace) (v : Nat) :
    List (Option ℝ) := ((exactOf functions q).node (nodeOf g v)).ravel.map some

/-- The exact values in the centroid of a cell. -/
noncomputable def exactCentre (functions : Dict String Exact) (q : String × VSpace) (c : Cell) :
    List (Option ℝ) := ((exactOf functions q).centroid c).ravel.map some

/-- The cells with a tag of the last field. -/
def lastCells (g : VMesh) (fe : VFe) : List Cell :=
  (g.cells.filterMap id).filter fun c => match fe.spaces.getLast? with
    | some q => ((fe.tags.get? q.1).getD []).contains c.material
    | none => false

/-- The number of directions of the values. -/
def directions (dim : Nat) (s : VSpace) : Nat := if s.family = .lagrange then 1 else dim

/-- `|f - v|` for two dimensional arrays. -/
noncomputable def distance (dim : Nat) (s : VSpace) (f v : Nat → Nat → ℝ) : ℝ :=
  Real.sqrt (∑ i ∈ Finset.range s.nComp, ∑ j ∈ Finset.range (directions dim s), (f i j - v i j) ^ 2)

/-- The entries of a value as a two dimensional array. -/
def Value.entry : Value → Nat → Nat → ℝ
  | .flat l, i, _ => l.getD i 0
  | .mat m, i, j => m.val i j

/-- A two dimensional array with components and directions of the field. -/
def Value.fits (dim : Nat) (s : VSpace) : Value → Prop
  | .flat _ => False
  | .mat m => m.rows = s.nComp ∧ m.cols = directions dim s

/-- The exact values are two dimensional arrays. -/
structure ErrorReady (g : VMesh) (functions : Dict String Exact) (q : String × VSpace) (f : Exact) : Prop where
  get : functions.get? q.1 = some f
  node : ∀ v ∈ q.2.vertices, (f.node (nodeOf g v)).fits g.dimension q.2
  centroid : ∀ c ∈ topCells g, (f.centroid c).fits g.dimension q.2

/-- The distance of the exact values in a node from the means. -/
noncomputable def errorNode (g : VMesh) (fe : VFe) (functions : Dict String Exact) (alpha : List ℝ)
    (q : String × VSpace) (v : Nat) : List (Option ℝ) :=
  if support g fe q.1 q.2 v = [] then [none]
  else [some (distance g.dimension q.2 ((exactOf functions q).node (nodeOf g v)).entry
    (average fe q.1 q.2 alpha (nodeOf g v) (support g fe q.1 q.2 v)))]

/-- The distance of the exact values in a centroid from the discrete ones. -/
noncomputable def errorCentre (g : VMesh) (fe : VFe) (functions : Dict String Exact) (alpha : List ℝ)
    (q : String × VSpace) (c : Cell) : List (Option ℝ) :=
  [some (distance g.dimension q.2 ((exactOf functions q).centroid c).entry
    (oneSided fe q.1 q.2 alpha c none))]

/-- Does the field live on the cell? -/
def livesOn (fe : VFe) (name : String) (c : Cell) : Bool :=
  ((fe.tags.get? name).getD []).contains c.material

/-- A row of `nan`. -/
def nanRow (dim : Nat) (s : VSpace) : List (Option ℝ) := List.replicate (nData dim s) none

/-- Exact values in the node of a vertex where the field lives. -/
noncomputable def exactNodeOn (g : VMesh) (fe : VFe) (functions : Dict String Exact) (q : String × VSpace)
    (v : Nat) : List (Option ℝ) :=
  if support g fe q.1 q.2 v = [] then nanRow g.dimension q.2 else exactNode g functions q v

/-- Values in the centre of a cell where the field lives. -/
noncomputable def centreRowOn (g : VMesh) (fe : VFe) (alpha : List ℝ) (q : String × VSpace) (c : Cell) :
    List (Option ℝ) := if livesOn fe q.1 c then centreRow g fe alpha q c else nanRow g.dimension q.2

/-- Exact values in the centroid of a cell where the field lives. -/
noncomputable def exactCentreOn (g : VMesh) (fe : VFe) (functions : Dict String Exact) (q : String × VSpace)
    (c : Cell) : List (Option ℝ) :=
  if livesOn fe q.1 c then exactCentre functions q c else nanRow g.dimension q.2

/-- Around the vertices the cells of the field have elements with the node. -/
structure NodalReadyOn (g : VMesh) (fe : VFe) (n : Nat) (q : String × VSpace) : Prop where
  space : fe.spaces.get? q.1 = some q.2
  shape : SpaceReady g.dimension q.2
  vertices : VerticesReady g q.2
  cells : ∀ v ∈ q.2.vertices, ∀ c ∈ support g fe q.1 q.2 v,
    CellReady g.dimension fe q.1 q.2 n c ∧ HasNode q.2 c (nodeOf g v)

/-- The cells of the mesh dimension where the field lives have elements. -/
structure CentredReadyOn (g : VMesh) (fe : VFe) (n : Nat) (q : String × VSpace) : Prop where
  space : fe.spaces.get? q.1 = some q.2
  shape : SpaceReady g.dimension q.2
  cells : ∀ c ∈ topCells g, livesOn fe q.1 c = true → CellReady g.dimension fe q.1 q.2 n c

end Verif.Vtk
