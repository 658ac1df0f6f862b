/-
Model of src/geometry/geometry_builder.py (`GeometryBuilder`), of src/geometry/geometry_cell.py and
of the gmsh calls that src/mesh/conformal_mesher.py:27-35, 333-492, 518-541 makes for its cells and
for a fracture network.

A cell refers to other cells by their position in the array of cells: the arrays are only appended
to.  The id of a cell is kept apart, since it differs from the position when a builder is used twice.
The names of the physical tags are `Name`; a value `None` in the dictionary is left out.  The mesh
size, `synchronize` and the numbers given to `setTransfiniteCurve` are left out, as in `Mesher`.
-/
import Verif.Model.Mesher
import Verif.Model.Trace

namespace Verif.Builder
open MeshGraph Mesher Trace
variable {P : Type}

/-- geometry_cell.py:13-29 -/
structure GCell where
  dimension : Nat
  id : Nat
  physical : Option Int
  pointId : Option Nat
  boundary : List Nat
  loop : List Int
  immersed : List Nat
  deriving DecidableEq, Repr

/-- The keys of `physical_tags`; `bc i` is `"bc_" + str(i)`. -/
inductive Name where
  | line | area | volume
  | bc (i : Nat)
  deriving DecidableEq, Repr

/-- geometry_builder.py:7-12; `graph` is not an attribute before the first box is built. -/
structure Builder (P : Type) where
  points : List P
  cells : List GCell
  tags : Dict Name Int
  graph : Option (DiGraph Nat)

/-- `GeometryBuilder(dimension)` followed by `set_physical_tags(tags)` -/
def Builder.new (tags : Dict Name Int) : Builder P := ⟨[], [], tags, none⟩

/-- `GeometryCell(0, index)` -/
def vertexCell (i : Nat) : GCell := ⟨0, i, none, some i, [], [], []⟩

/-- A new cell with `boundary_cells = self.cells[boundary]`, appended to the cells. -/
def addCell (cells : List GCell) (dimension id : Nat) (physical : Option Int) (boundary : List Nat)
    (loop : List Int) : Res (List GCell) := do
  let _ ← fancy cells boundary
  pure (cells ++ [⟨dimension, id, physical, none, boundary, loop, []⟩])

/-- `self.cells[i].physical_tag = tag` -/
def setPhysical (cells : List GCell) (i : Nat) (tag : Option Int) : Res (List GCell) := do
  let c ← getIdx cells i
  pure (cells.set i { c with physical := tag })

/-- geometry_builder.py:34-43 and fracture_network.py:316-325 `gather_graph_edges`, returning the
appended pairs. -/
def gather (cells : List GCell) : Nat → GCell → Res (List (Nat × Nat))
  | 0, _ => .error .recursionError
  | fuel + 1, c => do
    let below ← mapRes (fun i => do
      let d ← getIdx cells i
      if d.dimension = 0 then pure [(c.id, d.id)]
      else do
        let rest ← gather cells fuel d
        pure ((c.id, d.id) :: rest)) (c.boundary ++ c.immersed)
    pure below.flatten

/-- The graph of the pairs gathered from the given cells. -/
def graphOf (cells selected : List GCell) : Res (DiGraph Nat) := do
  let pairs ← mapRes (gather cells recursionLimit) selected
  pure (DiGraph.ofEdges pairs.flatten)

/-- geometry_builder.py:45-58 `build_grahp` -/
def buildGraph (all : Bool) (cells : List GCell) : Res (DiGraph Nat) :=
  graphOf cells (if all then cells else cells.filter fun c => c.immersed.length = 0)

/-- `if len(self.physical_tags) == 0: self.physical_tags = …` -/
def tagsOr (tags defaults : Dict Name Int) : Dict Name Int :=
  if tags.length = 0 then defaults else tags

/-- The points and the vertex cells: `np.append` refuses an empty list of points (axis 0). -/
def addPoints (b : Builder P) (defaults : Dict Name Int) (box : List P) : Res (Builder P) :=
  if box = [] then .error .valueError
  else pure { b with
    points := b.points ++ box
    cells := b.cells ++ (List.range box.length).map vertexCell
    tags := tagsOr b.tags defaults }

def lineTags : Dict Name Int := [(.line, 1), (.bc 0, 2), (.bc 1, 3)]

def areaTags : Dict Name Int := [(.area, 1), (.bc 0, 2), (.bc 1, 3), (.bc 2, 4), (.bc 3, 5)]

def volumeTags : Dict Name Int :=
  [(.volume, 1), (.bc 0, 2), (.bc 1, 3), (.bc 2, 4), (.bc 3, 5), (.bc 4, 6), (.bc 5, 7)]

/-- geometry_builder.py:68-90 `build_box_1D` -/
def buildLine (b : Builder P) (box : List P) : Res (Builder P) := do
  let b ← addPoints b lineTags box
  let cells ← setPhysical b.cells 0 (b.tags.get? (.bc 0))
  let cells ← setPhysical cells 1 (b.tags.get? (.bc 1))
  let cells ← addCell cells 1 box.length (b.tags.get? .line) [0, 1] []
  let graph ← buildGraph false cells
  pure { b with cells := cells, graph := some graph }

/-- geometry_builder.py:101-104: the closed loop of positions, as pairs. -/
def connectivities (n : Nat) : List (List Nat) :=
  let loop := List.range n ++ [0]
  (loop.zip loop.tail).map fun p => [p.1, p.2]

/-- geometry_builder.py:92-127 `build_box_2D` -/
def buildArea (b : Builder P) (box : List P) : Res (Builder P) := do
  let b ← addPoints b areaTags box
  let n := box.length
  let cells ← ((connectivities n).zipIdx).foldlM (fun cells p =>
    addCell cells 1 (n + p.2) (b.tags.get? (.bc p.2)) p.1 []) b.cells
  let cells ← addCell cells 2 (n + n) (b.tags.get? .area) ((List.range n).map (n + ·)) []
  let graph ← buildGraph false cells
  pure { b with cells := cells, graph := some graph }

/-- geometry_builder.py:150-196: the vertices of the edges with the ids 8 to 19 -/
def boxEdges : List (List Nat) :=
  [[0, 1], [1, 2], [2, 3], [3, 0], [4, 5], [5, 6], [6, 7], [7, 4], [0, 4], [1, 5], [2, 6], [3, 7]]

/-- geometry_builder.py:198-232: the edges and the loops of the faces with the ids 20 to 25 -/
def boxFaces : List (List Nat × List Int) :=
  [([8, 17, 12, 16], [8, 17, -12, -16]), ([9, 18, 13, 17], [9, 18, -13, -17]),
    ([10, 19, 14, 18], [10, 19, -14, -18]), ([11, 16, 15, 19], [11, 16, -15, -19]),
    ([8, 9, 10, 11], [8, 9, 10, 11]), ([12, 13, 14, 15], [12, 13, 14, 15])]

/-- geometry_builder.py:129-238 `build_box` -/
def buildBox (b : Builder P) (box : List P) : Res (Builder P) := do
  let b ← addPoints b volumeTags box
  let cells ← boxEdges.zipIdx.foldlM (fun cells p => addCell cells 1 (8 + p.2) none p.1 []) b.cells
  let cells ← boxFaces.zipIdx.foldlM (fun cells p =>
    addCell cells 2 (20 + p.2) (b.tags.get? (.bc p.2)) p.1.1 p.1.2) cells
  let cells ← addCell cells 3 26 (b.tags.get? .volume) [20, 21, 22, 23, 24, 25] []
  let graph ← buildGraph false cells
  pure { b with cells := cells, graph := some graph }

/-! ### The calls of the mesher -/

/-- `graph.nodes()`; without a graph `AttributeError` -/
def nodesOf (graph : Option (DiGraph Nat)) : Res (List Nat) :=
  match graph with
  | some g => pure g.nodes
  | none => .error .attributeError

/-- `point_id + 1` -/
def pointTag (c : GCell) : Res Int :=
  match c.pointId with
  | some i => pure (i + 1)
  | none => .error .typeError

/-- `gmsh.model.addPhysicalGroup(dim, tags, physical_tag)`: the tag must be an integer. -/
def group (dim : Nat) (tags : List Int) (physical : Option Int) : Res (Call P) :=
  match physical with
  | some p => pure (.addPhysicalGroup dim tags p)
  | none => .error .typeError

/-- lines 352-353 (also 378-379, 402-403, 452-453, 460-461): the tags of the two points of an edge -/
def endTags (cells : List GCell) (c : GCell) : Res (Int × Int) := do
  let i ← getIdx c.boundary 0
  let v ← getIdx cells i
  let b ← pointTag v
  let j ← getIdx c.boundary 1
  let w ← getIdx cells j
  let e ← pointTag w
  pure (b, e)

/-- `gmsh.model.geo.addLine(b, e, cell.id)` -/
def lineCall (cells : List GCell) (c : GCell) : Res (Call P) := do
  let p ← endTags cells c
  pure (.addLine p.1 p.2 c.id)

/-- `[cell for cell in geo_cells if cell.dimension == k]` -/
def ofDim (k : Nat) (l : List GCell) : List GCell := l.filter fun c => c.dimension = k

def tagsOf (l : List GCell) : List Int := l.map fun c => (c.id : Int)

/-- lines 343-364 -/
def describeLine (b : Builder P) : Res (List (Call P)) := do
  let nodes ← nodesOf b.graph
  let geo ← fancy b.cells nodes
  let lines ← mapRes (lineCall b.cells) (ofDim 1 geo)
  let groups0 ← mapRes (fun c : GCell => group 0 [(c.id : Int) + 1] c.physical) (ofDim 0 geo)
  let groups1 ← mapRes (fun c => group 1 (tagsOf (ofDim 1 geo)) c.physical) (ofDim 1 geo)
  pure (lines ++ groups0 ++ groups1)

/-- lines 374-384: one surface -/
def surfaceCalls (cells : List GCell) (s : GCell) : Res (List (Call P)) := do
  let edges ← fancy cells s.boundary
  let lines ← mapRes (lineCall cells) edges
  pure (lines ++ [.addCurveLoop (tagsOf edges) s.id, .addPlaneSurface [(s.id : Int)] s.id])

/-- lines 366-391; also the value of `self.tags_2d`. -/
def describeArea (b : Builder P) : Res (List (Call P) × List Int) := do
  let nodes ← nodesOf b.graph
  let geo ← fancy b.cells nodes
  let surfaces ← mapRes (surfaceCalls b.cells) (ofDim 2 geo)
  let groups1 ← mapRes (fun c : GCell => group 1 [(c.id : Int)] c.physical) (ofDim 1 geo)
  let groups2 ← mapRes (fun c => group 2 (tagsOf (ofDim 2 geo)) c.physical) (ofDim 2 geo)
  pure (surfaces.flatten ++ groups1 ++ groups2, tagsOf (ofDim 2 geo))

/-- lines 409-421: one volume; `done` is the value of `self.tags_2d` before, which is never
cleared. -/
def volumeCalls (cells : List GCell) (done : List Int) (v : GCell) :
    Res (List (Call P) × List Int) := do
  let faces ← fancy cells v.boundary
  let surfaces := faces.flatMap fun s =>
    [.addCurveLoop s.loop s.id, .addPlaneSurface [(s.id : Int)] s.id]
  let done := done ++ tagsOf faces
  pure (surfaces ++ [.addSurfaceLoop done v.id, .addVolume [(v.id : Int)] v.id], done)

def volumesCalls (cells : List GCell) : List Int → List GCell → Res (List (Call P))
  | _, [] => pure []
  | done, v :: vs => do
    let r ← volumeCalls cells done v
    let rest ← volumesCalls cells r.2 vs
    pure (r.1 ++ rest)

/-- lines 393-428 -/
def describeVolume (b : Builder P) : Res (List (Call P)) := do
  let nodes ← nodesOf b.graph
  let geo ← fancy b.cells nodes
  let lines ← mapRes (lineCall b.cells) (ofDim 1 geo)
  let volumes ← volumesCalls b.cells [] (ofDim 3 geo)
  let groups2 ← mapRes (fun c : GCell => group 2 [(c.id : Int)] c.physical) (ofDim 2 geo)
  let groups3 ← mapRes (fun c => group 3 (tagsOf (ofDim 3 geo)) c.physical) (ofDim 3 geo)
  pure (lines ++ volumes ++ groups2 ++ groups3)

/-- lines 333-341 `add_domain_descritpion`, with `self.tags_2d` where it is needed -/
def describe (dimension : Int) (b : Builder P) : Res (List (Call P) × List Int) :=
  if dimension = 1 then do
    let calls ← describeLine b
    pure (calls, [])
  else if dimension = 2 then describeArea b
  else if dimension = 3 then do
    let calls ← describeVolume b
    pure (calls, [])
  else .error .valueError

/-- A fracture network as the mesher sees it. -/
structure Network (P : Type) where
  points : List P
  cells : List GCell
  graph : Option (DiGraph Nat)
  fractureTags : List Int

/-- fracture_network.py:327-344 `build_grahp` -/
def networkGraph (dimension : Nat) (all : Bool) (cells : List GCell) : Res (DiGraph Nat) :=
  graphOf cells (cells.filter fun c =>
    (c.dimension + 1 = dimension : Bool) && (all || c.immersed.length = 0))

/-- conformal_mesher.py:33-35 with fracture_network.py:304-311: the ids of the network come after
those of the builder.  The graph keeps the ids it was built with. -/
def Network.shift (net : Network P) (points cells : Nat) : Network P :=
  { net with cells := net.cells.map fun c =>
      { c with id := c.id + cells
               pointId := if c.dimension = 0 then c.pointId.map (· + points) else c.pointId } }

/-- conformal_mesher.py:494-499 `write_mesh`: only the ids of points go back. -/
def Network.restore (net : Network P) (points : Nat) : Network P :=
  { net with cells := net.cells.map fun c =>
      { c with pointId := if c.dimension = 0 then c.pointId.map (· - points) else c.pointId } }

/-- lines 430-446: the edges of the network that are not parts of other edges -/
def mainEdges (net : Network P) (geo : List GCell) : Res (List GCell) := do
  let parts ← mapRes (fancy net.cells)
    ((geo.filter fun c => c.dimension = 1 ∧ c.immersed.length > 0).map GCell.immersed)
  pure (geo.filter fun c => c.dimension = 1 ∧ c.id ∉ parts.flatten.map GCell.id)

/-- lines 449-466, 484-491: the edges that represent a fracture: its parts, or the fracture -/
def piecesOf (net : Network P) (c : GCell) : Res (List GCell) :=
  if c.immersed.length = 0 then pure [c] else fancy net.cells c.immersed

/-- What `add_fracture_network_description` leaves behind: the calls, `tags_0d` and `tags_1d`. -/
structure Described (P : Type) where
  calls : List (Call P)
  tags0 : List Int
  tags1 : List Int

/-- lines 469-475: the group of the vertices with the tag of a fracture -/
def vertexGroup (vertices : List GCell) (c : GCell) : Res (Call P) := do
  let tags ← mapRes pointTag (vertices.filter fun v => v.physical = c.physical)
  group 0 tags c.physical

/-- lines 477-483: the group of one vertex -/
def ownGroup (v : GCell) : Res (Call P) := do
  let t ← pointTag v
  group 0 [t] v.physical

/-- lines 484-492: the group of a fracture -/
def edgeGroup (net : Network P) (c : GCell) : Res (Call P) := do
  let l ← piecesOf net c
  group 1 (tagsOf l) c.physical

/-- lines 430-492 `add_fracture_network_description` -/
def describeNetwork (net : Network P) : Res (Described P) := do
  let nodes ← nodesOf net.graph
  let geo ← fancy net.cells nodes
  let main ← mainEdges net geo
  let pieces ← mapRes (piecesOf net) main
  let ends ← mapRes (endTags net.cells) pieces.flatten
  let lines := (pieces.flatten.zip ends).map fun p => .addLine p.2.1 p.2.2 (p.1.id : Int)
  let groups0 ← mapRes (vertexGroup (ofDim 0 geo)) main
  let own ← mapRes ownGroup ((ofDim 0 geo).filter fun v =>
    ¬ v.physical ∈ net.fractureTags.map some)
  let groups1 ← mapRes (edgeGroup net) main
  pure ⟨lines ++ groups0 ++ own ++ groups1, ends.flatMap fun p => [p.1, p.2],
    tagsOf pieces.flatten⟩

/-- lines 521-522: `for tag, point in enumerate(self.points): addPoint(…, tag + 1)` -/
def pointCalls (points : List P) : List (Call P) :=
  points.zipIdx.map fun p => .addPoint p.1 ((p.2 : Int) + 1)

/-- lines 27-35, 518-541: `set_points` and the calls of `generate` before the meshing. -/
def generate (dimension : Int) (b : Builder P) (net : Option (Network P)) :
    Res (List (Call P)) := do
  let points := b.points ++ (match net with | some n => n.points | none => [])
  let d ← describe dimension b
  match net with
  | none => pure (pointCalls points ++ d.1)
  | some n =>
    if dimension ≠ 2 then .error .assertionError
    else do
      let f ← describeNetwork (n.shift b.points.length b.cells.length)
      let area ← getIdx d.2 0
      pure (pointCalls points ++ d.1 ++ f.calls ++
        [.embed 0 f.tags0 2 area, .embed 1 f.tags1 2 area] ++ f.tags1.map .setTransfiniteCurve)

end Verif.Builder
