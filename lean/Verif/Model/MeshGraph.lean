/-
Model of the incidence graphs of a mesh (src/mesh/mesh.py:639-711), of `MeshTopology`
(src/mesh/mesh_topology.py) and of src/mesh/topological_queries.py.
-/
import Verif.Model.MeshBuild

namespace Verif.MeshGraph
open MeshBuild

/-- The attributes of `Mesh` read here: `mesh.dimension` and `mesh.cells`. -/
structure Mesh where
  dimension : Nat
  cells : Cells
  deriving DecidableEq, Repr

/-- A graph node: `cell.index() = (dimension, id)` (mesh_cell.py:110-111). -/
abbrev Node := Nat × Nat

/-- `self.cells[id]` followed by an attribute access: `IndexError` out of range,
`AttributeError` on an empty slot. -/
def cellAt (cells : Cells) (i : Nat) : Res Cell :=
  match cells[i]? with
  | none => .error .indexError
  | some none => .error .attributeError
  | some (some c) => .ok c

/-- `c.sub_cells_ids[e]` for `e ≥ 0` -/
def Cell.subIds (c : Cell) (e : Nat) : Res (List Nat) := getIdx c.sub e

/-- Python's default recursion limit. -/
def recursionLimit : Nat := 1000

/-- mesh.py:639-653 `gather_graph_edges`, returning the appended pairs.  `fuel` is the remaining
Python recursion depth.  The early return (639-641) needs `mesh_cell.id is None`, which no
modelled mesh has. -/
def gatherGraphEdges (cells : Cells) : Nat → Int → Cell → Res (List (Node × Node))
  | 0, _, _ => .error .recursionError
  | fuel + 1, dimension, c =>
    if dimension = 0 ∨ dimension = 1 ∨ dimension = 2 ∨ dimension = 3 then do
      let ids ← Cell.subIds c dimension.toNat
      ids.foldlM (fun acc id => do
        let b ← cellAt cells id
        let acc := acc ++ [((c.dimension, c.id), (b.dimension, b.id))]
        if (b.dimension : Int) ≠ dimension then do
          let r ← gatherGraphEdges cells fuel dimension b
          pure (acc ++ r)
        else pure acc) []
    else .error .valueError

/-- `[cell_i for cell_i in self.cells if cond]`: fails on an empty slot. -/
def selectCells (cond : Cell → Bool) : Cells → Res (List Cell)
  | [] => .ok []
  | none :: _ => .error .attributeError
  | some c :: rest => do
    let r ← selectCells cond rest
    pure (if cond c then c :: r else r)

/-- mesh.py:660-664 (and 675-679, 690-692, 706-708): gather over the selected cells. -/
def gatherAll (cells : Cells) (target : Int) : List Cell → Res (List (Node × Node))
  | [] => .ok []
  | c :: cs => do
    let l ← gatherGraphEdges cells recursionLimit target c
    let r ← gatherAll cells target cs
    pure (l ++ r)

/-- mesh.py:655-666 `build_graph` -/
def buildGraph (m : Mesh) (dimension coDimension : Nat) : Res (DiGraph Node) := do
  let sel ← selectCells (fun c => c.dimension == dimension) m.cells
  let l ← gatherAll m.cells ((dimension : Int) - coDimension) sel
  pure (DiGraph.ofEdges l)

/-- mesh.py:668-681 `build_graph_on_physical_tags`; `None` is a legal tag. -/
def buildGraphOnPhysicalTags (m : Mesh) (tags : List (Option Int)) (dimension coDimension : Nat) :
    Res (DiGraph Node) := do
  let sel ← selectCells (fun c => c.dimension == dimension && tags.contains c.material) m.cells
  let l ← gatherAll m.cells ((dimension : Int) - coDimension) sel
  pure (DiGraph.ofEdges l)

/-- `self.cells[cell_ids]` (fancy indexing with non-negative ids). -/
def fancyIndex (cells : Cells) : List Nat → Res Cells
  | [] => .ok []
  | i :: is => do
    let c ← getIdx cells i
    let r ← fancyIndex cells is
    pure (c :: r)

/-- mesh.py:683-695 `build_graph_from_cell_ids`; the type test (684-685) is the flag
`isArray`. -/
def buildGraphFromCellIds (m : Mesh) (isArray : Bool) (ids : List Nat)
    (dimension coDimension : Nat) : Res (DiGraph Node) := do
  if !isArray then throw .valueError
  let cs ← fancyIndex m.cells ids
  let sel ← selectCells (fun c => c.dimension == dimension) cs
  let l ← gatherAll m.cells ((dimension : Int) - coDimension) sel
  pure (DiGraph.ofEdges l)

/-- mesh.py:697-711 `build_graph_on_materials` (ids are never `None` here). -/
def buildGraphOnMaterials (m : Mesh) (dimension coDimension : Nat) : Res (DiGraph Node) := do
  let sel ← selectCells (fun c => c.dimension == dimension && c.material.isSome) m.cells
  let l ← gatherAll m.cells ((dimension : Int) - coDimension) sel
  pure (DiGraph.ofEdges l)

/-! ### MeshTopology -/

/-- mesh_topology.py:11-14 -/
structure Topology where
  mesh : Mesh
  dimension : Nat
  entityMaps : List (DiGraph Node)
  entityIds : Dict Nat (List Nat)

/-- mesh_topology.py:4-14 `MeshTopology.__init__` -/
def Topology.new (m : Mesh) (dimension : Nat) : Res Topology :=
  if m.dimension < dimension then .error .valueError
  else .ok ⟨m, dimension, [], []⟩

/-- `[f(d) for d in range(...)]` with exceptions -/
def mapRes {α β : Type} (f : α → Res β) : List α → Res (List β)
  | [] => .ok []
  | a :: as => do
    let b ← f a
    let bs ← mapRes f as
    pure (b :: bs)

/-- mesh_topology.py:28-35 `_build_entity_ids` for freshly cleared `entity_ids` -/
def entityIdsOf (maps : List (DiGraph Node)) : Dict Nat (List Nat) :=
  maps.zipIdx.foldl (fun d (p : DiGraph Node × Nat) =>
    d.set p.2 ((p.1.nodes.filter fun n => n.1 = p.2).map Prod.snd)) []

/-- mesh_topology.py:37-41 `build_data` (with 16-19) -/
def Topology.buildData (t : Topology) : Res Topology := do
  let maps ← mapRes (fun d => buildGraph t.mesh t.dimension (t.dimension - d))
    (List.range (t.dimension + 1))
  pure { t with entityMaps := maps, entityIds := entityIdsOf maps }

/-- mesh_topology.py:43-47 `build_data_on_pysical_tags` (with 21-26) -/
def Topology.buildDataOnTags (t : Topology) (tags : List (Option Int)) : Res Topology := do
  let maps ← mapRes (fun d => buildGraphOnPhysicalTags t.mesh tags t.dimension (t.dimension - d))
    (List.range (t.dimension + 1))
  pure { t with entityMaps := maps, entityIds := entityIdsOf maps }

/-- mesh_topology.py:54-55 `entity_map_by_dimension` -/
def Topology.entityMapByDimension (t : Topology) (d : Nat) : Res (DiGraph Node) :=
  getIdx t.entityMaps d

/-- mesh_topology.py:62-67 `entities_by_dimension` -/
def Topology.entitiesByDimension (t : Topology) (d : Nat) : Res (List Nat) :=
  if t.dimension < d then .error .valueError else t.entityIds.getItem d

/-- topological_queries.py:5-8 `find_higher_dimension_neighs` -/
def findHigherNeighs (c : Cell) (t : Topology) : Res (List Node) := do
  let g ← t.entityMapByDimension c.dimension
  g.predecessors (c.dimension, c.id)

/-- topological_queries.py:11-14 `find_lower_dimension_neighs` -/
def findLowerNeighs (c : Cell) (t : Topology) : Res (List Node) := do
  let g ← t.entityMapByDimension c.dimension
  g.successors (c.dimension, c.id)

/-- topological_queries.py:17-19 `sub_entity_by_co_dimension` (codimension at most the
dimension; a larger one would be a negative Python index) -/
def subEntityByCoDimension (c : Cell) (codimension : Nat) (_h : codimension ≤ c.dimension) :
    Res (List Nat) :=
  Cell.subIds c (c.dimension - codimension)

end Verif.MeshGraph
