/-
Model of `Mesh.build_conformal_mesh` (src/mesh/mesh.py) and of the part of
`MeshCell` (src/mesh/mesh_cell.py) it uses.
-/
import Verif.Prelude

namespace Verif.MeshBuild

/-- src/mesh/mesh_cell.py:53-66, 85-94.  `MeshCell` with the attributes read by the modelled
code.  `perm`, `normal`, `type` and `physical_name` are left out (derived or unused here);
`id` is never `None` in the modelled code because `create_cell` sets it at once. -/
structure Cell where
  dimension : Nat
  id : Nat
  material : Option Int
  nodeTags : List Nat
  /-- `sub_cells_ids[e]`, for `e = 0 .. dimension` -/
  sub : List (List Nat)
  deriving DecidableEq, Repr

/-- A meshio cell block together with its "gmsh:physical" row
(src/mesh/mesh.py:334-336: `zip(cells, physical_tag)`).  Only the four simplex types exist,
"at the moment only simplex are supported" (mesh.py:246). -/
inductive Block where
  | vertex (rows : List Nat) (phys : List Int)
  | line (rows : List (Nat × Nat)) (phys : List Int)
  | triangle (rows : List (Nat × Nat × Nat)) (phys : List Int)
  | tetra (rows : List (Nat × Nat × Nat × Nat)) (phys : List Int)
  deriving DecidableEq, Repr

/-- The meshio mesh read by `Mesh.__init__` (mesh.py:14-20): number of points and blocks. -/
structure MeshFile where
  nPoints : Nat
  blocks : List Block
  deriving DecidableEq, Repr

/-- `conformal_mesh.get_cells_type("line")`: rows of all blocks of that type, in order. -/
def MeshFile.lineData (f : MeshFile) : List (Nat × Nat) :=
  f.blocks.flatMap fun | .line rows _ => rows | _ => []
/-- `get_cells_type("triangle")` -/
def MeshFile.triangleData (f : MeshFile) : List (Nat × Nat × Nat) :=
  f.blocks.flatMap fun | .triangle rows _ => rows | _ => []
/-- `get_cells_type("tetra")` -/
def MeshFile.tetraData (f : MeshFile) : List (Nat × Nat × Nat × Nat) :=
  f.blocks.flatMap fun | .tetra rows _ => rows | _ => []

/-- `self.entities_0d .. self.entities_3d` (mesh.py:26-29). -/
structure Ents where
  e0 : Dict Nat Nat
  e1 : Dict (List Nat) Nat
  e2 : Dict (List Nat) Nat
  e3 : Dict (List Nat) Nat
  deriving Repr

/-- mesh.py:265-268 (and 277-280, 285-288, 300-303, 308-311, 321-324): number a key unless it
is already in the dictionary; returns the dictionary and the running counter. -/
def addKey (st : Dict (List Nat) Nat × Nat) (key : List Nat) : Dict (List Nat) Nat × Nat :=
  match st.1.get? key with
  | none => (st.1.set key st.2, st.2 + 1)
  | some _ => st

/-- mesh.py:256-262: sorted edges of a tetrahedron row. -/
def tetraEdgeKeys : Nat × Nat × Nat × Nat → List (List Nat)
  | (n0, n1, n2, n3) =>
    [npSort [n2, n3], npSort [n1, n3], npSort [n1, n2],
     npSort [n0, n3], npSort [n0, n2], npSort [n0, n1]]

/-- mesh.py:272-275: sorted edges of a triangle row. -/
def triEdgeKeys : Nat × Nat × Nat → List (List Nat)
  | (n0, n1, n2) => [npSort [n1, n2], npSort [n0, n2], npSort [n0, n1]]

/-- mesh.py:284 -/
def lineKey : Nat × Nat → List Nat
  | (n0, n1) => npSort [n0, n1]

/-- mesh.py:293-298: sorted faces of a tetrahedron row. -/
def tetraFaceKeys : Nat × Nat × Nat × Nat → List (List Nat)
  | (n0, n1, n2, n3) =>
    [npSort [n1, n2, n3], npSort [n0, n2, n3], npSort [n0, n1, n3], npSort [n0, n1, n2]]

/-- mesh.py:307 -/
def triKey : Nat × Nat × Nat → List Nat
  | (n0, n1, n2) => npSort [n0, n1, n2]

/-- mesh.py:320 -/
def tetraKey : Nat × Nat × Nat × Nat → List Nat
  | (n0, n1, n2, n3) => npSort [n0, n1, n2, n3]

/-- mesh.py:240-244: `entities_0d[i] = i` for every point. -/
def numberPoints (n : Nat) : Dict Nat Nat :=
  (List.range n).foldl (fun d i => d.set i i) []

/-- mesh.py:240-324: the numbering phase. -/
def numberEntities (f : MeshFile) : Res Ents := do
  let e0 := numberPoints f.nPoints
  let edgeId := (← npMax e0.values) + 1                       -- mesh.py:253
  let st := (f.tetraData.flatMap tetraEdgeKeys).foldl addKey (([] : Dict (List Nat) Nat), edgeId)
  let st := (f.triangleData.flatMap triEdgeKeys).foldl addKey st
  let st := (f.lineData.map lineKey).foldl addKey st
  let e1 := st.1
  let faceId := (← npMax e1.values) + 1                       -- mesh.py:291
  let st := (f.tetraData.flatMap tetraFaceKeys).foldl addKey (([] : Dict (List Nat) Nat), faceId)
  let st := (f.triangleData.map triKey).foldl addKey st
  let e2 := st.1
  let volumeId ← (if e2.length ≠ 0 then do                    -- mesh.py:314-318
      let m ← npMax e2.values
      pure (m + 1)
    else pure 0)
  let st := (f.tetraData.map tetraKey).foldl addKey (([] : Dict (List Nat) Nat), volumeId)
  pure { e0 := e0, e1 := e1, e2 := e2, e3 := st.1 }

/-- `self.cells`: an object array whose slots are initially `None` (mesh.py:332). -/
abbrev Cells := List (Option Cell)

/-- mesh.py:100-105 + MeshCell.__init__ (mesh_cell.py:61): `create_cell`. -/
def createCell (dimension : Nat) (nodeTags : List Nat) (tag : Nat) (phys : Option Int) : Cell :=
  { dimension := dimension, id := tag, material := phys, nodeTags := nodeTags,
    sub := List.replicate (dimension + 1) [] }

/-- mesh_cell.py:92-94 `set_sub_cells_ids` (with its assert). -/
def Cell.setSub (c : Cell) (dim : Nat) (ids : List Nat) : Res Cell :=
  if dim ≤ c.dimension then .ok { c with sub := c.sub.set dim ids } else .error .assertionError

/-- `self.cells[cell_id].set_material_id(tag)` guarded by `physical_tag is not None`
(mesh.py:133-134, 149-150, 176-177, 217-218). -/
def tagCell (cells : Cells) (cellId : Nat) (phys : Option Int) : Res Cells :=
  match phys with
  | none => .ok cells
  | some _ =>
    match cells[cellId]? with
    | none => .error .indexError
    | some none => .error .attributeError
    | some (some c) => .ok (cells.set cellId (some { c with material := phys }))

/-- mesh.py:125-135 `insert_vertex` -/
def insertVertex (E : Ents) (cells : Cells) (node : Nat) (phys : Option Int) :
    Res (Cells × Nat) := do
  let cellId ← E.e0.getItem node
  let slot ← getIdx cells cellId
  let cells ← match slot with
    | none => do
      let c ← (createCell 0 [node] cellId phys).setSub 0 [node]
      pure (cells.set cellId (some c))
    | some _ => pure cells
  let cells ← tagCell cells cellId phys
  pure (cells, cellId)

/-- The loops `for x in xs: id = insert(x); ids.append(id)` of mesh.py:142-144 (vertices of an
edge), 166-168 and 196-198 (edges), 206-208 (faces). -/
def insertLoop {ρ : Type} (ins : Cells → ρ → Res (Cells × Nat)) :
    Cells → List ρ → Res (Cells × List Nat)
  | cells, [] => .ok (cells, [])
  | cells, r :: rs => do
    let (cells, i) ← ins cells r
    let (cells, is) ← insertLoop ins cells rs
    pure (cells, i :: is)

/-- mesh.py:137-151 `insert_edge` -/
def insertEdge (E : Ents) (cells : Cells) (nodes : List Nat) (phys : Option Int) :
    Res (Cells × Nat) := do
  let cellId ← E.e1.getItem (npSort nodes)
  let slot ← getIdx cells cellId
  let cells ← match slot with
    | none => do
      let (cells, vertexIds) ← insertLoop (fun cs n => insertVertex E cs n none) cells nodes
      let c ← (createCell 1 nodes cellId phys).setSub 0 vertexIds
      let c ← c.setSub 1 [cellId]
      pure (cells.set cellId (some c))
    | some _ => pure cells
  let cells ← tagCell cells cellId phys
  pure (cells, cellId)

/-- mesh.py:158 and 185: `[self.entities_0d[node] for node in node_tags]` -/
def lookupVertices (E : Ents) : List Nat → Res (List Nat)
  | [] => .ok []
  | n :: ns => do
    let i ← E.e0.getItem n
    let is ← lookupVertices E ns
    pure (i :: is)

/-- mesh.py:153-178 `insert_polygon` (triangles) -/
def insertPolygon (E : Ents) (cells : Cells) (t : Nat × Nat × Nat) (phys : Option Int) :
    Res (Cells × Nat) := do
  let (n0, n1, n2) := t
  let nodes := [n0, n1, n2]
  let cellId ← E.e2.getItem (npSort nodes)
  let slot ← getIdx cells cellId
  let cells ← match slot with
    | none => do
      let vertexIds ← lookupVertices E nodes
      let (cells, edgeIds) ←
        insertLoop (fun cs e => insertEdge E cs e none) cells
          [npSort [n1, n2], npSort [n0, n2], npSort [n0, n1]]
      let c ← (createCell 2 nodes cellId phys).setSub 0 vertexIds
      let c ← c.setSub 1 edgeIds
      let c ← c.setSub 2 [cellId]
      pure (cells.set cellId (some c))
    | some _ => pure cells
  let cells ← tagCell cells cellId phys
  pure (cells, cellId)

/-- mesh.py:180-219 `insert_polyhedron` (tetrahedra) -/
def insertPolyhedron (E : Ents) (cells : Cells) (t : Nat × Nat × Nat × Nat)
    (phys : Option Int) : Res (Cells × Nat) := do
  let (n0, n1, n2, n3) := t
  let nodes := [n0, n1, n2, n3]
  let cellId ← E.e3.getItem (npSort nodes)
  let slot ← getIdx cells cellId
  let cells ← match slot with
    | none => do
      let vertexIds ← lookupVertices E nodes
      let (cells, edgeIds) ←
        insertLoop (fun cs e => insertEdge E cs e none) cells
          [[n2, n3], [n1, n3], [n1, n2], [n0, n3], [n0, n2], [n0, n1]]
      let (cells, faceIds) ←
        insertLoop (fun cs t => insertPolygon E cs t none) cells
          [(n1, n2, n3), (n0, n2, n3), (n0, n1, n3), (n0, n1, n2)]
      let c ← (createCell 3 nodes cellId phys).setSub 0 vertexIds
      let c ← c.setSub 1 edgeIds
      let c ← c.setSub 2 faceIds
      let c ← c.setSub 3 [cellId]
      pure (cells.set cellId (some c))
    | some _ => pure cells
  let cells ← tagCell cells cellId phys
  pure (cells, cellId)

/-- `for node_tags, physical_tag in zip(cell_block.data, physical): ...` -/
def insertRows {ρ : Type} (ins : Cells → ρ → Option Int → Res (Cells × Nat)) :
    Cells → List (ρ × Int) → Res Cells
  | cells, [] => .ok cells
  | cells, (row, tag) :: rest => do
    let (cells, _) ← ins cells row (some tag)
    insertRows ins cells rest

/-- mesh.py:221-237 `insert_simplex_cell_from_block` -/
def insertBlock (E : Ents) (cells : Cells) : Block → Res Cells
  | .vertex rows phys => insertRows (insertVertex E) cells (rows.zip phys)
  | .line rows phys =>
      insertRows (fun cs (r : Nat × Nat) p => insertEdge E cs [r.1, r.2] p) cells (rows.zip phys)
  | .triangle rows phys => insertRows (insertPolygon E) cells (rows.zip phys)
  | .tetra rows phys => insertRows (insertPolyhedron E) cells (rows.zip phys)

/-- mesh.py:336-337 -/
def insertBlocks (E : Ents) : Cells → List Block → Res Cells
  | cells, [] => .ok cells
  | cells, b :: bs => do
    let cells ← insertBlock E cells b
    insertBlocks E cells bs

/-- mesh.py:326-331: number of slots. -/
def Ents.count (E : Ents) : Nat := E.e0.length + E.e1.length + E.e2.length + E.e3.length

/-- mesh.py:239-339 `build_conformal_mesh`; returns the final `self.cells`. -/
def buildConformalMesh (f : MeshFile) : Res Cells := do
  let E ← numberEntities f
  insertBlocks E (List.replicate E.count none) f.blocks

end Verif.MeshBuild
