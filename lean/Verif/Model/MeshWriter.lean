/-
Model of the writers of src/mesh/mesh.py: `conformal_mesh_write_vtk` (lines 347-375), the summary of
`write_data` (377-399) and `write_vtk` (427-634).

* Only the data handed to `meshio` is modelled.  `meshio.Mesh` compares the lengths of the data with the number of
  cells; `np.array` refuses rows of different lengths.
* A writer gives the files written before an exception, and the exception.
* `nx.coloring.equitable_color` is a parameter, as in `MeshMetrics`.
-/
import Verif.Model.MeshMetrics

namespace Verif.MeshWriter
open MeshBuild MeshGraph MeshMetrics Trace

/-- The content of a file: cells of one dimension with their data. -/
structure VtkFile where
  dimension : Nat
  con : List (List Nat)
  physical : List (Option Int)
  entity : List Nat
  colors : List (List Nat)
  deriving DecidableEq, Repr

/-- The files, and the exception after them. -/
abbrev Written := List VtkFile × Option Err

/-- `np.array` of a list of lists -/
def rectangular (rows : List (List Nat)) : Res (List (List Nat)) :=
  match rows with
  | [] => .ok []
  | r :: _ => if rows.all fun s => s.length == r.length then .ok rows else .error .valueError

/-- `meshio.Mesh` with one block -/
def meshio (f : VtkFile) : Res VtkFile :=
  if f.physical.length = f.con.length ∧ (f.entity.length = f.con.length ∧
      f.colors.all fun c => c.length == f.con.length) then .ok f
  else .error .valueError

/-- mesh.py:476-478, 539-540 and 595: the numbers of colours. -/
def nColors (coDim : Nat) : Nat := if coDim = 3 then 14 else 8

/-- mesh.py:465-484, 529-544 and 585-597: the colours of the cells for all co-dimensions from one to the dimension. -/
def colorsOf (equitable : DiGraph Node → Nat → Res (Dict Node Nat)) (m : Mesh) (d : Nat) (ids : List Nat) :
    Res (List (List Nat)) := do
  let maps ← mapRes (fun k : Fin d => do
    let r ← coloring equitable (nColors (k + 1)) m d (k + 1) k.isLt
    pure r.1) (List.finRange d)
  mapRes (fun c : Dict PyVal Nat => mapRes (fun i => c.getItem (.int i)) ids) maps

/-- mesh.py:434-487, 489-547, 549-600 and 602-634: the file of the cells of dimension `d`, if there is one. -/
def fileOf (equitable : DiGraph Node → Nat → Res (Dict Node Nat)) (coloringQ : Bool) (m : Mesh) (d : Nat) :
    Res (Option VtkFile) := do
  let withTag ← selectCells (fun c => c.dimension == d && (d == 3 || c.material.isSome)) m.cells
  let tagged ← selectCells (fun c => c.dimension == d && c.material.isSome) m.cells
  let con ← rectangular (tagged.map Cell.nodeTags)
  if con = [] then pure none
  else do
    let ids := tagged.map Cell.id
    let colors ← if coloringQ then colorsOf equitable m d ids else pure []
    let f ← meshio ⟨d, con, withTag.map Cell.material, ids, colors⟩
    pure (some f)

/-- The files of the given dimensions. -/
def writeAll (file : Nat → Res (Option VtkFile)) : List Nat → Written
  | [] => ([], none)
  | d :: ds =>
    match file d with
    | .error e => ([], some e)
    | .ok none => writeAll file ds
    | .ok (some f) => (f :: (writeAll file ds).1, (writeAll file ds).2)

/-- mesh.py:427-634 `write_vtk` -/
def writeVtk (equitable : DiGraph Node → Nat → Res (Dict Node Nat)) (coloringQ : Bool) (m : Mesh) : Written :=
  writeAll (fileOf equitable coloringQ m) [3, 2, 1, 0]

/-! ### conformal_mesh_write_vtk -/

/-- The rows and the tags of a block of dimension `d`. -/
def rowsOf (d : Nat) : Block → Option (List (List Nat) × List Int)
  | .vertex rows phys => if d = 0 then some (rows.map fun a => [a], phys) else none
  | .line rows phys => if d = 1 then some (rows.map fun r => [r.1, r.2], phys) else none
  | .triangle rows phys => if d = 2 then some (rows.map fun r => [r.1, r.2.1, r.2.2], phys) else none
  | .tetra rows phys => if d = 3 then some (rows.map fun r => [r.1, r.2.1, r.2.2.1, r.2.2.2], phys) else none

/-- mesh.py:350-360: `get_cell_data` concatenates the data of the blocks and raises without any;
`get_cells_type` is empty then. -/
def conformalFile (f : MeshFile) (d : Nat) : Res (Option VtkFile) :=
  let blocks := f.blocks.filterMap (rowsOf d)
  if blocks = [] then .error .valueError
  else do
    let con := blocks.flatMap Prod.fst
    let tags := blocks.flatMap Prod.snd
    if tags.length = con.length then pure (some ⟨d, con, tags.map some, [], []⟩)
    else .error .valueError

/-- mesh.py:347-375 `conformal_mesh_write_vtk` -/
def conformalWrite (dimension : Nat) (f : MeshFile) : Written :=
  if dimension = 2 then writeAll (conformalFile f) [2, 1, 0] else ([], some .assertionError)

/-! ### write_data -/

/-- `min(…)` of a list -/
def minOf : List Nat → Res Nat
  | [] => .error .valueError
  | a :: l => .ok (l.foldl min a)

/-- `max(…)` of a list -/
def maxOf : List Nat → Res Nat
  | [] => .error .valueError
  | a :: l => .ok (l.foldl max a)

/-- mesh.py:379-399: the dimensions printed. -/
def dimensionData (m : Mesh) : Res (Nat × Nat × Nat × Nat) := do
  let all ← selectCells (fun _ => true) m.cells
  let tagged ← selectCells (fun c => c.material.isSome) m.cells
  let a ← minOf (all.map Cell.dimension)
  let b ← maxOf (all.map Cell.dimension)
  let c ← minOf (tagged.map Cell.dimension)
  let d ← maxOf (tagged.map Cell.dimension)
  pure (a, b, c, d)

end Verif.MeshWriter
