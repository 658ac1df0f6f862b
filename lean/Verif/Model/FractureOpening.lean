/-
Model of the rotations of src/mesh/mesh_cell.py:10-50, of `compute_fracture_normals` and
`apply_visual_opening` (src/mesh/mesh.py:925-996), and of the first cut along fractures
(mesh.py:1170-1337 `cut_conformity_on_fractures`, 1362-1366 `duplicate_vertice`, 1380-1412
`harvest_duplicates_from_vertex`, 1428-1440 `update_entity_on_dimension`), over the real numbers.

Two different edges of the mesh never share their array of node tags here; in Python the copy made by
`duplicate_entity` keeps the array of the original, which matters only for later changes.
-/
import Verif.Model.EmbedCut
import Verif.Model.MeshStore
import Verif.Model.Builder
import Mathlib.Analysis.SpecialFunctions.Trigonometric.Basic

namespace Verif.FracOpen
open MeshBuild MeshGraph MeshStore Trace MeshMetrics MeshOps EmbedCut Builder Skin

/-! ### mesh_cell.py -/

/-- mesh_cell.py:10-18 -/
noncomputable def xRotation (v : Pt ℝ) (θ : ℝ) : Pt ℝ :=
  ![v 0, Real.cos θ * v 1 - Real.sin θ * v 2, Real.sin θ * v 1 + Real.cos θ * v 2]

/-- mesh_cell.py:21-29 -/
noncomputable def yRotation (v : Pt ℝ) (θ : ℝ) : Pt ℝ :=
  ![Real.cos θ * v 0 + Real.sin θ * v 2, v 1, -Real.sin θ * v 0 + Real.cos θ * v 2]

/-- mesh_cell.py:32-40 -/
noncomputable def zRotation (v : Pt ℝ) (θ : ℝ) : Pt ℝ :=
  ![Real.cos θ * v 0 - Real.sin θ * v 1, Real.sin θ * v 0 + Real.cos θ * v 1, v 2]

/-- mesh_cell.py:43-49 `rotate_vector`: `None` for any other axis. -/
noncomputable def rotateVector (v : Pt ℝ) (θ : ℝ) (axis : Int) : Option (Pt ℝ) :=
  if axis = 0 then some (xRotation v θ)
  else if axis = 1 then some (yRotation v θ)
  else if axis = 2 then some (zRotation v θ)
  else none

/-- mesh_cell.py:96-101 `sub_cell_index` and 103-108 `node_tag_index`: the first position. -/
def indexIn (ids : List Nat) (target : Nat) : Option Nat :=
  (List.range ids.length).find? fun i => ids[i]? = some target

/-- mesh_cell.py:96-101 `sub_cell_index` -/
def subCellIndex (c : Cell) (dim target : Nat) : Res (Option Nat) := do
  let ids ← Cell.subIds c dim
  pure (indexIn ids target)

/-! ### The normals of the fractures -/

/-- One entry of `fracture_network.points[[b, e]]`: `None` is no index. -/
def pointOf (net : Network (Pt ℝ)) (c : GCell) : Res (Pt ℝ) :=
  match c.pointId with
  | some i => getIdx net.points i
  | none => .error .indexError

/-- mesh.py:944-953: the normal and the barycenter of one edge of the network.  For an edge without
length numpy has `nan` instead of 0. -/
noncomputable def fractureNormal (net : Network (Pt ℝ)) (c : GCell) : Res (Pt ℝ × Pt ℝ) := do
  let i ← getIdx c.boundary 0
  let j ← getIdx c.boundary 1
  let vi ← getIdx net.cells i
  let vj ← getIdx net.cells j
  let a ← pointOf net vi
  let b ← pointOf net vj
  let tau : Pt ℝ := fun k => (b k - a k) / norm3 (b - a)
  pure (zRotation tau (Real.pi / 2), midpoint a b)

/-- mesh.py:943-954: the loop over the edges. -/
noncomputable def collectNormals (net : Network (Pt ℝ)) : List GCell →
    Dict (Option Int) (Pt ℝ × Pt ℝ) → Res (Dict (Option Int) (Pt ℝ × Pt ℝ))
  | [], d => .ok d
  | c :: cs, d => do
    let r ← fractureNormal net c
    collectNormals net cs (d.set c.physical r)

/-- mesh.py:925-954 `compute_fracture_normals`; `d` is `self.fracture_normals` before the call, the
value the one after.  Lines 928-941 select the edges as the mesher does. -/
noncomputable def fractureNormals (dimension : Nat) (net : Network (Pt ℝ))
    (d : Dict (Option Int) (Pt ℝ × Pt ℝ)) : Res (Dict (Option Int) (Pt ℝ × Pt ℝ)) := do
  if dimension ≠ 2 then throw .assertionError
  let nodes ← nodesOf net.graph
  let geo ← fancy net.cells nodes
  let main ← mainEdges net geo
  collectNormals net main d

/-! ### The opening -/

/-- mesh.py:989-991: the size of the opening at a point, for the ends `b` and `e`.  For `b = e` numpy
has `nan` or `inf` instead of 0. -/
noncomputable def bump (b e x : Pt ℝ) : ℝ :=
  norm3 (x - b) * norm3 (x - e) / (norm3 (e - b) * norm3 (e - b))

/-- mesh.py:988-996: one pair of nodes. -/
noncomputable def openPair (factor : ℝ) (n b e : Pt ℝ) (points : Points ℝ) (pair : Nat × Nat) :
    Res (Points ℝ) := do
  let x ← getIdx points pair.1
  let y ← getIdx points pair.2
  let points := points.set pair.1 (fun k => x k + factor * n k * bump b e x)
  let y' ← getIdx points pair.2
  pure (points.set pair.2 (fun k => y' k - factor * n k * bump b e y))

/-- `b, e = self.points[vertices]` -/
def twoEnds (points : Points ℝ) (vertices : List Nat) : Res (Pt ℝ × Pt ℝ) := do
  let xs ← fancy points vertices
  match xs with
  | [b, e] => pure (b, e)
  | _ => .error .valueError

/-- mesh.py:967-978: the vertices of the fracture that have its tag.  They are ids of cells, used
as positions of points below. -/
def endVertices (mat : Option Int) (cells : Cells) (f : List Cell) : Res (List Nat) := do
  let ids ← mapRes (fun c => Cell.subIds c 0) f
  filterRes (fun v => do
    let c ← cellAt cells v
    pure (c.material == mat)) (npSort (uniq ids.flatten))

/-- mesh.py:980-987: the nodes of the copies on both sides, before `np.unique`. -/
def sideNodes (map : Dict Nat (Nat × Nat)) (cells : Cells) (f : List Cell) :
    Res (List Nat × List Nat) := do
  let tags ← mapRes (fun c : Cell => do
    let pair ← map.getItem c.id
    let p ← cellAt cells pair.1
    let q ← cellAt cells pair.2
    pure (p.nodeTags, q.nodeTags)) f
  pure ((tags.map Prod.fst).flatten, (tags.map Prod.snd).flatten)

/-- `np.unique` -/
def npUnique (l : List Nat) : List Nat := npSort (uniq l)

/-- mesh.py:957-996: one fracture. -/
noncomputable def openOne (dimension : Nat) (map : Dict Nat (Nat × Nat)) (factor : ℝ) (cells : Cells)
    (mat : Option Int) (n : Pt ℝ) (points : Points ℝ) : Res (Points ℝ) := do
  let f ← selectCells (fun c => c.material == mat && c.dimension + 1 == dimension) cells
  let vertices ← endVertices mat cells f
  let nodes ← sideNodes map cells f
  let ends ← twoEnds points vertices
  ((npUnique nodes.1).zip (npUnique nodes.2)).foldlM (openPair factor n ends.1 ends.2) points

/-- mesh.py:956-996 `apply_visual_opening` -/
noncomputable def openAll (dimension : Nat) (map : Dict Nat (Nat × Nat)) (factor : ℝ) (cells : Cells) :
    Dict (Option Int) (Pt ℝ × Pt ℝ) → Points ℝ → Res (Points ℝ)
  | [], points => .ok points
  | (mat, r) :: ks, points => do
    let points ← openOne dimension map factor cells mat r.1 points
    openAll dimension map factor cells ks points

/-! ### The first cut -/

/-- mesh.py:1428-1440 `update_entity_on_dimension` reads `cell.cells_ids`, which no cell has. -/
def updateOnDimension (_dim : Nat) (_c : Cell) (_dup : Dict Nat Nat) : Res Cell := .error .attributeError

/-- mesh.py:1191: the vertices of the fracture, read from `cell.cells_ids[0]`. -/
def oldVertices : List Cell → Res (List Nat)
  | [] => .ok []
  | _ :: _ => .error .attributeError

/-- mesh.py:1179-1337: the loop over the fractures.  Without edges of the fracture nothing happens;
with edges the loop does not get past line 1191. -/
def oldLoop (cells : Cells) : Dict (Option Int) (Pt ℝ × Pt ℝ) → Res Cells
  | [] => .ok cells
  | (mat, _) :: ks => do
    let _ ← MeshGraph.buildGraph ⟨2, cells⟩ 2 2
    let _ ← MeshGraph.buildGraph ⟨2, cells⟩ 2 1
    let _ ← MeshGraph.buildGraph ⟨2, cells⟩ 1 1
    let f ← selectCells (fun c => c.material == mat && c.dimension == 1) cells
    let _ ← oldVertices f
    oldLoop cells ks

/-- mesh.py:1170-1337 `cut_conformity_on_fractures` -/
noncomputable def oldCut (dimension : Nat) (net : Network (Pt ℝ))
    (d : Dict (Option Int) (Pt ℝ × Pt ℝ)) (cells : Cells) : Res Cells := do
  let d ← fractureNormals dimension net d
  oldLoop cells d

/-- mesh.py:1362-1366 `duplicate_vertice`: the points and the tag of the new one -/
def duplicateVertice (points : Points ℝ) (tag : Nat) : Res (Points ℝ × Nat) := do
  let x ← getIdx points tag
  pure (points ++ [x], points.length)

/-- mesh.py:1394-1410: one edge at the vertex.  The node tags of the edge itself are changed. -/
def harvestEdge (frac : Option Int) (sign : Int) (old new : Nat) (st : Store × Dict Nat Nat)
    (id : Nat) : Res (Store × Dict Nat Nat) := do
  let e ← cellAt st.1.cells id
  if e.material = frac then pure st
  else do
    let e' := { e with nodeTags := e.nodeTags.map fun t => if t = old then new else t }
    let s : Store := { st.1 with cells := st.1.cells.set id (some e') }
    let (s, _, dup) ← duplicateEntity s "line" e' e'.nodeTags e'.material sign st.2
    pure (s, dup)

/-- mesh.py:1380-1412 `harvest_duplicates_from_vertex` -/
def harvest (frac : Option Int) (c : Cell) (edges : List Nat) (physical : Option Int) (sign : Int)
    (dup : Dict Nat Nat) (s : Store) (points : Points ℝ) :
    Res (Store × Points ℝ × Dict Nat Nat) := do
  let old ← getIdx c.nodeTags 0
  let (points, new) ← duplicateVertice points old
  let (s, _, dup) ← duplicateEntity s "vertex" c [new] physical sign dup
  let (s, dup) ← edges.foldlM (harvestEdge frac sign old new) (s, dup)
  pure (s, points, dup)

end Verif.FracOpen
