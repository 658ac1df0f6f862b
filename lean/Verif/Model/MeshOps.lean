/-
Model of src/mesh/mesh_operations.py: duplication of cells and points, replacement of graph
nodes, and cutting a mesh along a line.
-/
import Verif.Model.MeshStore
import Verif.Model.MeshMetrics

namespace Verif.MeshOps
open MeshBuild MeshGraph MeshStore Trace MeshMetrics

/-- mesh_cell.py:110-111 `index` -/
def cellIndex (c : Cell) : Node := (c.dimension, c.id)

/-! ### Duplication -/

/-- mesh_operations.py:159-170 `__duplicate_cells`; returns the copies and the next id. -/
def duplicateCells (tagMap : Dict (Option Int) (Option Int)) :
    Nat → List Cell → Res (List Cell × Nat)
  | cellId, [] => .ok ([], cellId)
  | cellId, c :: cs => do
    if c.dimension < c.sub.length then
      let clone := { c with
        id := cellId
        sub := c.sub.set c.dimension [cellId]
        material := (tagMap.get? c.material).getD c.material }
      let (r, next) ← duplicateCells tagMap (cellId + 1) cs
      pure (clone :: r, next)
    else .error .indexError

/-- mesh_operations.py:176-185: the displacement of the copied points. -/
structure Bump where
  a : Pt ℝ
  normal : Pt ℝ
  side : ℝ
  scale : ℝ

/-- mesh_operations.py:182-184: the displaced copy of one point. -/
noncomputable def bumped (b : Bump) (p : Pt ℝ) : Pt ℝ := fun k =>
  p k + b.normal k * (b.side * b.scale * (norm3 (p - b.a) * (1 - norm3 (p - b.a)) + 1 / 10))

/-- mesh_operations.py:181-184: `new_points[idx] += ...`, for the positions `idx` given by
`points_line_argsort` (the parameter `argsort` is `np.argsort`). -/
noncomputable def bumpPoints (argsort : List ℝ → List Nat) (b : Bump) (points : List (Pt ℝ)) :
    List (Pt ℝ) :=
  (argsort (points.map fun p => norm3 (p - b.a))).foldl (fun ps i =>
    match points[i]? with
    | some p => ps.set i (bumped b p)
    | none => ps) points

/-- mesh_operations.py:186-189: consecutive new node tags. -/
def retagNodes : Nat → List Cell → List Cell × Nat
  | tag, [] => ([], tag)
  | tag, c :: cs =>
    let (r, next) := retagNodes (tag + 1) cs
    ({ c with nodeTags := [tag] } :: r, next)

/-- mesh_operations.py:173-191 `duplicate_mesh_points_from_0d_cells`; returns the points of the
mesh and the given cells after the call. -/
noncomputable def duplicatePoints (argsort : List ℝ → List Nat) (bump : Option Bump)
    (cells0d : List Cell) (points : Points ℝ) : Res (Points ℝ × List Cell) :=
  if cells0d = [] then .error .valueError               -- np.concatenate([])
  else do
    let newPoints ← fancy points (cells0d.flatMap (·.nodeTags))
    let newPoints := match bump with
      | none => newPoints
      | some b => bumpPoints argsort b newPoints
    let (cells0d, nodeTag) := retagNodes points.length cells0d
    let points := points ++ newPoints
    if nodeTag = points.length then .ok (points, cells0d) else .error .assertionError

end Verif.MeshOps

namespace Verif.DiGraph
variable {N : Type} [DecidableEq N]

/-- `list(G.edges())`: by source in node order. -/
def edgesInOrder (g : DiGraph N) : List (N × N) :=
  g.nodes.flatMap fun n => g.edges.filter fun e => e.1 = n

/-- `G.add_edges_from(l)` -/
def addEdges (g : DiGraph N) (l : List (N × N)) : DiGraph N := l.foldl addEdge g

/-- `G.remove_edges_from(l)`: missing edges are ignored. -/
def removeEdges (g : DiGraph N) (l : List (N × N)) : DiGraph N :=
  { g with edges := g.edges.filter fun e => e ∉ l }

/-- `G.remove_node(n)`, for a node of the graph -/
def removeNode (g : DiGraph N) (n : N) : DiGraph N :=
  ⟨g.nodes.filter (· ≠ n), g.edges.filter fun e => e.1 ≠ n ∧ e.2 ≠ n⟩

end Verif.DiGraph

namespace Verif.MeshOps
open MeshBuild MeshGraph MeshStore Trace MeshMetrics

/-! ### Graph nodes -/

section
variable {N : Type} [DecidableEq N]

/-- mesh_operations.py:206-223 `replace_node_in_grahp`; `predecessors` cannot raise because the
node is present. -/
def replaceNode (g : DiGraph N) (pair : N × N) : DiGraph N :=
  if pair.1 ∈ g.nodes then
    let preds := (g.edges.filter fun e => e.2 = pair.1).map Prod.fst
    let oldEdges := preds.map fun p => (p, pair.1)
    let newEdges := preds.map fun p => (p, pair.2)
    ((g.removeEdges oldEdges).addEdges newEdges).removeNode pair.1
  else g

/-- mesh_operations.py:226-227 `replace_nodes_in_grahp` -/
def replaceNodes (pairs : List (N × N)) (g : DiGraph N) : DiGraph N := pairs.foldl replaceNode g

end

/-! ### Replacement of sub-cells -/

/-- `cell_pairs`: one entry per codimension; entry 0 is `None`. -/
abbrev Pairs := List (Option (List (Cell × Cell)))

/-- mesh_operations.py:240-247: one pass of the loop over the dimensions. -/
def gatherStep (m : Mesh) (ids : List Nat) (maxDim : Nat) (pairs : Pairs)
    (st : DiGraph Node × List (Dict Node Node)) (d : Nat) :
    Res (DiGraph Node × List (Dict Node Node)) := do
  let coDim := maxDim - d
  let g ← buildGraphFromCellIds m true ids maxDim coDim
  let entry ← getIdx pairs coDim
  match entry with
  | none => .error .typeError
  | some l =>
    pure (st.1.addEdges g.edgesInOrder,
      st.2 ++ [Dict.ofList (l.map fun p => (cellIndex p.1, cellIndex p.2))])

/-- `np.where(l == x)[0]`, first position or `None` (mesh_cell.py:96-108) -/
def firstIndex (l : List Nat) (x : Nat) : Option Nat := if x ∈ l then some (l.idxOf x) else none

/-- mesh_operations.py:264-271: replace the node tag of the old vertex.  A vertex has one node
tag (the comparison of mesh_cell.py:104 broadcasts it); other lengths are not modelled and give
`ValueError`. -/
def updateTags (cells : Cells) (c : Cell) (old new : Node) : Res Cell :=
  if old.1 = 0 ∧ new.1 = 0 then do
    let oldCell ← cellAt cells old.2
    let newCell ← cellAt cells new.2
    match oldCell.nodeTags with
    | [t] =>
      match firstIndex c.nodeTags t with
      | none => .error .assertionError
      | some pos => do
        let t' ← getIdx newCell.nodeTags 0
        pure { c with nodeTags := c.nodeTags.set pos t' }
    | _ => .error .valueError
  else .ok c

/-- mesh_operations.py:253-271: the body of the innermost loop. -/
def updateCell (old new : Node) (cells : Cells) (pred : Node) : Res Cells := do
  let c ← cellAt cells pred.2
  let ids ← Cell.subIds c old.1
  match firstIndex ids old.2 with
  | none => .ok cells
  | some pos => do
    let newIds ← Cell.subIds c new.1
    if pos < newIds.length then do
      let c ← updateTags cells { c with sub := c.sub.set new.1 (newIds.set pos new.2) } old new
      pure (cells.set pred.2 (some c))
    else .error .indexError

/-- mesh_operations.py:250-252 -/
def updatePair (patch : DiGraph Node) (cells : Cells) (item : Node × Node) : Res Cells := do
  let preds ← patch.predecessors item.1
  preds.foldlM (updateCell item.1 item.2) cells

/-- mesh_operations.py:230-271 `update_cells_with_cell_pairs`; returns the cells of the mesh. -/
def updateCells (m : Mesh) (targets : List Cell) (pairs : Pairs) : Res Cells := do
  let dims := targets.map (·.dimension)
  let maxDim ← npMax dims
  let minDim ← npMin dims
  if maxDim ≠ minDim then .error .valueError
  else do
    let ids := targets.map (·.id)
    let st ← (List.range maxDim).foldlM (gatherStep m ids maxDim pairs) (DiGraph.empty, [])
    st.2.flatten.foldlM (updatePair st.1) m.cells

end Verif.MeshOps
