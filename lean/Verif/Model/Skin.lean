/-
Model of the detection of closed internal boundaries (src/mesh/mesh.py:1442-1561): `next_d_m_1`,
`circulate_internal_bc`, `next_d_m_1_cell` and `circulate_internal_bc_from_domain`.

The list `closed_q` that the recursion mutates is the returned boolean.  The two recursions differ
only in where `fracture_tags` comes from.
-/
import Verif.Model.MeshGraph
import Verif.Model.Domain

namespace Verif.Skin
open MeshBuild MeshGraph Topology

/-- `[x for x in l if cond(x)]` with exceptions -/
def filterRes {α : Type} (cond : α → Res Bool) : List α → Res (List α)
  | [] => .ok []
  | a :: as => do
    let b ← cond a
    let r ← filterRes cond as
    pure (if b then a :: r else r)

/-- `self.cells[idx[1]].material_id not in fracture_tags` -/
def isSkin (cells : Cells) (tags : List (Option Int)) (n : Node) : Res Bool := do
  let c ← cellAt cells n.2
  pure (!tags.contains c.material)

/-- mesh.py:1444-1445 (1497-1498) and 1484-1487 (1552-1555): the predecessors that are skin cells -/
def skinNeighs (cells : Cells) (tags : List (Option Int)) (graph : DiGraph Node) (v : Node) :
    Res (List Node) := do
  let pc ← graph.predecessors v
  filterRes (isSkin cells tags) pc

/-- `assert len(l) == 1`, then `l[0]` -/
def theOnly {α : Type} : List α → Res α
  | [a] => .ok a
  | _ => .error .assertionError

/-- mesh.py:1444-1452 (1497-1505): the other skin cell at the vertex and its other vertex -/
def nextPair (cells : Cells) (tags : List (Option Int)) (graph : DiGraph Node) (cell vertex : Node) :
    Res (Node × Node) := do
  let neighs ← skinNeighs cells tags graph vertex
  if neighs.length ≠ 2 then throw .assertionError
  let f ← theOnly (neighs.filter (· ≠ cell))
  let sc ← graph.successors f
  let w ← theOnly (sc.filter (· ≠ vertex))
  pure (f, w)

/-- mesh.py:1442-1462 `next_d_m_1` (1494-1520 `next_d_m_1_cell`).  `fuel` is the remaining Python
recursion depth. -/
def next (cells : Cells) (tags : List (Option Int)) (graph : DiGraph Node) (seed : Node) :
    Nat → Node → Node → Res Bool
  | 0, _, _ => .error .recursionError
  | fuel + 1, cell, vertex => do
    let p ← nextPair cells tags graph cell vertex
    if seed = p.2 then pure true else next cells tags graph seed fuel p.1 p.2

/-- mesh.py:1467-1481 (1534-1549): the vertices of the first fracture, sorted, that carry its tag -/
def fractureVertices (cells : Cells) (tag : Option Int) : Res (List Nat) := do
  let sel ← selectCells (fun c => c.material == tag) cells
  let cs ← mapRes (cellAt cells) (sel.map Cell.id)
  let ids ← mapRes (fun c => Cell.subIds c 0) (cs.filter fun c => c.dimension == 1)
  filterRes (fun v => do
    let c ← cellAt cells v
    pure (c.material == tag)) (npSort (uniq ids.flatten))

/-- mesh.py:1464-1492 `circulate_internal_bc` and 1533-1561, the rest of
`circulate_internal_bc_from_domain`; `limit` is the recursion depth left. -/
def circulate (limit : Nat) (m : Mesh) (tags : List (Option Int)) : Res Bool := do
  let tag ← getIdx tags 0
  let vertices ← fractureVertices m.cells tag
  let graph ← buildGraphOnMaterials m 1 1
  let v ← getIdx vertices 0
  let c ← cellAt m.cells v
  let seed : Node := (c.dimension, v)
  let skin ← skinNeighs m.cells tags graph seed
  let s ← getIdx skin 0
  next m.cells tags graph seed limit s seed

/-- mesh.py:1522-1561 `circulate_internal_bc_from_domain`: `True` without immersed shapes. -/
def circulateFromDomain {P : Type} (limit : Nat) (m : Mesh) (d : Domain P) : Res Bool := do
  if m.dimension ≠ 2 then throw .assertionError
  let shapes ← getIdx d.shapes m.dimension
  if shapes.length ≠ 1 then throw .assertionError
  let s ← getIdx shapes 0
  if s.view.immersed.length = 0 then pure true
  else circulate limit m (s.view.immersed.map Shape.physicalTag)

end Verif.Skin
