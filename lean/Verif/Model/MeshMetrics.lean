/-
Model of src/mesh/mesh_metrics.py (over the real numbers) and of src/mesh/mesh_coloring.py.
-/
import Verif.Model.Trace
import Mathlib.Data.Real.Sqrt

namespace Verif.MeshMetrics
open MeshBuild MeshGraph Trace

/-- `np.linalg.norm` of a vector with three components -/
noncomputable def norm3 (v : Pt ℝ) : ℝ := Real.sqrt (v 0 ^ 2 + v 1 ^ 2 + v 2 ^ 2)

/-- `np.max` of a list of numbers; raises on empty input. -/
noncomputable def maxR : List ℝ → Res ℝ
  | [] => .error .valueError
  | a :: t => .ok (t.foldl max a)

/-- `np.min` of a list of numbers; raises on empty input. -/
noncomputable def minR : List ℝ → Res ℝ
  | [] => .error .valueError
  | a :: t => .ok (t.foldl min a)

/-- mesh_metrics.py:13-18: differences of all pairs of distinct positions. -/
def pairDiffs (points : List (Pt ℝ)) : List (Pt ℝ) :=
  points.zipIdx.flatMap fun o => (points.zipIdx.filter fun t => o.2 ≠ t.2).map fun t => t.1 - o.1

/-- mesh_metrics.py:12-20 `cell_diam` -/
noncomputable def cellDiam (points : Points ℝ) (c : Cell) : Res ℝ := do
  let ps ← fancy points c.nodeTags
  maxR ((pairDiffs ps).map norm3)

/-- mesh_metrics.py:6-9 `cell_centroid`: `np.mean` over the nodes (no nodes give `nan` in numpy;
excluded here by an error). -/
noncomputable def cellCentroid (points : Points ℝ) (c : Cell) : Res (Pt ℝ) := do
  let ps ← fancy points c.nodeTags
  if ps = [] then .error .valueError else pure fun k => (ps.map (· k)).sum / ps.length

/-- mesh_metrics.py:23-35 `mesh_size` -/
noncomputable def meshSize (m : Mesh) (points : Points ℝ) (dim : Option Nat)
    (tag : Option Int) : Res (ℝ × ℝ × ℝ) := do
  let dim := dim.getD m.dimension
  let sel ← selectCells (fun c => c.dimension == dim &&
    (match tag with | none => true | some t => c.material == some t)) m.cells
  let sizes ← mapRes (cellDiam points) sel
  let mn ← minR sizes
  let mx ← maxR sizes
  pure (mn, sizes.sum / sizes.length, mx)

/-! ### mesh_coloring.py -/

/-- The Python values compared in mesh_coloring.py:17: graph nodes are tuples, cell ids are
integers, and a tuple never equals an integer. -/
inductive PyVal where
  | int (n : Nat)
  | tuple (a b : Nat)
  deriving DecidableEq, Repr

/-- `G.reverse()` -/
def reverseGraph (g : DiGraph Node) : DiGraph Node := ⟨g.nodes, g.edges.map Prod.swap⟩

/-- mesh_coloring.py:22: position of a colour in the sorted list of distinct colours. -/
def compress (colors : List Nat) (c : Nat) : Nat :=
  (npSort (uniq colors)).idxOf c

/-- mesh_coloring.py:28-34 -/
def groupByColor (items : List (PyVal × Nat)) : Dict Nat (List PyVal) :=
  items.foldl (fun d it =>
    match d.get? it.2 with
    | none => d.set it.2 [it.1]
    | some l => d.set it.2 (l ++ [it.1])) []

/-- mesh_coloring.py:18-36 from the list of coloured elements on. -/
def finishColoring (items : List (PyVal × Nat)) :
    Res (Dict PyVal Nat × Dict Nat (List PyVal)) :=
  if items = [] then .error .valueError        -- np.vstack([])
  else
    let colors := items.map Prod.snd
    let e2c := Dict.ofList (items.map fun it => (it.1, compress colors it.2))
    .ok (e2c, groupByColor e2c)

/-- mesh_coloring.py:7-36 `coloring_mesh_by_co_dimension`; `equitable` is
`nx.coloring.equitable_color`, a parameter.  A codimension above `dim` would be a negative
Python index (mesh_topology.py:49-52) and is left out. -/
def coloring (equitable : DiGraph Node → Nat → Res (Dict Node Nat)) (nColors : Nat) (m : Mesh)
    (dim coDim : Nat) (_h : coDim ≤ dim) : Res (Dict PyVal Nat × Dict Nat (List PyVal)) := do
  let t ← Topology.new m dim
  let t ← t.buildData
  let g ← t.entityMapByDimension (dim - coDim)
  let col ← equitable (reverseGraph g) nColors
  let sel ← selectCells (fun c => c.dimension == dim) m.cells
  let ids := sel.map fun c => PyVal.int c.id
  let items := (col.map fun it => (PyVal.tuple it.1.1 it.1.2, it.2)).filter fun it => it.1 ∈ ids
  finishColoring items

end Verif.MeshMetrics
