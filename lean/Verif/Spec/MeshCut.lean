/-
Specification vocabulary for C58: cutting a mesh along a line.
-/
import Verif.Spec.MeshOps
import Verif.Model.MeshCut

namespace Verif.MeshOps
open MeshBuild MeshGraph MeshStore Trace MeshMetrics

/-- A mesh in order: well-formed, without repeated sub-cells, node tags agreeing with vertices
and naming one of the `n` points. -/
structure MeshOK (cells : Cells) (n : Nat) : Prop where
  wf : WellFormed cells
  nodup : SubNodup cells
  nodes : NodesOK cells
  tags : ∀ v t, VTag cells v t → t < n

/-- The cell has one of the given vertices. -/
def Touches (c2 : List Cell) (c : Cell) : Prop :=
  ∃ v ∈ c2, ∃ vs, c.sub[0]? = some vs ∧ v.id ∈ vs

/-- Signed distance of the centroid of a cell to the line through the middle of `a`, `b`. -/
def SideIs (a b : Pt ℝ) (points : Points ℝ) (c : Cell) (s : ℝ) : Prop :=
  ∃ x, cellCentroid points c = .ok x ∧ s = dot3 (x - midpoint a b) (normalDir a b)

/-- The edges to be cut: those with the line's tag whose centroid is on the segment. -/
def IsC1 (onLine : Pt ℝ → Bool) (tags : CutTags) (p : Parts) (c : Cell) : Prop :=
  Stored p.cells c.id c ∧ c.material = tags.line ∧
    ∃ x, cellCentroid p.points c = .ok x ∧ onLine x = true

/-- The vertices to be split: those of the cut edges, except the ones of the internal
boundary. -/
def IsC2 (tags : CutTags) (p : Parts) (c1 : List Cell) (c : Cell) : Prop :=
  Stored p.cells c.id c ∧ c.material ≠ tags.internalBc ∧
    ∃ d ∈ c1, ∃ vs, d.sub[0]? = some vs ∧ c.id ∈ vs

/-- A cell of dimension `k` around the split vertices, strictly on the side of sign `σ`. -/
def OnSide (a b : Pt ℝ) (p : Parts) (c2 : List Cell) (k : Nat) (σ : ℝ) (i : Nat) (c : Cell) :
    Prop :=
  Stored p.cells i c ∧ c.dimension = k ∧ Touches c2 c ∧ ∃ s, SideIs a b p.points c s ∧ 0 < σ * s

/-- The pairs of one side by dimension. -/
def sidePairs (c1 c2 d1 d2 : List Cell) (e : Nat) : List (Cell × Cell) :=
  if e = 0 then c2.zip d2 else c1.zip d1

/-- `tag_map` of mesh_operations.py:325. -/
def cutTagMap (tags : CutTags) : Dict (Option Int) (Option Int) :=
  Dict.ofList [(tags.line, tags.lineClones), (tags.point, tags.pointClones)]

/-- The mesh `q` is `p` cut along a line.  `c1`, `c2` are the cut edges and the split vertices,
`d1`, `d2` their copies on the positive side, `f1`, `f2` those on the negative side. -/
structure IsCut (onLine : Pt ℝ → Bool) (a b : Pt ℝ) (tags : CutTags) (visual : Bool)
    (p q : Parts) (c1 c2 d1 d2 f1 f2 : List Cell) : Prop where
  mem1 : ∀ c, c ∈ c1 ↔ IsC1 onLine tags p c
  mem2 : ∀ c, c ∈ c2 ↔ IsC2 tags p c1 c
  nodup1 : (c1.map (·.id)).Nodup
  nodup2 : (c2.map (·.id)).Nodup
  /-- the copies are numbered after the cells of `p` -/
  idsD1 : d1.map (·.id) = List.range' p.cells.length c1.length
  idsD2 : d2.map (·.id) = List.range' (p.cells.length + c1.length) c2.length
  idsF1 : f1.map (·.id) = List.range' (p.cells.length + c1.length + c2.length) c1.length
  idsF2 : f2.map (·.id) = List.range' (p.cells.length + 2 * c1.length + c2.length) c2.length
  length : q.cells.length = p.cells.length + 2 * (c1.length + c2.length)
  /-- the points of the copied vertices follow those of `p` -/
  points : ∃ ps ps', q.points = p.points ++ ps ++ ps' ∧ ps.length = c2.length ∧
    ps'.length = c2.length ∧ ∀ (i : Nat) c, c2[i]? = some c →
      ∃ t x, c.nodeTags = [t] ∧ p.points[t]? = some x ∧
        ps[i]? = some (bumped ⟨a, normalDir a b, 1, if visual then 1 / 20 else 0⟩ x) ∧
        ps'[i]? = some (bumped ⟨a, normalDir a b, -1, if visual then 1 / 20 else 0⟩ x)
  mesh : MeshOK q.cells q.points.length
  /-- triangles and edges around the split vertices get the copies of their side -/
  pos : ∀ k, k = 1 ∨ k = 2 → ∀ i c, OnSide a b p c2 k 1 i c →
    ∃ c', Stored q.cells i c' ∧ Updated (sidePairs c1 c2 d1 d2) c c'
  neg : ∀ k, k = 1 ∨ k = 2 → ∀ i c, OnSide a b p c2 k (-1) i c →
    ∃ c', Stored q.cells i c' ∧ Updated (sidePairs c1 c2 f1 f2) c c'
  /-- the other cells stay as they are -/
  other : ∀ i c, Stored p.cells i c →
    (∀ k, k = 1 ∨ k = 2 → ¬ OnSide a b p c2 k 1 i c ∧ ¬ OnSide a b p c2 k (-1) i c) →
    Stored q.cells i c
  /-- the copies of the edges are copies with the vertices of their side -/
  edgePos : ∀ (i : Nat) c, c1[i]? = some c → ∃ c0 c', d1[i]? = some c0 ∧
    IsCopy (cutTagMap tags) (p.cells.length + i) c c0 ∧
    Stored q.cells (p.cells.length + i) c' ∧ Updated (sidePairs c1 c2 d1 d2) c0 c'
  edgeNeg : ∀ (i : Nat) c, c1[i]? = some c → ∃ c0 c', f1[i]? = some c0 ∧
    IsCopy (cutTagMap tags) (p.cells.length + c1.length + c2.length + i) c c0 ∧
    Stored q.cells (p.cells.length + c1.length + c2.length + i) c' ∧
    Updated (sidePairs c1 c2 f1 f2) c0 c'
  /-- the copies of the vertices name the copied points -/
  vertexPos : ∀ (i : Nat) c, c2[i]? = some c → ∃ c', d2[i]? = some c' ∧
    Stored q.cells (p.cells.length + c1.length + i) c' ∧
    IsCopy (cutTagMap tags) (p.cells.length + c1.length + i) c
      { c' with nodeTags := c.nodeTags } ∧ c'.nodeTags = [p.points.length + i]
  vertexNeg : ∀ (i : Nat) c, c2[i]? = some c → ∃ c', f2[i]? = some c' ∧
    Stored q.cells (p.cells.length + 2 * c1.length + c2.length + i) c' ∧
    IsCopy (cutTagMap tags) (p.cells.length + 2 * c1.length + c2.length + i) c
      { c' with nodeTags := c.nodeTags } ∧ c'.nodeTags = [p.points.length + c2.length + i]

/-- The triangles do not cross the line near the split vertices, and the edges on the line
touching a split vertex are cut. -/
structure FollowsLine (a b : Pt ℝ) (p : Parts) (c1 c2 : List Cell) : Prop where
  dims : ∀ i c, Stored p.cells i c → c.dimension ≤ 2
  triangle : ∀ i c, Stored p.cells i c → c.dimension = 2 → Touches c2 c → ∀ vs,
    c.sub[0]? = some vs → ∃ σ : ℝ, (σ = 1 ∨ σ = -1) ∧
      (∀ v ∈ vs, ∀ d s, Stored p.cells v d → SideIs a b p.points d s → 0 ≤ σ * s) ∧
      ∃ v ∈ vs, ∃ d s, Stored p.cells v d ∧ SideIs a b p.points d s ∧ s ≠ 0
  edge : ∀ i c, Stored p.cells i c → c.dimension = 1 → Touches c2 c → ∀ vs,
    c.sub[0]? = some vs →
    (∀ v ∈ vs, ∀ d s, Stored p.cells v d → SideIs a b p.points d s → s = 0) → c ∈ c1

end Verif.MeshOps
