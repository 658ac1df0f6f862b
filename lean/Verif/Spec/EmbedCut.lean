/-
Specification vocabulary for C34: cutting a mesh along immersed shapes.
-/
import Verif.Spec.MeshOps
import Verif.Model.EmbedCut

namespace Verif.EmbedCut
open MeshBuild MeshGraph Trace MeshMetrics MeshOps

/-- What the cut needs of a two-dimensional mesh with `n` points, and gives back: every slot holds
a cell whose id is its position; the lists of proper sub-cells name cells of the right dimension;
every cell has vertices, and its node tags are theirs; a vertex has one node tag, naming a point,
and it is the only one with it.  (The entry of a cell in the list of its own dimension is not
constrained.) -/
structure CutOK (cells : Cells) (n : Nat) : Prop where
  filled : ∀ i < cells.length, ∃ c, Stored cells i c
  ids : ∀ i c, Stored cells i c → c.id = i
  dims : ∀ i c, Stored cells i c → c.dimension ≤ 2
  subLen : ∀ i c, Stored cells i c → c.sub.length = c.dimension + 1
  sub : ∀ i c, Stored cells i c → ∀ e < c.dimension, ∀ ids, c.sub[e]? = some ids →
    ∀ x ∈ ids, HasDim cells e x
  vertex : ∀ i c, Stored cells i c → c.dimension = 0 → ∃ t < n, c.nodeTags = [t]
  nodes : ∀ i c, Stored cells i c → 0 < c.dimension → ∀ vs, c.sub[0]? = some vs →
    vs ≠ [] ∧ List.Forall₂ (VTag cells) vs c.nodeTags
  distinct : ∀ v w t, VTag cells v t → VTag cells w t → v = w

/-- The centroid of the cell is on the positive side of the cut (`σ = true`), or not. -/
def Side (k : Cut) (points : Points ℝ) (c : Cell) (σ : Bool) : Prop :=
  ∃ x, cellCentroid points c = .ok x ∧ (σ = true ↔ 0 < dot3 (x - k.centre) k.normal)

/-- The `j`-th of the `old` ones becomes `start + j`, the others stay. -/
def copyOf (old : List Nat) (start x : Nat) : Nat :=
  if x ∈ old then start + old.idxOf x else x

/-- A cell with its edges, vertices and nodes replaced. -/
def renamed (E V T : Nat → Nat) (c : Cell) : Cell :=
  { c with
    nodeTags := c.nodeTags.map T
    sub := (if c.dimension = 2 then c.sub.modify 1 (·.map E) else c.sub).modify 0 (·.map V) }

/-- `+1` or `-1` -/
def sign (σ : Bool) : Int := if σ then 1 else -1

/-- First of the `m` numbers from `n` on (positive side) or of the `m` numbers after these. -/
def startOf (σ : Bool) (n m : Nat) : Nat := if σ then n else n + m

/-- The cut edges and the duplicated vertices with their node tags. -/
structure Seam where
  edges : List Nat
  vertices : List Nat
  tags : List Nat

namespace Seam
/-- id of the first copy of the edges on a side -/
def edgeStart (S : Seam) (p : Parts) (σ : Bool) : Nat := startOf σ p.cells.length S.edges.length
/-- id of the first copy of the vertices on a side -/
def vertexStart (S : Seam) (p : Parts) (σ : Bool) : Nat :=
  startOf σ (p.cells.length + 2 * S.edges.length) S.vertices.length
/-- first new node tag of a side -/
def nodeStart (S : Seam) (p : Parts) (σ : Bool) : Nat := startOf σ p.points.length S.vertices.length
/-- the edges of a side -/
def edge (S : Seam) (p : Parts) (σ : Bool) : Nat → Nat := copyOf S.edges (S.edgeStart p σ)
/-- the vertices of a side -/
def vertex (S : Seam) (p : Parts) (σ : Bool) : Nat → Nat := copyOf S.vertices (S.vertexStart p σ)
/-- the nodes of a side -/
def node (S : Seam) (p : Parts) (σ : Bool) : Nat → Nat := copyOf S.tags (S.nodeStart p σ)
/-- the entities of dimension `e` (0 or 1) that are duplicated -/
def ent (S : Seam) (e : Nat) : List Nat := if e = 0 then S.vertices else S.edges
/-- their first copy on a side -/
def start (S : Seam) (p : Parts) (e : Nat) (σ : Bool) : Nat :=
  if e = 0 then S.vertexStart p σ else S.edgeStart p σ
/-- the entities of dimension `e` of a side -/
def copy (S : Seam) (p : Parts) (e : Nat) (σ : Bool) : Nat → Nat :=
  copyOf (S.ent e) (S.start p e σ)
end Seam

/-- The seam of a cut: the edges with the material of the cut, and those of their vertices that have
another material. -/
structure IsSeam (k : Cut) (p : Parts) (S : Seam) : Prop where
  edges : ∀ i, i ∈ S.edges ↔ ∃ c, Stored p.cells i c ∧ c.material = k.mat ∧ c.dimension = 1
  vertices : ∀ v, v ∈ S.vertices ↔
    ∃ c, Stored p.cells v c ∧ c.material ≠ k.mat ∧ ∃ i ∈ S.edges, SubEntity p.cells i 0 v
  edgesNodup : S.edges.Nodup
  verticesNodup : S.vertices.Nodup
  tags : List.Forall₂ (VTag p.cells) S.vertices S.tags

/-- The mesh `q` is `p` cut along the seam `S`. -/
structure IsCutAlong (s : Style) (k : Cut) (p q : Parts) (S : Seam) : Prop where
  seam : IsSeam k p S
  length : q.cells.length = p.cells.length + 2 * S.edges.length + 2 * S.vertices.length
  /-- the points of the duplicated vertices are appended twice -/
  points : ∃ xs, List.Forall₂ (fun t x => p.points[t]? = some x) S.tags xs ∧
    q.points = p.points ++ xs ++ xs
  /-- vertices and cut edges stay as they are -/
  kept : ∀ i c, Stored p.cells i c → c.dimension = 0 ∨ i ∈ S.edges → Stored q.cells i c
  /-- all others get the edges, vertices and nodes of their side -/
  moved : ∀ i c, Stored p.cells i c → 0 < c.dimension → i ∉ S.edges → ∃ σ, Side k p.points c σ ∧
    Stored q.cells i (renamed (S.edge p σ) (S.vertex p σ) (S.node p σ) c)
  /-- the two copies of each cut edge -/
  edgeCopy : ∀ σ (j i : Nat) c, S.edges[j]? = some i → Stored p.cells i c →
    ∃ m vs, k.mat = some m ∧ c.sub[0]? = some vs ∧ Stored q.cells (S.edgeStart p σ + j)
      ⟨1, S.edgeStart p σ + j, some (s.scale * m + sign σ), c.nodeTags.map (S.node p σ),
        [vs.map (S.vertex p σ), s.own (S.edgeStart p σ + j) i]⟩
  /-- the two copies of each duplicated vertex -/
  vertexCopy : ∀ σ (j v : Nat) c, S.vertices[j]? = some v → Stored p.cells v c →
    ∃ m, k.mat = some m ∧ Stored q.cells (S.vertexStart p σ + j)
      ⟨0, S.vertexStart p σ + j, c.material.map fun _ => s.scale * m + sign σ,
        [S.nodeStart p σ + j], [[S.nodeStart p σ + j]]⟩

/-- Two cells have an entity of dimension `e` in common. -/
def Share (cells : Cells) (e i j : Nat) : Prop :=
  ∃ x, SubEntity cells i e x ∧ SubEntity cells j e x

/-- A cut of the dictionary. -/
def cutOf (x : Option Int × (Pt ℝ × Pt ℝ)) : Cut := ⟨x.1, x.2.1, x.2.2⟩

/-- The centroids of two cells are on different sides. -/
def Apart (k : Cut) (p : Parts) (i j : Nat) : Prop :=
  ∃ ci cj σ, Stored p.cells i ci ∧ Stored p.cells j cj ∧ Side k p.points ci σ ∧
    Side k p.points cj (!σ)

end Verif.EmbedCut
