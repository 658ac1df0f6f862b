/-
What the cells of `GeometryBuilder` and their description for gmsh are expected to be.
-/
import Verif.Model.Builder
import Verif.Spec.Mesher

namespace Verif.Builder
open MeshGraph Mesher
variable {P : Type}

/-- The cells that a cell refers to. -/
def GCell.refs (c : GCell) : List Nat := c.boundary ++ c.immersed

/-- The graph has every cell as a node, and an edge from every cell to each of the cells it refers
to. -/
structure IsGraph (cells : List GCell) (g : DiGraph Nat) : Prop where
  nodes : g.nodes.Perm (List.range cells.length)
  edges : ∀ u v, (u, v) ∈ g.edges ↔ ∃ c, cells[u]? = some c ∧ v ∈ c.refs

/-- The line from the first to the second of two points. -/
def lineCells (tags : Dict Name Int) : List GCell :=
  [⟨0, 0, tags.get? (.bc 0), some 0, [], [], []⟩, ⟨0, 1, tags.get? (.bc 1), some 1, [], [], []⟩,
    ⟨1, 2, tags.get? .line, none, [0, 1], [], []⟩]

/-- The polygon with `n` corners: its corners, its sides from each corner to the next one, with the
tags of the boundary, and its interior. -/
def polygonCells (tags : Dict Name Int) (n : Nat) : List GCell :=
  (List.range n).map (fun i => ⟨0, i, none, some i, [], [], []⟩) ++
  (List.range n).map (fun i => ⟨1, n + i, tags.get? (.bc i), none, [i, (i + 1) % n], [], []⟩) ++
  [⟨2, n + n, tags.get? .area, none, (List.range n).map (n + ·), [], []⟩]

/-- The sides of the box with the corners 0 to 3 below and 4 to 7 above them, as pairs of corners:
below, above, and upwards. -/
def hexEdges : List (List Nat) :=
  (List.range 4).map (fun i => [i, (i + 1) % 4]) ++
  (List.range 4).map (fun i => [4 + i, 4 + (i + 1) % 4]) ++
  (List.range 4).map (fun i => [i, 4 + i])

/-- The faces of the box, as loops of corners: at the four lower sides, below and above. -/
def hexFaces : List (List Nat) :=
  (List.range 4).map (fun i => [i, (i + 1) % 4, 4 + (i + 1) % 4, 4 + i]) ++
  [[0, 1, 2, 3], [4, 5, 6, 7]]

/-- The signed edges of a loop of corners: the position among the edges, after the eight corners,
with a minus for an edge in the other direction. -/
def loopOf (corners : List Nat) : List Int :=
  (corners.zip (corners.tail ++ corners.take 1)).map fun p =>
    if [p.1, p.2] ∈ hexEdges then (8 + hexEdges.idxOf [p.1, p.2] : Nat)
    else -(8 + hexEdges.idxOf [p.2, p.1] : Nat)

/-- The cells of the box: corners, edges, faces with the tags of the boundary, and the interior. -/
def boxCells (tags : Dict Name Int) : List GCell :=
  (List.range 8).map (fun i => ⟨0, i, none, some i, [], [], []⟩) ++
  hexEdges.zipIdx.map (fun p => ⟨1, 8 + p.2, none, none, p.1, [], []⟩) ++
  hexFaces.zipIdx.map (fun p =>
    ⟨2, 20 + p.2, tags.get? (.bc p.2), none, (loopOf p.1).map Int.natAbs, loopOf p.1, []⟩) ++
  [⟨3, 26, tags.get? .volume, none, (List.range 6).map (20 + ·), [], []⟩]

/-- A signed curve of a loop leads from the point `b` to the point `e`. -/
def Directed (calls : List (Call P)) (c b e : Int) : Prop :=
  (0 < c ∧ .addLine b e c ∈ calls) ∨ (c < 0 ∧ .addLine e b (-c) ∈ calls)

/-- The loop leads through the points `vs` and back to the first. -/
def Closed (calls : List (Call P)) (loop vs : List Int) : Prop :=
  vs.length = loop.length ∧ ∀ i < loop.length, ∃ c b e, loop[i]? = some c ∧ vs[i]? = some b ∧
    vs[(i + 1) % loop.length]? = some e ∧ Directed calls c b e

/-- The dimension and the physical tag of the groups. -/
def groupKeys (calls : List (Call P)) : List (Nat × Int) :=
  calls.filterMap fun
    | .addPhysicalGroup k _ p => some (k, p)
    | _ => none

end Verif.Builder
