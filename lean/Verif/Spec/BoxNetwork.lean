/-
What the description of a fracture network for gmsh is expected to be.
-/
import Verif.Spec.Builder

namespace Verif.Builder
open MeshGraph Mesher
variable {P : Type}

/-- All parts of fractures, by position. -/
def allParts (cells : List GCell) : List Nat := cells.flatMap GCell.immersed

/-- The cell at the position `i` is a vertex. -/
def IsVertex (cells : List GCell) (i : Nat) : Prop := ∃ c, cells[i]? = some c ∧ c.dimension = 0

/-- A network of lines: vertices with their points and edges between two vertices, with physical
tags.  An edge is whole or consists of other edges, which are whole, and no edge is part of two
others.  The ids are positions from `off` on, the numbers of the points begin with `first`. -/
structure Fine (net : Network P) (off first : Nat) : Prop where
  ids : ∀ (i : Nat) c, net.cells[i]? = some c → c.id = i + off
  tagged : ∀ c ∈ net.cells, ∃ p, c.physical = some p
  vertex : ∀ c ∈ net.cells, c.dimension = 0 → c.boundary = [] ∧ c.immersed = [] ∧
    ∃ k, c.pointId = some k ∧ first ≤ k ∧ k < first + net.points.length
  edge : ∀ c ∈ net.cells, c.dimension ≠ 0 → c.dimension = 1 ∧
    ∃ b e, c.boundary = [b, e] ∧ IsVertex net.cells b ∧ IsVertex net.cells e
  parts : ∀ c ∈ net.cells, ∀ j ∈ c.immersed, ∃ d, net.cells[j]? = some d ∧ d.dimension = 1 ∧
    d.immersed = []
  once : (allParts net.cells).Nodup
  used : ∀ i, IsVertex net.cells i → ∃ c ∈ net.cells, i ∈ c.boundary

/-- The fractures: the edges that are not parts of others. -/
def fractures (cells : List GCell) : List GCell :=
  (cells.zipIdx.filter fun p => p.1.dimension = 1 ∧ p.2 ∉ allParts cells).map Prod.fst

/-- The whole edges that make up a fracture at the position `i`. -/
def pieces (i : Nat) (c : GCell) : List Nat := if c.immersed = [] then [i] else c.immersed

/-- The tag of the point of the vertex at the position `i`. -/
def tagAt (cells : List GCell) (i : Nat) : Int := (((cells[i]?.bind GCell.pointId).getD 0 : Nat) : Int) + 1

/-- The line of the whole edge at the position `j`. -/
def pieceCall (cells : List GCell) (off j : Nat) : Call P :=
  let ends := (cells[j]?.map GCell.boundary).getD []
  .addLine (tagAt cells (ends.headD 0)) (tagAt cells (ends.getLastD 0)) ((j + off : Nat) : Int)

/-- The tags of the whole edges of a fracture. -/
def pieceTags (off : Nat) (c : GCell) : List Int :=
  (pieces (c.id - off) c).map fun j => ((j + off : Nat) : Int)

/-- The calls for the fractures and the vertices in the given order: the lines, the vertices with the
tag of each fracture, the other vertices one by one, and the lines of each fracture. -/
def networkCalls (cells : List GCell) (off : Nat) (fractureTags : List Int) (main vertices : List GCell) :
    List (Call P) :=
  (main.flatMap fun c => (pieces (c.id - off) c).map (pieceCall cells off)) ++
  main.map (fun c => .addPhysicalGroup 0
    ((vertices.filter fun v => v.physical = c.physical).map fun v => tagAt cells (v.id - off))
    (c.physical.getD 0)) ++
  (vertices.filter fun v => v.physical ∉ fractureTags.map some).map (fun v =>
    .addPhysicalGroup 0 [tagAt cells (v.id - off)] (v.physical.getD 0)) ++
  main.map (fun c => .addPhysicalGroup 1 (pieceTags off c) (c.physical.getD 0))

end Verif.Builder
