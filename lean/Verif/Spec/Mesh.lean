/-
Specification vocabulary for the mesh properties C01-C05.  Nothing here refers to the
algorithm of `build_conformal_mesh`: a mesh file is a list of tagged simplices, an entity of the
mesh is a sub-multiset of the nodes of a simplex.
-/
import Verif.Model.MeshBuild
import Mathlib.Data.List.Sublists
import Mathlib.Data.Finset.Dedup
import Mathlib.Data.Finset.Card

namespace Verif.MeshBuild

/-- Node lists of the rows of a block, in file order. -/
def Block.simplices : Block → List (List Nat)
  | .vertex rows _ => rows.map fun a => [a]
  | .line rows _ => rows.map fun r => [r.1, r.2]
  | .triangle rows _ => rows.map fun r => [r.1, r.2.1, r.2.2]
  | .tetra rows _ => rows.map fun r => [r.1, r.2.1, r.2.2.1, r.2.2.2]

/-- The physical tags of a block. -/
def Block.phys : Block → List Int
  | .vertex _ p => p | .line _ p => p | .triangle _ p => p | .tetra _ p => p

/-- All simplices listed in the file. -/
def MeshFile.simplices (f : MeshFile) : List (List Nat) := f.blocks.flatMap Block.simplices

/-- All simplices listed in the file that carry a physical tag, with their tag, in file order. -/
def MeshFile.tagged (f : MeshFile) : List (List Nat × Int) :=
  f.blocks.flatMap fun b => b.simplices.zip b.phys

/-- The `e`-dimensional faces of the simplex with the given nodes, in the reference order:
vertices in node order, then, for `e ≥ 1`, the `(e+1)`-subsets of the nodes in the order
"opposite to vertex 0 first" (the UFC/DefElement order). -/
def faces (e : Nat) (nodes : List Nat) : List (List Nat) :=
  if e = 0 then nodes.map fun a => [a] else nodes.sublistsLen (e + 1)

example : faces 1 [10, 11, 12] = [[11, 12], [10, 12], [10, 11]] := by decide
example : faces 1 [0, 1, 2, 3] = [[2, 3], [1, 3], [1, 2], [0, 3], [0, 2], [0, 1]] := by decide
example : faces 2 [0, 1, 2, 3] = [[1, 2, 3], [0, 2, 3], [0, 1, 3], [0, 1, 2]] := by decide

/-- `x` is (a listing of the nodes of) a face, of any dimension, of the simplex `s`. -/
def IsFaceOf (x s : List Nat) : Prop := x ≠ [] ∧ List.Subperm x s

/-- The set of `e`-dimensional entities of the file, as multisets of nodes, for `e ≥ 1`. -/
def MeshFile.entities (f : MeshFile) (e : Nat) : Finset (Multiset Nat) :=
  ((f.simplices.flatMap (faces e)).map Multiset.ofList).toFinset

/-- The last tag the file gives to the simplex with these nodes. -/
def lastTag (tagged : List (List Nat × Int)) (nodes : List Nat) : Option Int :=
  (tagged.reverse.find? fun p => p.1.isPerm nodes).map Prod.snd

/-- Exactly the files `build_conformal_mesh` accepts: there is a point, there is a simplex that is
not a bare vertex, and tagged simplices only use existing points. -/
def MeshFile.WF (f : MeshFile) : Prop :=
  f.nPoints ≠ 0 ∧ (∃ s ∈ f.simplices, 2 ≤ s.length) ∧
    ∀ p ∈ f.tagged, ∀ n ∈ p.1, n < f.nPoints

/-- First position of the entities of dimension `d`: vertices, then edges, faces, volumes. -/
def MeshFile.start (f : MeshFile) : Nat → Nat
  | 0 => 0
  | 1 => f.nPoints
  | d + 2 => f.start (d + 1) + (f.entities (d + 1)).card

/-- Cell `c` is stored at position `i`. -/
def Stored (cells : Cells) (i : Nat) (c : Cell) : Prop := cells[i]? = some (some c)

end Verif.MeshBuild
