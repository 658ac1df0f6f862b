/-
Specification vocabulary for C28 and C29: permutations of the vertices of a face, and where the
degrees of freedom of edges and faces sit in a tabulated basis.
-/
import Verif.Spec.Mesh
import Verif.Model.Orientation
import Mathlib.GroupTheory.Perm.Fin

namespace Verif.Orient
open MeshBuild

/-- The reference rotation of a triangle: vertex `j` goes to vertex `j + 1`. -/
def rotation : Equiv.Perm (Fin 3) := finRotate 3

/-- The reference reflection of a triangle: it keeps vertex 0. -/
def reflection : Equiv.Perm (Fin 3) := Equiv.swap 1 2

/-- `face` lists the nodes of `ref` in the order given by `g`. -/
def ReadsAs (face ref : List Nat) (g : Equiv.Perm (Fin 3)) : Prop :=
  face.length = 3 ∧ ∀ j : Fin 3, face[(j : Nat)]? = ref[(g j : Nat)]?

/-- The code (rotations, reflections) stands for "rotate, then reflect". -/
def codePerm (rot ref : Nat) : Equiv.Perm (Fin 3) := reflection ^ ref * rotation ^ rot

/-- Face `i` of a cell on the boundary is treated specially (lines 102-105). -/
def Overridden (bc : List Bool) (i : Nat) : Prop := bc[i]? = some true ∧ (i = 1 ∨ i = 3)

section
variable {K V : Type} [CommRing K] [AddCommGroup V] [Module K V]

/-- The basis functions at the given positions. -/
def block (n : Nat) (phi : List V) (dofs : List Nat) : Fin n → V :=
  fun j => phi.getD (dofs.getD j 0) 0

/-- A matrix acting on a family of functions. -/
def act {n : Nat} (t : Matrix (Fin n) (Fin n) K) (v : Fin n → V) : Fin n → V :=
  fun j => ∑ k, t j k • v k

/-- The degrees of freedom of the edges and faces of a cell with `nE` edges and `nF` faces, in a
basis of `n` functions: right numbers, no function used twice. -/
structure Layout (data : DofData K) (n nE nF : Nat) (eDofs fDofs : List (List Nat)) : Prop where
  edges : data.entityDofs[1]? = some eDofs
  faces : data.entityDofs[2]? = some fDofs
  nEdges : eDofs.length = nE
  nFaces : fDofs.length = nF
  edgeLen : ∀ l ∈ eDofs, l.length = data.nEdge
  faceLen : ∀ l ∈ fDofs, l.length = data.nFace
  nodup : (fDofs ++ eDofs).flatten.Nodup
  range : ∀ a ∈ (fDofs ++ eDofs).flatten, a < n

/-- The transformations of basix: the face transformations represent the permutations of the
vertices of a triangle, the edge transformation represents the reversal of an interval, and the
identity flag is only set when they are all trivial. -/
structure Represents (data : DofData K)
    (T : Equiv.Perm (Fin 3) →* Matrix (Fin data.nFace) (Fin data.nFace) K) : Prop where
  rotate : T rotation = data.rotateFace
  reflect : T reflection = data.reflectFace
  edge : data.reflectEdge * data.reflectEdge = 1
  identity : data.identity = true → (∀ g, T g = 1) ∧ data.reflectEdge = 1

end

end Verif.Orient
