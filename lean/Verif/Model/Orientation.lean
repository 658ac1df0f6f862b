/-
Model of src/basis/permute_and_transform.py.

A tabulated basis `phi[d, :, a, dim]` is seen as a function of `a`; its values (over derivatives,
points and components) live in a module `V`, on which the transformations act entry by entry.
The basix data (`entity_dofs`, `entity_transformations()`, `dof_transformations_are_identity`) are
a parameter.
-/
import Verif.Model.Trace
import Mathlib.Data.Matrix.Mul
import Mathlib.Algebra.BigOperators.Fin
import Mathlib.Algebra.Module.Defs

namespace Verif.Orient
open MeshBuild MeshGraph Trace

/-- What the functions read of `ElementData` besides the cell and the mesh: `nEdge` and `nFace`
are the numbers of degrees of freedom of an edge and of a face. -/
structure DofData (K : Type) where
  identity : Bool
  nEdge : Nat
  nFace : Nat
  /-- `transformations["interval"][0]` -/
  reflectEdge : Matrix (Fin nEdge) (Fin nEdge) K
  /-- `transformations["triangle"]`: rotation and reflection -/
  rotateFace : Matrix (Fin nFace) (Fin nFace) K
  reflectFace : Matrix (Fin nFace) (Fin nFace) K
  /-- `entity_dofs` -/
  entityDofs : List (List (List Nat))

/-- permute_and_transform.py:8-19 `_validate_edge_orientation_2d`; `edge == v_edge` compares
arrays of two entries (all stored edges have two nodes). -/
def validateEdges2d (cells : Cells) (c : Cell) : Res (List Bool) := do
  let edges ← mapRes (fancy c.nodeTags) [[1, 2], [0, 2], [0, 1]]
  mapRes (fun (p : Nat × List Nat) => do
    let ids ← Cell.subIds c 1
    let id ← getIdx ids p.1
    let v ← cellAt cells id
    pure (decide (p.2 = v.nodeTags))) ((List.range 3).zip edges)

/-- permute_and_transform.py:38-54 `_validate_edge_orientation_3d` -/
def validateEdges3d (cells : Cells) (c : Cell) : Res (List Bool) :=
  mapRes (fun (p : Nat × List Nat) => do
    let edge ← fancy c.nodeTags p.2
    let ids ← Cell.subIds c 1
    let id ← getIdx ids p.1
    let v ← cellAt cells id
    pure (decide (edge = npSort v.nodeTags)))
    ((List.range 6).zip [[2, 3], [1, 3], [1, 2], [0, 3], [0, 2], [0, 1]])

/-- `list(permutations([a, b, c]))`, in the order of itertools. -/
def permutations3 : List Nat → List (List Nat)
  | [a, b, c] => [[a, b, c], [a, c, b], [b, a, c], [b, c, a], [c, a, b], [c, b, a]]
  | _ => []

/-- permute_and_transform.py:82-100: rotations and reflections of a position. -/
def faceCode : Nat → Nat × Nat
  | 1 => (0, 1)
  | 2 => (2, 1)
  | 3 => (1, 0)
  | 4 => (2, 0)
  | 5 => (1, 1)
  | _ => (0, 0)

/-- permute_and_transform.py:70-100: orientation, rotations and reflections of a face. -/
def searchFace (face : List Nat) : Res (Bool × Nat × Nat) :=
  let ref := npSort face
  if ref = face then .ok (true, 0, 0)
  else
    let found := (List.range (permutations3 ref).length).filter
      fun k => (permutations3 ref)[k]? = some face
    if found.length ≠ 1 then .error .assertionError
    else match found with
      | 0 :: _ => .error .assertionError
      | k :: _ => .ok (false, faceCode k)
      | [] => .error .assertionError

/-- permute_and_transform.py:67-105: the same with the special treatment of the boundary. -/
def validateFace (tags : List Nat) (bc : List Bool) (i : Nat) (con : List Nat) :
    Res (Bool × Nat × Nat) := do
  let face ← fancy tags con
  let st ← searchFace face
  let b ← getIdx bc i
  if b = true ∧ i ∈ [1, 3] then pure (false, st.2.1, 1) else pure st

/-- permute_and_transform.py:57-107 `_validate_face_orientation_3d`, one triple per face. -/
def validateFaces3d (c : Cell) (bc : List Bool) : Res (List (Bool × Nat × Nat)) :=
  mapRes (fun (p : Nat × List Nat) => validateFace c.nodeTags bc p.1 p.2)
    ((List.range 4).zip [[1, 2, 3], [0, 2, 3], [0, 1, 3], [0, 1, 2]])

section
variable {K V : Type} [CommRing K] [AddCommGroup V] [Module K V]

/-- `phi[d, :, dofs, dim] = t @ phi[d, :, dofs, dim]` for all `d` and `dim`; the shapes must
agree. -/
def applyAt {n : Nat} (phi : List V) (dofs : List Nat) (t : Matrix (Fin n) (Fin n) K) :
    Res (List V) := do
  let v ← fancy phi dofs
  if dofs.length ≠ n then .error .valueError
  else pure ((dofs.zip (List.ofFn fun i : Fin n => ∑ j : Fin n, t i j • v.getD j 0)).foldl
    (fun phi p => phi.set p.1 p.2) phi)

/-- `for index, check in enumerate(oriented): if check: continue; ...` -/
def applyLoop {n : Nat} (dofs : List (List Nat)) :
    List V → List (Nat × Bool × Matrix (Fin n) (Fin n) K) → Res (List V)
  | phi, [] => .ok phi
  | phi, (i, check, t) :: rest =>
    if check then applyLoop dofs phi rest
    else do
      let ds ← getIdx dofs i
      let phi ← applyAt phi ds t
      applyLoop dofs phi rest

/-- permute_and_transform.py:22-35 `_permute_and_transform_2d` -/
def permute2d (cells : Cells) (c : Cell) (data : DofData K) (phi : List V) : Res (List V) :=
  if data.identity then .ok phi
  else do
    let oriented ← validateEdges2d cells c
    let dofs ← getIdx data.entityDofs 1
    applyLoop dofs phi ((List.range 3).zip (oriented.map fun b => (b, data.reflectEdge)))

/-- permute_and_transform.py:119-123: rotations first, then reflections. -/
def faceTransformation (data : DofData K) (rot ref : Nat) :
    Matrix (Fin data.nFace) (Fin data.nFace) K :=
  let t := (List.range rot).foldl (fun t _ => data.rotateFace * t) 1
  (List.range ref).foldl (fun t _ => data.reflectFace * t) t

/-- permute_and_transform.py:110-140 `_permute_and_transform_3d` -/
def permute3d (cells : Cells) (c : Cell) (bc : List Bool) (data : DofData K) (phi : List V) :
    Res (List V) :=
  if data.identity then .ok phi
  else do
    let faces ← validateFaces3d c bc
    let fdofs ← getIdx data.entityDofs 2
    let phi ← applyLoop fdofs phi
      ((List.range 4).zip (faces.map fun p => (p.1, faceTransformation data p.2.1 p.2.2)))
    let oriented ← validateEdges3d cells c
    let edofs ← getIdx data.entityDofs 1
    applyLoop edofs phi ((List.range 6).zip (oriented.map fun b => (b, data.reflectEdge)))

/-- permute_and_transform.py:143-149 `permute_and_transform` -/
def permuteAndTransform (cells : Cells) (c : Cell) (bc : List Bool) (data : DofData K)
    (phi : List V) : Res (List V) :=
  if c.dimension = 2 then permute2d cells c data phi
  else if c.dimension = 3 then permute3d cells c bc data phi
  else .ok phi

end

end Verif.Orient
