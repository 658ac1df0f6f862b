/-
Specification vocabulary for C11-C15: the intended numbering of degrees of freedom.
-/
import Verif.Spec.MeshGraph
import Verif.Model.DofMap
import Mathlib.Algebra.BigOperators.Group.Finset.Basic

namespace Verif.Dof
open MeshBuild MeshGraph Finset

/-- Degrees of freedom carried by one entity of dimension `d`: (dofs of the reference element per
entity of that dimension) x (number of components). -/
def perEntity (ned : List (List Nat)) (nComp d : Nat) : Nat :=
  match ned[d]? with
  | some l => l.sum / l.length * nComp
  | none => 0

/-- First number used for entities of dimension `d`: after the shift come all entities of lower
dimension. -/
def base (ids : Nat → List Nat) (s : Nat → Nat) (shift d : Nat) : Nat :=
  shift + ∑ e ∈ range d, (ids e).length * s e

/-- The consecutive numbers of entity `j` of dimension `d`. -/
def block (ids : Nat → List Nat) (s : Nat → Nat) (shift d j : Nat) : List Nat :=
  List.range' (base ids s shift d + (ids d).idxOf j * s d) (s d)

/-- A reference element for cells of dimension `dim`, as far as `num_entity_dofs` shows: one list
per dimension, none empty. -/
def IsRef (ned : List (List Nat)) (dim : Nat) : Prop :=
  ned.length = dim + 1 ∧ ∀ l ∈ ned, l ≠ []

/-- The entities of the selected cells, per dimension. -/
def IsEntities (cells : Cells) (tags : List (Option Int)) (dim : Nat) (ids : Nat → List Nat) :
    Prop :=
  ∀ d ≤ dim, (ids d).Nodup ∧
    ∀ j, j ∈ ids d ↔ ∃ i, Tagged cells tags dim i ∧ SubEntity cells i d j

/-- The numbers a `DoFMap` stores for entity `j` of dimension `d`, if any. -/
def DoFMap.numbers? (m : DoFMap) (d j : Nat) : Option (List Nat) :=
  (m.entityMaps[d]?).bind (·.get? j)

/-- The same, empty if none. -/
def DoFMap.numbers (m : DoFMap) (d j : Nat) : List Nat := (m.numbers? d j).getD []

/-- The sub-entities of dimension `d` of cell `i`, in the cell's local order. -/
def subIdsOf (cells : Cells) (i d : Nat) : List Nat :=
  match cells[i]? with
  | some (some c) => (c.sub[d]?).getD []
  | _ => []

end Verif.Dof
