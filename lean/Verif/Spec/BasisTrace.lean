/-
Notions for C92: the numbering of the functions of an element.
-/
import Verif.Model.BasisTrace
import Verif.Spec.DofMap

namespace Verif.BasisTrace
open Dof

/-- The number of functions that belong to entities of lower dimension than `d` -/
def before (ned : List (List Nat)) (d : Nat) : Nat :=
  ((List.range d).map fun e => (ned.getD e []).length * perEntity ned 1 e).sum

/-- `entity_dofs` counts the functions dimension by dimension and entity by entity, as many for each
as `num_entity_dofs` says. -/
def Tiled (ned : List (List Nat)) (entityDofs : List (List (List Nat))) : Prop :=
  ∀ d l, ned[d]? = some l → ∃ row, entityDofs[d]? = some row ∧
    ∀ e < l.length, row[e]? = some (List.range' (before ned d + e * perEntity ned 1 d) (perEntity ned 1 d))

/-- The places of the functions `dofs` among the degrees of freedom of a cell with `nc` components -/
def places (nc : Nat) (dofs : List Nat) : List Nat := dofs.flatMap fun b => List.range' (b * nc) nc

end Verif.BasisTrace
