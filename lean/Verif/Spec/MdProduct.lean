/- What an `MDProductSpace` is meant to accept, and the state its own methods lead to. -/
import Verif.Model.MdProduct

namespace Verif.MdProduct
open Space

/-- Product spaces for different dimensions up to three -/
def UpToThree (dims : List Nat) : Prop := dims.Nodup ∧ ∀ d ∈ dims, d ≤ 3

/-- No field is known: the fields and their numbers are unset or empty. -/
def Fieldless {ρ : Type} (m : Md ρ) : Prop :=
  (m.spaces = none ∨ m.spaces = some []) ∧ (m.dofs = none ∨ m.dofs = some []) ∧
    (m.nDof = none ∨ m.nDof = some 0)

/-- The numbers of degrees of freedom of fields whose structures are built -/
def numbers (spaces : Dict String Space) : Dict String Nat :=
  spaces.map fun q => (q.1, (q.2.dofMap.map (·.nDof)).getD 0)

end Verif.MdProduct
