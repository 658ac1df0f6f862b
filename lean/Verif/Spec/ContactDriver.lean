/-
What the driver of the mixed-dimensional Cosserat problem should do.
-/
import Verif.Model.ContactDriver

namespace Verif.ContactDriver

/-- no call raises -/
def Outcome.Fine (o : Outcome) : Prop := ∀ c, o.before c = .ok () ∧ o.after c = .ok ()

/-- the two sides of a fracture cell, by their element numbers -/
def sides (t : List Nat × List Nat × List Nat) : List (Nat × Nat) := t.2.1.zip t.2.2

/-- the interface of a cut: the fracture cells have the tag 10, both clones of each the tag 50, and all are cells of
dimension one -/
structure Cut (cells : List Cell) (i : Interface) : Prop where
  cells_tag : ∀ id ∈ i.cells, ⟨id, 1, some 10⟩ ∈ cells
  positive_tag : ∀ id ∈ i.positive, ⟨id, 1, some 50⟩ ∈ cells
  negative_tag : ∀ id ∈ i.negative, ⟨id, 1, some 50⟩ ∈ cells
  positive_length : i.positive.length = i.cells.length
  negative_length : i.negative.length = i.cells.length

/-- the place of an id in a list of ids -/
def place (ids : List Nat) (id : Nat) : Nat := ids.idxOf id

/-- the calls of an assembly that evaluates every form once -/
def intended (u₀ u₁ q₁ : Field) (ext : List Nat) (pairs : List (Nat × Nat)) : List Call :=
  (List.range u₀.elementIds.length).map (.form 0) ++ (List.range u₁.elementIds.length).map (.form 1)
    ++ ext.map (.bc 0) ++ (List.range q₁.bcElementIds.length).map (.bc 1)
    ++ pairs.map fun x => .contact x.1 x.2

end Verif.ContactDriver
