/- What the field split should be: two blocks of rows, and solvers of the blocks. -/
import Verif.Model.FieldSplit
import Mathlib.Algebra.Order.Ring.Defs

namespace Verif.FieldSplit

variable {K : Type} [CommRing K]

/-- The two parts are the places below `m` and those from `m` to `n`. -/
def SplitAt (split : List Nat × List Nat) (m n : Nat) : Prop :=
  split.1 = List.range m ∧ split.2.length = n - m ∧ ∀ k, k < n - m → split.2[k]? = some (m + k)

/-- `solve` solves the system of the rows and columns from `b` to `b + l`. -/
def SolvesBlock (P : Nat → Nat → K) (b l : Nat) (solve : (Nat → K) → Nat → K) : Prop :=
  ∀ x, ∀ k < l, ∑ j ∈ Finset.range l, P (b + k) (b + j) * solve x j = x k

/-- There are no entries between the places below `m` and the others. -/
def Uncoupled (P : Nat → Nat → K) (m n : Nat) : Prop :=
  ∀ i j, i < m → m ≤ j → j < n → P i j = 0 ∧ P j i = 0

/-- Inner product of the first `n` entries -/
def inner (n : Nat) (x y : Nat → K) : K := ∑ i ∈ Finset.range n, x i * y i

/-- The solver reads the first `l` entries only. -/
def Local (l : Nat) (solve : (Nat → K) → Nat → K) : Prop :=
  ∀ x y, (∀ k < l, x k = y k) → ∀ k < l, solve x k = solve y k

end Verif.FieldSplit
