/-
Specification of the closure of the hydrothermal example and of the layout of its fields.
-/
import Verif.Model.Hydrothermal

namespace Verif.Hydrothermal

/-- The slices follow one another from `b` to `e`. -/
def Tiles : Nat → List (String × Nat × Nat) → Nat → Prop
  | b, [], e => b = e
  | b, s :: l, e => s.2.1 = b ∧ s.2.1 ≤ s.2.2 ∧ Tiles s.2.2 l e

variable {K : Type} [Field K]

/-- One phase: the temperature is a quarter of the enthalpy, there is no vapour and the fractions are those of the
mixture. -/
structure Closed (s : Scalars K) : Prop where
  t : s.t = s.h / 4
  sv : s.sv = 0
  xWl : s.xWl = 1 - s.z
  xWv : s.xWv = 1 - s.z
  xSl : s.xSl = s.z
  xSv : s.xSv = s.z

end Verif.Hydrothermal
