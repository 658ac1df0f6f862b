/-
Specification for the data of the drivers.
-/
import Mathlib.Data.List.Nodup
import Verif.Model.DriverData

namespace Verif.DriverData

/-- The values are those that the dictionary holds for the keys, and it holds one value for a key. -/
def Found {V : Type} (d : Dict String V) (ks : List String) (vs : List V) : Prop :=
  (d.map Prod.fst).Nodup ∧ List.Forall₂ (fun k v => (k, v) ∈ d) ks vs

end Verif.DriverData
