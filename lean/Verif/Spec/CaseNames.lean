/-
Specification for the names of the files of the mixed-dimensional drivers.
-/
import Verif.Model.CaseNames

namespace Verif.CaseNames

variable {V : Type}

/-- Different values have different texts, and no text has an underscore. -/
def Clear (str : V → String) : Prop :=
  (∀ v w, str v = str w → v = w) ∧ ∀ v, '_' ∉ (str v).toList

/-- All runs succeed, and no file is written twice: neither by one run nor by two of them. -/
def Separate (names : Config V → Res (List String)) (str : V → String) (degenerate : Bool)
    (runs : List (Config V)) : Prop :=
  ∃ out : List (List String),
    List.Forall₂ (fun c fs => ∃ ns, names c = .ok ns ∧ files str degenerate c ns = .ok fs) runs out ∧
      out.flatten.Nodup

end Verif.CaseNames
