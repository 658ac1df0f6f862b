/- What the names of the files should achieve: different data go to different files. -/
import Verif.Model.FileNames

namespace Verif.FileNames

variable {V C : Type}

/-- The texts of the parameters differ and have no underscore. -/
def Plain (str : V → String) : Prop :=
  (∀ v w, str v = str w → v = w) ∧ ∀ v, '_' ∉ (str v).toList

/-- Names with this suffix tell the configurations of the list and the levels. -/
def Tells (name : Naming V) (cs : List (Config V)) (suffix : String) : Prop :=
  ∀ c ∈ cs, ∀ c' ∈ cs, ∀ l l' s, name c l suffix = .ok s → name c' l' suffix = .ok s →
    c = c' ∧ l = l'

/-- No name with one suffix is a name with the other. -/
def Apart (name : Naming V) (a b : String) : Prop :=
  ∀ c c' l l' s, name c l a = .ok s → name c' l' b ≠ .ok s

end Verif.FileNames
