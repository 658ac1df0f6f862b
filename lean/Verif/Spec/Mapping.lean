/-
Specification vocabulary for C57: QR decompositions.
-/
import Verif.Model.Mapping

namespace Verif.Mapping

variable {K : Type} [Field K] {d : Nat}

/-- A reduced QR decomposition: orthonormal columns times an upper triangular matrix. -/
structure IsQR (a : Matrix (Fin 3) (Fin d) K)
    (p : Matrix (Fin 3) (Fin d) K × Matrix (Fin d) (Fin d) K) : Prop where
  orthonormal : p.1.transpose * p.1 = 1
  triangular : ∀ i j, j < i → p.2 i j = 0
  product : p.1 * p.2 = a

end Verif.Mapping
