/-
Lemmas for C57.
-/
import Verif.Spec.Mapping
import Mathlib.LinearAlgebra.Matrix.Block
import Mathlib.Algebra.Order.BigOperators.Ring.Finset
import Mathlib.Algebra.Order.Field.Basic

namespace Verif.Mapping

variable {K : Type} [Field K] [LinearOrder K] [IsStrictOrderedRing K] {d : Nat}

theorem npSign_mul_self (x : K) : npSign x * x = |x| := by
  unfold npSign
  split
  · rename_i h; rw [abs_of_pos h, one_mul]
  · split
    · rename_i h; rw [abs_of_neg h]; ring
    · rename_i h1 h2
      have : x = 0 := le_antisymm (not_lt.1 h1) (not_lt.1 h2)
      simp [this]

theorem npSign_sq {x : K} (h : x ≠ 0) : npSign x * npSign x = 1 := by
  unfold npSign
  split
  · simp
  · split
    · simp
    · rename_i h1 h2
      exact absurd (le_antisymm (not_lt.1 h1) (not_lt.1 h2)) h

theorem det_sign_mul {r : Matrix (Fin d) (Fin d) K} (h : ∀ i j, j < i → r i j = 0) :
    (Matrix.diagonal (fun i => npSign (r i i)) * r).det = ∏ i, |r i i| ∧
    r.det = ∏ i, r i i := by
  have ht : r.det = ∏ i, r i i := Matrix.det_of_upperTriangular (fun i j hij => h i j hij)
  refine ⟨?_, ht⟩
  rw [Matrix.det_mul, Matrix.det_diagonal, ht, ← Finset.prod_mul_distrib]
  exact Finset.prod_congr rfl fun i _ => npSign_mul_self _

theorem gram_eq {a : Matrix (Fin 3) (Fin d) K}
    {p : Matrix (Fin 3) (Fin d) K × Matrix (Fin d) (Fin d) K} (h : IsQR a p) :
    a.transpose * a = p.2.transpose * p.2 := by
  rw [← h.product, Matrix.transpose_mul, Matrix.mul_assoc, ← Matrix.mul_assoc p.1.transpose,
    h.orthonormal, Matrix.one_mul]

end Verif.Mapping
