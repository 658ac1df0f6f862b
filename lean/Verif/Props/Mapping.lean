/-
Property theorem C57: Jacobians, their determinants and pseudo-inverses
(src/geometry/mapping.py:24-58), in exact arithmetic and for every QR decomposition.
-/
import Verif.Lemmas.Mapping
import Verif.Lemmas.Trace
import Mathlib.Algebra.Order.Ring.Rat
import Mathlib.LinearAlgebra.Matrix.Notation
import Mathlib.Tactic.NormNum
import Mathlib.Tactic.FinCases
import Mathlib.Tactic.LinearCombination

namespace Verif.Mapping
open MeshBuild Trace

variable {K : Type} [Field K] [LinearOrder K] [IsStrictOrderedRing K] {d : Nat}

/-- C57: whatever QR decomposition is used, the determinant is the positive root of the Gram
determinant of the Jacobian, and the inverse is its pseudo-inverse. -/
theorem C57_determinant_and_inverse
    (qr : Matrix (Fin 3) (Fin d) K → Matrix (Fin 3) (Fin d) K × Matrix (Fin d) (Fin d) K)
    (a : Matrix (Fin 3) (Fin d) K) (hqr : IsQR a (qr a)) (det : K)
    (inv : Matrix (Fin d) (Fin 3) K) (h : detAndPseudoInverse qr a = .ok (det, inv)) :
    0 < det ∧ det ^ 2 = (a.transpose * a).det ∧
    inv = (a.transpose * a)⁻¹ * a.transpose ∧ inv * a = 1 := by
  obtain ⟨hdet, hr⟩ := det_sign_mul hqr.triangular
  have hg := gram_eq hqr
  have hq := hqr.product
  have ho := hqr.orthonormal
  unfold detAndPseudoInverse at h
  simp only at h
  generalize (qr a).1 = q at *
  generalize (qr a).2 = r at *
  rw [hdet] at h
  split at h
  · simp at h
  · rename_i hne
    simp only [Except.ok.injEq, Prod.mk.injEq] at h
    obtain ⟨rfl, rfl⟩ := h
    have hpos : ∀ i, r i i ≠ 0 := by
      intro i hi
      exact hne (Finset.prod_eq_zero (Finset.mem_univ i) (by simp [hi]))
    have hrdet : r.det ≠ 0 := by rw [hr]; exact Finset.prod_ne_zero_iff.2 fun i _ => hpos i
    have hru : IsUnit r.det := isUnit_iff_ne_zero.2 hrdet
    set s : Matrix (Fin d) (Fin d) K := Matrix.diagonal fun i => npSign (r i i) with hs
    have hss : s * s = 1 := by
      rw [hs, Matrix.diagonal_mul_diagonal, ← Matrix.diagonal_one]
      congr 1
      funext i
      exact npSign_sq (hpos i)
    have hst : s.transpose = s := by rw [hs, Matrix.diagonal_transpose]
    have hinv : (s * r)⁻¹ * (q * s).transpose = r⁻¹ * q.transpose := by
      have hsinv : s⁻¹ = s := Matrix.inv_eq_right_inv hss
      rw [Matrix.mul_inv_rev, hsinv, Matrix.transpose_mul, hst, Matrix.mul_assoc,
        ← Matrix.mul_assoc s, hss, Matrix.one_mul]
    have hleft : r⁻¹ * q.transpose * a = 1 := by
      rw [← hq, Matrix.mul_assoc, ← Matrix.mul_assoc q.transpose, ho, Matrix.one_mul,
        Matrix.nonsing_inv_mul _ hru]
    refine ⟨?_, ?_, ?_, ?_⟩
    · exact Finset.prod_pos fun i _ => abs_pos.2 (hpos i)
    · rw [hg, Matrix.det_mul, Matrix.det_transpose, hr, ← Finset.prod_pow, ← pow_two,
        ← Finset.prod_pow]
      exact Finset.prod_congr rfl fun i _ => sq_abs _
    · rw [hinv, hg, Matrix.mul_inv_rev, ← hq, Matrix.transpose_mul, Matrix.mul_assoc,
        ← Matrix.mul_assoc (r.transpose)⁻¹, Matrix.nonsing_inv_mul _
          (by rw [Matrix.det_transpose]; exact hru), Matrix.one_mul]
    · rw [hinv]; exact hleft

/-- C57: a cell is rejected exactly when its Jacobian has dependent columns. -/
theorem C57_rejects_degenerate
    (qr : Matrix (Fin 3) (Fin d) K → Matrix (Fin 3) (Fin d) K × Matrix (Fin d) (Fin d) K)
    (a : Matrix (Fin 3) (Fin d) K) (hqr : IsQR a (qr a)) :
    ((a.transpose * a).det = 0 ↔ detAndPseudoInverse qr a = .error .linAlgError) ∧
    ((a.transpose * a).det ≠ 0 ↔ ∃ p, detAndPseudoInverse qr a = .ok p) := by
  obtain ⟨hdet, hr⟩ := det_sign_mul hqr.triangular
  have hg := gram_eq hqr
  unfold detAndPseudoInverse
  simp only
  rw [hdet, hg, Matrix.det_mul, Matrix.det_transpose, hr]
  have : ((∏ i, (qr a).2 i i) * ∏ i, (qr a).2 i i = 0) ↔ (∏ i, |(qr a).2 i i|) = 0 := by
    rw [mul_self_eq_zero, ← Finset.abs_prod, abs_eq_zero]
  simp only [this, ne_eq]
  split <;> simp [*]

/-- C57: the geometry mapping is affine with the Jacobian as its derivative; the columns of the
Jacobian are the edges leaving the first node. -/
theorem C57_jacobian {K : Type} [CommRing K] (d : Nat) (P : List (Pt K)) (hd : d ≤ 3)
    (hP : P.length = d + 1) (p : List K) (hp : p.length = d) :
    (∀ (i : Fin 3), combine (linearShapes p) P i
      = (P.headD 0) i + ∑ k : Fin d, jacobian d P i k * p.getD k 0) ∧
    ∀ (i : Fin 3) (k : Fin d), jacobian d P i k = (P.getD (k + 1) 0) i - (P.headD 0) i := by
  interval_cases d
  · obtain ⟨a, rfl⟩ := List.length_eq_one_iff.1 hP
    obtain rfl := List.length_eq_zero_iff.1 hp
    exact ⟨fun i => by simp [combine, linearShapes], fun i k => k.elim0⟩
  · obtain ⟨a, b, rfl⟩ := List.length_eq_two.1 hP
    obtain ⟨x, rfl⟩ := List.length_eq_one_iff.1 hp
    refine ⟨fun i => ?_, fun i k => ?_⟩
    · simp [combine, linearShapes, jacobian, gradShapes, List.range_succ]
      ring
    · fin_cases k <;> simp [jacobian, gradShapes, List.range_succ] <;> ring
  · obtain ⟨a, b, c, rfl⟩ := List.length_eq_three.1 hP
    obtain ⟨x, y, rfl⟩ := List.length_eq_two.1 hp
    refine ⟨fun i => ?_, fun i k => ?_⟩
    · simp [combine, linearShapes, jacobian, gradShapes, List.range_succ, Fin.sum_univ_succ]
      ring
    · fin_cases k <;> simp [jacobian, gradShapes, List.range_succ] <;> ring
  · match P, hP with
    | [a, b, c, e], _ =>
    obtain ⟨x, y, z, rfl⟩ := List.length_eq_three.1 hp
    refine ⟨fun i => ?_, fun i k => ?_⟩
    · simp [combine, linearShapes, jacobian, gradShapes, List.range_succ, Fin.sum_univ_succ]
      ring
    · fin_cases k <;> simp [jacobian, gradShapes, List.range_succ] <;> ring

/-- C57: for an edge the squared determinant is the squared distance of its nodes. -/
theorem C57_edge_length {K : Type} [CommRing K] (p q : Pt K) :
    ((jacobian 1 [p, q]).transpose * jacobian 1 [p, q]).det = ∑ i, (q i - p i) ^ 2 := by
  simp [jacobian, gradShapes, List.range_succ, Matrix.mul_apply]
  exact Finset.sum_congr rfl fun i _ => by ring

/-- A decomposition with a negative diagonal entry: the determinant is still positive. -/
example :
    IsQR (!![3; 4; 0] : Matrix (Fin 3) (Fin 1) ℚ) (!![-3/5; -4/5; 0], !![-5]) ∧
    ∃ inv, detAndPseudoInverse (fun _ => (!![-3/5; -4/5; 0], !![-5]))
      (!![3; 4; 0] : Matrix (Fin 3) (Fin 1) ℚ) = .ok (5, inv) := by
  refine ⟨⟨?_, ?_, ?_⟩, ?_⟩
  · ext i j
    fin_cases i; fin_cases j
    simp [Matrix.mul_apply, Fin.sum_univ_succ]
    norm_num
  · intro i j h; exact absurd h (by omega)
  · ext i j
    fin_cases i <;> fin_cases j <;> simp [Matrix.mul_apply]
  · unfold detAndPseudoInverse
    simp [npSign, Matrix.mul_apply]
    norm_num

#print axioms C57_determinant_and_inverse
#print axioms C57_rejects_degenerate
#print axioms C57_jacobian
#print axioms C57_edge_length

end Verif.Mapping
