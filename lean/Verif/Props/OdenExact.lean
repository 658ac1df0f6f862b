/-
Property theorems C123: the exact solutions of the problem of Oden (examples/oden_problem/oden_rates_primal_dual_ad.py).
-/
import Verif.Spec.OdenExact
import Mathlib.Analysis.SpecialFunctions.Trigonometric.DerivHyp
import Mathlib.Analysis.Calculus.Deriv.Add
import Mathlib.Analysis.Calculus.Deriv.Mul
import Mathlib.Tactic.Ring
import Mathlib.Tactic.FieldSimp
import Mathlib.Tactic.NormNum
import Mathlib.Tactic.Linarith
import Mathlib.Tactic.LinearCombination

namespace Verif.Oden.Exact
open Strong

/-- The factor of the hyperbolic functions -/
noncomputable def factor : ℝ := 2 * e / (-1 + e ^ 2)

theorem e_gt : 1 < e := Real.one_lt_exp_iff.2 one_pos

theorem den_pos : 0 < -1 + e ^ 2 := by nlinarith [e_gt]

theorem sinh_one : factor * Real.sinh 1 = 1 := by
  have h := den_pos.ne'
  have he : e ≠ 0 := (Real.exp_pos 1).ne'
  rw [factor, Real.sinh_eq, Real.exp_neg, show Real.exp 1 = e from rfl]
  field_simp
  ring

theorem u1_eq (x y z : ℝ) : u1 x y z = x - factor * Real.sinh x := by
  have h := den_pos.ne'
  have hx := (Real.exp_pos x).ne'
  have e1 : e ^ x = Real.exp x := Real.exp_one_rpow x
  have e2 : e ^ (2 + x) = e ^ 2 * Real.exp x := by
    rw [e, Real.exp_one_rpow, Real.exp_add, ← Real.exp_nat_mul]
    norm_num
  have e3 : e ^ (1 + 2 * x) = e * (Real.exp x) ^ 2 := by
    rw [e, Real.exp_one_rpow, Real.exp_add, ← Real.exp_nat_mul]
    norm_num
  rw [u1, factor, Real.sinh_eq, Real.exp_neg, e1, e2, e3]
  field_simp
  ring

theorem q1_eq (x y z : ℝ) : q1 x y z = ![-1 + factor * Real.cosh x] := by
  have h := den_pos.ne'
  have hx := (Real.exp_pos x).ne'
  have e1 : e ^ x = Real.exp x := Real.exp_one_rpow x
  have e2 : e ^ (2 + x) = e ^ 2 * Real.exp x := by
    rw [e, Real.exp_one_rpow, Real.exp_add, ← Real.exp_nat_mul]
    norm_num
  have e3 : e ^ (1 + 2 * x) = e * (Real.exp x) ^ 2 := by
    rw [e, Real.exp_one_rpow, Real.exp_add, ← Real.exp_nat_mul]
    norm_num
  rw [q1, factor, Real.cosh_eq, Real.exp_neg, e1, e2, e3]
  congr 1
  field_simp
  ring

theorem u2_eq (x y z : ℝ) : u2 x y z = (x - factor * Real.sinh x) * (y - factor * Real.sinh y) := by
  unfold u2 factor
  ring

theorem q2_eq (x y z : ℝ) : q2 x y z = ![-((1 - factor * Real.cosh x) * (y - factor * Real.sinh y)),
    -((1 - factor * Real.cosh y) * (x - factor * Real.sinh x))] := by
  unfold q2 factor
  congr 1
  · ring
  · congr 1
    ring

theorem f2_eq (x y z : ℝ) : f2 x y z = x * y - factor ^ 2 * Real.sinh x * Real.sinh y := by
  have h := den_pos.ne'
  unfold f2 factor
  field_simp
  ring

theorem deriv_bubble (x : ℝ) : HasDerivAt (fun t => t - factor * Real.sinh t) (1 - factor * Real.cosh x) x :=
  (hasDerivAt_id x).sub ((Real.hasDerivAt_sinh x).const_mul factor)

theorem deriv_cosh (x a : ℝ) : HasDerivAt (fun t => a + factor * Real.cosh t) (factor * Real.sinh x) x :=
  ((Real.hasDerivAt_cosh x).const_mul factor).const_add a

/-- C123: in dimension one and two the functions solve the problem in every point. -/
theorem C123_solves {dim : Nat} {k : Case} (hk : exactCase dim = .ok k) (x y z : ℝ) : Solves k x y z := by
  unfold exactCase at hk
  split at hk
  · cases hk
    refine ⟨?_, ?_, ?_⟩
    · refine Fin.forall_fin_one.2 ?_
      show HasDerivAt (fun t => u1 t y z) (- q1 x y z 0) x
      simp only [u1_eq, q1_eq]
      exact (deriv_bubble x).congr_deriv (by simp; ring)
    · refine ⟨![factor * Real.sinh x], Fin.forall_fin_one.2 ?_, ?_⟩
      · show HasDerivAt (fun t => q1 t y z 0) (factor * Real.sinh x) x
        simp only [q1_eq]
        exact deriv_cosh x (-1)
      · show x - u1 x y z = ∑ j : Fin 1, ![factor * Real.sinh x] j
        rw [u1_eq]
        simp
    · show x - u1 x y z + u1 x y z = x
      ring
  · cases hk
    refine ⟨?_, ?_, ?_⟩
    · refine Fin.forall_fin_two.2 ⟨?_, ?_⟩
      · show HasDerivAt (fun t => u2 t y z) (- q2 x y z 0) x
        simp only [u2_eq, q2_eq]
        exact ((deriv_bubble x).mul_const _).congr_deriv (by simp)
      · show HasDerivAt (fun t => u2 x t z) (- q2 x y z 1) y
        simp only [u2_eq, q2_eq]
        exact ((deriv_bubble y).const_mul _).congr_deriv (by simp; ring)
    · refine ⟨![factor * Real.sinh x * (y - factor * Real.sinh y), factor * Real.sinh y * (x - factor * Real.sinh x)],
        Fin.forall_fin_two.2 ⟨?_, ?_⟩, ?_⟩
      · show HasDerivAt (fun t => q2 t y z 0) (factor * Real.sinh x * (y - factor * Real.sinh y)) x
        have : (fun t => q2 t y z 0) = fun t => (-1 + factor * Real.cosh t) * (y - factor * Real.sinh y) := by
          funext t
          simp only [q2_eq, Matrix.cons_val_zero]
          ring
        rw [this]
        exact (deriv_cosh x (-1)).mul_const _
      · show HasDerivAt (fun t => q2 x t z 1) (factor * Real.sinh y * (x - factor * Real.sinh x)) y
        have : (fun t => q2 x t z 1) = fun t => (-1 + factor * Real.cosh t) * (x - factor * Real.sinh x) := by
          funext t
          simp only [q2_eq, Matrix.cons_val_one, Matrix.cons_val_zero]
          ring
        rw [this]
        exact (deriv_cosh y (-1)).mul_const _
      · show f2 x y z - u2 x y z = ∑ j : Fin 2, ![factor * Real.sinh x * (y - factor * Real.sinh y),
          factor * Real.sinh y * (x - factor * Real.sinh x)] j
        rw [f2_eq, u2_eq, Fin.sum_univ_two]
        simp
        ring
    · show f2 x y z - u2 x y z + u2 x y z = f2 x y z
      ring
  · cases hk

/-- C123: the solutions vanish on the boundary of the unit cube. -/
theorem C123_boundary {dim : Nat} {k : Case} (hk : exactCase dim = .ok k) {x y : ℝ} (z : ℝ)
    (hb : OnBoundary k.n x y) : k.u x y z = 0 := by
  have h0 : (0 : ℝ) - factor * Real.sinh 0 = 0 := by simp
  have h1 : (1 : ℝ) - factor * Real.sinh 1 = 0 := by rw [sinh_one, sub_self]
  unfold exactCase at hk
  split at hk
  · cases hk
    show u1 x y z = 0
    rw [u1_eq]
    rcases hb with rfl | rfl | ⟨h, -⟩
    · exact h0
    · exact h1
    · exact absurd h (by simp [case1])
  · cases hk
    show u2 x y z = 0
    rw [u2_eq]
    rcases hb with rfl | rfl | ⟨-, rfl | rfl⟩
    · rw [h0, zero_mul]
    · rw [h1, zero_mul]
    · rw [h0, mul_zero]
    · rw [h1, mul_zero]
  · cases hk

/-- C123: the exact fields reduce the mixed form to minus the divergence of `u v`, by the rule of the product. -/
theorem C123_weak {dim : Nat} {k : Case} (hk : exactCase dim = .ok k) (x y z : ℝ) (v : Fin k.n → ℝ) (dv w : ℝ) :
    ∃ g : Fin k.n → ℝ, (∀ j : Fin k.n, HasPartial j k.u (g j) x y z) ∧
      weak (k.q x y z) (k.divQ x y z) (k.u x y z) (k.f x y z) v dv w = -(∑ j, g j * v j + k.u x y z * dv) := by
  have h := C123_solves hk x y z
  refine ⟨fun j => - k.q x y z j, h.flux, ?_⟩
  unfold weak
  rw [h.balance]
  simp only [neg_mul, Finset.sum_neg_distrib]
  ring

/-- C123: other dimensions raise `ValueError`. -/
theorem C123_dimension (dim : Nat) : (∃ k, exactCase dim = .ok k ∧ k.n = dim) ∧ dim ∈ [1, 2] ∨
    exactCase dim = .error .valueError ∧ dim ∉ [1, 2] := by
  unfold exactCase
  split
  · exact .inl ⟨⟨_, rfl, rfl⟩, by decide⟩
  · exact .inl ⟨⟨_, rfl, rfl⟩, by decide⟩
  · refine .inr ⟨rfl, ?_⟩
    simp only [List.mem_cons, List.not_mem_nil, or_false, not_or]
    exact ⟨‹_›, ‹_›⟩

/-- The solution is not zero: its source is `1/2` in the middle of the interval, so that flux and scalar do not both
vanish. -/
example : ∃ k, exactCase 1 = .ok k ∧ k.divQ (1 / 2) 0 0 + k.u (1 / 2) 0 0 = 1 / 2 :=
  ⟨case1, rfl, (C123_solves (dim := 1) rfl _ _ _).balance⟩

#print axioms C123_solves
#print axioms C123_boundary
#print axioms C123_weak
#print axioms C123_dimension

end Verif.Oden.Exact
