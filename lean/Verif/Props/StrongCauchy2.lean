/-
C106: the second exact solution of elasticity, with two materials.
-/
import Verif.Lemmas.StrongCauchy2
import Mathlib.Tactic.NormNum

namespace Verif.Strong.Cauchy2
open Real

variable (lambda mu kappa x y z : ℝ)

/-- C106: the function of the material is `m_kappa` in the upper right quarter and one elsewhere. -/
theorem C106_material : (1 / 2 < x → 1 / 2 < y → xi kappa x y z = kappa) ∧
    ((x ≤ 1 / 2 ∨ y ≤ 1 / 2) → xi kappa x y z = 1) ∧ xiOf x y z kappa 2 = .ok (xi kappa x y z) ∧
    ∀ dim ≠ 2, xiOf x y z kappa dim = .error .valueError := by
  refine ⟨fun h1 h2 => ?_, fun h => ?_, rfl, fun dim h => ?_⟩
  · rw [xi_cases, if_pos (lt_min h1 h2)]
  · rw [xi_cases, if_neg]
    exact not_lt.2 (min_le_iff.2 h)
  · unfold xiOf chiOf inPlane
    rw [if_neg h]
    rfl

/-- C106: the displacement is continuous and zero on the interface, and has a gradient everywhere else. -/
theorem C106_displacement (hk : kappa ≠ 0) :
    (∀ i, Continuous fun p : ℝ × ℝ × ℝ => displacement lambda mu kappa p.1 p.2.1 p.2.2 i) ∧
    (min x y = 1 / 2 → displacement lambda mu kappa x y z = 0) ∧
    (min x y ≠ 1 / 2 → ∃ g : Fin 2 → Fin 2 → ℝ, GradientAt (displacement lambda mu kappa) g x y z) ∧
    ((x = 0 ∨ x = 1 ∨ y = 0 ∨ y = 1) → displacement lambda mu kappa x y z = 0) := by
  refine ⟨continuous_displacement lambda mu kappa hk, fun h => ?_,
    fun h => ⟨_, grad_displacement lambda mu kappa h⟩, fun h => ?_⟩
  · funext i
    rw [displacement_eq, interface h, zero_div]
    rfl
  · have hp : sin (2 * π) = 0 := sin_two_pi
    funext i
    revert i
    rcases h with rfl | rfl | rfl | rfl <;> exact Fin.forall_fin_two.2 (by simp [displacement])

/-- C106: stress, rotation and pressure follow from the gradient of the displacement for the material whose two
constants are `xi`. -/
theorem C106_law (hk : kappa ≠ 0) (h : min x y ≠ 1 / 2) (g : Fin 2 → Fin 2 → ℝ)
    (hg : GradientAt (displacement lambda mu kappa) g x y z) :
    rotation lambda mu kappa x y z 0 = (g 0 1 - g 1 0) / 2 ∧
    (∀ i j, stress lambda mu kappa x y z i j = hooke (xi kappa x y z) (xi kappa x y z) 0 g i j) ∧
    (∀ i j, stress lambda mu kappa x y z i j = hooke (xi kappa x y z) (xi kappa x y z) (xi kappa x y z)
      (fun i j => g i j + skew2 (rotation lambda mu kappa x y z 0) i j) i j) ∧
    pressure lambda mu kappa x y z 0 = (xi kappa x y z + xi kappa x y z) * (g 0 0 + g 1 1) := by
  cases (grad_displacement lambda mu kappa (z := z) h).unique hg
  have hx := xi_ne kappa hk x y z
  have hr : rotation lambda mu kappa x y z 0 =
      (gradient x y 0 1 / xi kappa x y z - gradient x y 1 0 / xi kappa x y z) / 2 := by
    simp only [rotation, gradient, Matrix.cons_val]
    field_simp
    ring
  refine ⟨hr, fun i j => ?_, law_stress lambda mu kappa hk x y z, pressure_eq lambda mu kappa hk x y z⟩
  rw [law_stress lambda mu kappa hk x y z, hr]
  revert i j
  refine Fin.forall_fin_two.2 ⟨Fin.forall_fin_two.2 ⟨?_, ?_⟩, Fin.forall_fin_two.2 ⟨?_, ?_⟩⟩ <;>
    simp [hooke, skew2] <;> field_simp <;> ring

/-- C106: the divergence is that of the stress everywhere, also on the interface, the stress is symmetric, and the
right-hand side is the balance. -/
theorem C106_balance : DivergenceAt (stress lambda mu kappa) (stressDivergence lambda mu kappa x y z) x y z ∧
    axial2 (stress lambda mu kappa x y z) = 0 ∧
    rhs lambda mu kappa x y z =
      ![stressDivergence lambda mu kappa x y z 0, stressDivergence lambda mu kappa x y z 1, 0] :=
  ⟨div_stress lambda mu kappa x y z, sub_self _, rfl⟩

/-- C106: with the functions of the scripts, where both constants are `xi`, the fields solve the primal form of C71,
the form with a pressure of C74 and the mixed form of C81 for all test fields, up to the divergence of a flux. -/
theorem C106_weak (hk : kappa ≠ 0) (h : min x y ≠ 1 / 2) (g : Fin 2 → Fin 2 → ℝ)
    (hg : GradientAt (displacement lambda mu kappa) g x y z) (v : Fin 2 → ℝ) (gv : Fin 2 → Fin 2 → ℝ) :
    Elasticity.elasticPower 2 (xi kappa x y z) (xi kappa x y z) (mat g) (mat gv) +
        (v 0 * rhs lambda mu kappa x y z 0 + v 1 * rhs lambda mu kappa x y z 1) =
      workFlux (stress lambda mu kappa x y z) (stressDivergence lambda mu kappa x y z) v gv ∧
    (∀ q, TaylorHood.mixedPower (xi kappa x y z) (xi kappa x y z) (mat g) (pressure lambda mu kappa x y z 0)
          (mat gv) q + (v 0 * rhs lambda mu kappa x y z 0 + v 1 * rhs lambda mu kappa x y z 1) =
      workFlux (stress lambda mu kappa x y z) (stressDivergence lambda mu kappa x y z) v gv) ∧
    (∀ t : Dual.Fields ℝ, t.mom = (fun _ _ => 0) → t.dmom = (fun _ => 0) →
      Dual.dualPower false 2 (Dual.leCoeffs (fun p _ => xi kappa p.1 p.2.1 p.2.2)
          (fun p _ => xi kappa p.1 p.2.1 p.2.2) (x, y, z) 0)
        ⟨mat (stress lambda mu kappa x y z), vec (stressDivergence lambda mu kappa x y z), fun _ _ => 0, fun _ => 0,
          vec (displacement lambda mu kappa x y z), vec (rotation lambda mu kappa x y z)⟩ t =
      stressFlux (displacement lambda mu kappa x y z) g t + loadOf 2 1 (rhs lambda mu kappa x y z) t) := by
  obtain ⟨-, -, hl, hp⟩ := C106_law lambda mu kappa x y z hk h g hg
  obtain ⟨-, hs, hr⟩ := C106_balance lambda mu kappa x y z
  have hx := xi_ne kappa hk x y z
  have hx2 : xi kappa x y z + xi kappa x y z ≠ 0 := fun e => hx (by linarith)
  refine ⟨primalLe2 hl hs ⟨rfl, rfl⟩ v gv, fun q => taylorHood2 hl hs ⟨rfl, rfl⟩ hp hx2 v gv q,
    fun t t1 t2 => ?_⟩
  exact mixedLe2 hl hs hr hx hx2 t t1 t2 (x, y, z) 0

/-- C106: the arguments `m_lambda` and `m_mu` have no effect, so the stress follows the law of the material with
`m_lambda xi` and `m_mu xi` only when both are one. -/
theorem C106_constants (hk : kappa ≠ 0) :
    (∀ x y z, min x y ≠ 1 / 2 → ∀ g, GradientAt (displacement lambda mu kappa) g x y z → ∀ i j,
      stress lambda mu kappa x y z i j = hooke (lambda * xi kappa x y z) (mu * xi kappa x y z) 0 g i j) ↔
    lambda = 1 ∧ mu = 1 := by
  constructor
  · intro h
    have h1 : xi kappa (1 / 4) 0 0 = 1 := (C106_material kappa _ _ _).2.1 (.inl (by norm_num))
    have h2 : xi kappa 0 (1 / 4) 0 = 1 := (C106_material kappa _ _ _).2.1 (.inl (by norm_num))
    have m1 : min (1 / 4 : ℝ) 0 ≠ 1 / 2 := by norm_num
    have m2 : min (0 : ℝ) (1 / 4) ≠ 1 / 2 := by norm_num
    have e1 := h (1 / 4) 0 0 m1 _ (grad_displacement lambda mu kappa m1) 0 1
    have e2 := h 0 (1 / 4) 0 m2 _ (grad_displacement lambda mu kappa m2) 1 1
    have s1 : 2 * π * (1 / 4) = π / 2 := by ring
    simp only [h1, h2, stress, hooke, gradient, Matrix.cons_val, Fin.sum_univ_two, s1, sin_pi_div_two,
      cos_pi_div_two] at e1 e2
    norm_num at e1 e2
    have hp := pi_ne_zero
    have hmu : mu = 1 := by linarith
    refine ⟨?_, hmu⟩
    have : π * (lambda - 1) = 0 := by linarith
    rcases mul_eq_zero.1 this with h | h
    · exact absurd h hp
    · linarith
  · rintro ⟨rfl, rfl⟩ x y z h g hg i j
    rw [one_mul]
    exact (C106_law 1 1 kappa x y z hk h g hg).2.1 i j

/-- C106: in any other dimension every function but `grad_xi` raises `ValueError`. -/
theorem C106_dimension (dim : Nat) :
    (dim = 2 → displacementOf lambda mu kappa dim = .ok (displacement lambda mu kappa) ∧
      rotationOf lambda mu kappa dim = .ok (rotation lambda mu kappa) ∧
      stressOf lambda mu kappa dim = .ok (stress lambda mu kappa) ∧
      pressureOf lambda mu kappa dim = .ok (pressure lambda mu kappa) ∧
      rhsOf lambda mu kappa dim = .ok (rhs lambda mu kappa) ∧
      stressDivergenceOf lambda mu kappa dim = .ok (stressDivergence lambda mu kappa)) ∧
    (dim ≠ 2 → displacementOf lambda mu kappa dim = .error .valueError ∧
      rotationOf lambda mu kappa dim = .error .valueError ∧ stressOf lambda mu kappa dim = .error .valueError ∧
      pressureOf lambda mu kappa dim = .error .valueError ∧ rhsOf lambda mu kappa dim = .error .valueError ∧
      stressDivergenceOf lambda mu kappa dim = .error .valueError) ∧
    ∀ a ∈ gradXi x y z dim, a = 0 := by
  refine ⟨fun h => ⟨if_pos h, if_pos h, if_pos h, if_pos h, if_pos h, if_pos h⟩,
    fun h => ⟨if_neg h, if_neg h, if_neg h, if_neg h, if_neg h, if_neg h⟩, ?_⟩
  unfold gradXi
  split_ifs <;> simp

/-- Points of both materials away from the interface, and a contrast that is not one. -/
example : min (3 / 4 : ℝ) (3 / 4) ≠ 1 / 2 ∧ xi 1000000 (3 / 4) (3 / 4) 0 = 1000000 ∧
    min (1 / 4 : ℝ) (3 / 4) ≠ 1 / 2 ∧ xi 1000000 (1 / 4) (3 / 4) 0 = 1 ∧ (1000000 : ℝ) ≠ 0 :=
  ⟨by norm_num, (C106_material _ _ _ _).1 (by norm_num) (by norm_num), by norm_num,
    (C106_material _ _ _ _).2.1 (.inl (by norm_num)), by norm_num⟩

#print axioms C106_material
#print axioms C106_displacement
#print axioms C106_law
#print axioms C106_balance
#print axioms C106_weak
#print axioms C106_constants
#print axioms C106_dimension

end Verif.Strong.Cauchy2
