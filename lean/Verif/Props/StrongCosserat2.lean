/-
C103: the exact solution of the second Cosserat example solves the problem with the right-hand side that goes with it.
-/
import Verif.Lemmas.StrongCosserat2
import Verif.Lemmas.StrongWeak
import Mathlib.Tactic.NormNum

namespace Verif.Strong.Cosserat2
open Real

/-- C103: the gradients are the derivatives of displacement and rotation, and the displacement is free of
divergence. -/
theorem C103_gradients (x y z : ℝ) :
    GradientAt displacement2 (displacementGradient2 x y z) x y z ∧
    GradientAt rotation2 (fun _ => rotationGradient2 x y z) x y z ∧
    GradientAt displacement3 (displacementGradient3 x y z) x y z ∧
    GradientAt rotation3 (rotationGradient3 x y z) x y z ∧
    displacementGradient2 x y z 0 0 + displacementGradient2 x y z 1 1 = 0 ∧
    displacementGradient3 x y z 0 0 + displacementGradient3 x y z 1 1 + displacementGradient3 x y z 2 2 = 0 :=
  ⟨grad_displacement2 x y z, grad_rotation2 x y z, grad_displacement3 x y z, grad_rotation3 x y z,
    solenoidal2 x y z, solenoidal3 x y z⟩

/-- C103: `stress` and `couple_stress` follow from displacement and rotation by the laws of the material, for every
`m_lambda` although the formulas do not have it. -/
theorem C103_laws (m : Material) (x y z : ℝ) :
    (∀ i j, stress2 m x y z i j = hooke m.lambda m.mu m.kappa
      (fun i j => displacementGradient2 x y z i j + skew2 (rotation2 x y z 0) i j) i j) ∧
    (∀ i j, coupleStress2 m x y z i j = m.gamma * rotationGradient2 x y z j) ∧
    (∀ i j, stress3 m x y z i j = hooke m.lambda m.mu m.kappa
      (fun i j => displacementGradient3 x y z i j + skew3 (rotation3 x y z) i j) i j) ∧
    ∀ i j, coupleStress3 m x y z i j = m.gamma * rotationGradient3 x y z i j :=
  ⟨law_stress2 m x y z, law_couple2 m x y z, law_stress3 m x y z, law_couple3 m x y z⟩

/-- C103: the divergences are those of the stress, the couple stress and the couple stress times `m_gamma`. -/
theorem C103_divergences (m : Material) (x y z : ℝ) :
    DivergenceAt (stress2 m) (stressDivergence2 m x y z) x y z ∧
    DivergenceAt (coupleStress2 m) (coupleStressDivergence2 m x y z) x y z ∧
    DivergenceAt (fun x y z i j => m.gamma * coupleStress2 m x y z i j) (coupleStressDivergenceScaled2 m x y z) x y z ∧
    DivergenceAt (stress3 m) (stressDivergence3 m x y z) x y z ∧
    DivergenceAt (coupleStress3 m) (coupleStressDivergence3 m x y z) x y z ∧
    DivergenceAt (fun x y z i j => m.gamma * coupleStress3 m x y z i j) (coupleStressDivergenceScaled3 m x y z) x y z :=
  ⟨div_stress2 m x y z, div_coupleStress2 m x y z, div_scaled_coupleStress2 m x y z, div_stress3 m x y z,
    div_coupleStress3 m x y z, div_scaled_coupleStress3 m x y z⟩

/-- C103: the right-hand sides are the balances of force and of couple. -/
theorem C103_balance (m : Material) (x y z : ℝ) :
    rhs2 m x y z = ![stressDivergence2 m x y z 0, stressDivergence2 m x y z 1,
      coupleStressDivergence2 m x y z 0 - axial2 (stress2 m x y z)] ∧
    rhs3 m x y z = ![stressDivergence3 m x y z 0, stressDivergence3 m x y z 1, stressDivergence3 m x y z 2,
      coupleStressDivergence3 m x y z 0 - axial3 (stress3 m x y z) 0,
      coupleStressDivergence3 m x y z 1 - axial3 (stress3 m x y z) 1,
      coupleStressDivergence3 m x y z 2 - axial3 (stress3 m x y z) 2] := by
  obtain ⟨⟨h0, h1, h2⟩, h3, h4, h5⟩ := balance3 m x y z
  refine ⟨funext (forall_three ?_), funext fun i => ?_⟩
  · exact balance2 m x y z
  · match i with
    | 0 => exact h0
    | 1 => exact h1
    | 2 => exact h2
    | 3 => exact h3
    | 4 => exact h4
    | 5 => exact h5

/-- C103: the rotation vanishes on the boundary of the unit square and the unit cube, the displacement on that of the
cube; on the boundary of the square only the normal displacement vanishes on all sides. -/
theorem C103_boundary (x y z : ℝ) :
    ((x = 0 ∨ x = 1) → displacement2 x y z = 0) ∧ ((y = 0 ∨ y = 1) → displacement2 x y z 1 = 0) ∧
    displacement2 x 0 z 0 = π * sin (π * x) ^ 2 ∧
    ((x = 0 ∨ x = 1 ∨ y = 0 ∨ y = 1) → rotation2 x y z = 0) ∧
    ((x = 0 ∨ x = 1 ∨ y = 0 ∨ y = 1 ∨ z = 0 ∨ z = 1) → displacement3 x y z = 0 ∧ rotation3 x y z = 0) := by
  have h2 : sin (2 * π) = 0 := sin_two_pi
  refine ⟨?_, ?_, ?_, ?_, ?_⟩
  · rintro (rfl | rfl) <;> exact funext (Fin.forall_fin_two.2 (by simp [displacement2]))
  · rintro (rfl | rfl) <;> simp [displacement2]
  · simp [displacement2]
  · rintro (rfl | rfl | rfl | rfl) <;> exact funext (Fin.forall_fin_one.2 (by simp [rotation2]))
  · rintro (rfl | rfl | rfl | rfl | rfl | rfl) <;>
      exact ⟨funext (forall_three (by simp [displacement3, h2])), funext (forall_three (by simp [rotation3]))⟩

/-- The constants of the mixed form in which the couple stress is `m_gamma` times the gradient. -/
noncomputable def Material.coeffs (m : Material) : Dual.Coeffs ℝ :=
  ⟨m.lambda, m.mu, m.kappa, 0, m.gamma / 2, m.gamma / 2, 1, fun _ => 0⟩

/-- C103: the exact fields solve the mixed weak form of C78 at every point and for all test fields, up to the divergence
of a flux. -/
theorem C103_mixed (m : Material) (hm : m.mu ≠ 0) (hk : m.kappa ≠ 0) (hg : m.gamma ≠ 0) (x y z : ℝ)
    (t : Dual.Fields ℝ) :
    (2 * m.mu + (2 : Nat) * m.lambda ≠ 0 →
      Dual.dualPower false 2 m.coeffs ⟨mat (stress2 m x y z), vec (stressDivergence2 m x y z),
          mat (coupleStress2 m x y z), vec (coupleStressDivergence2 m x y z), vec (displacement2 x y z),
          vec (rotation2 x y z)⟩ t =
        fluxDivergence false 1 (displacement2 x y z) (displacementGradient2 x y z) (rotation2 x y z)
          (fun _ => rotationGradient2 x y z) t + loadOf 2 1 (rhs2 m x y z) t) ∧
    (2 * m.mu + (3 : Nat) * m.lambda ≠ 0 →
      Dual.dualPower false 3 m.coeffs ⟨mat (stress3 m x y z), vec (stressDivergence3 m x y z),
          mat (coupleStress3 m x y z), vec (coupleStressDivergence3 m x y z), vec (displacement3 x y z),
          vec (rotation3 x y z)⟩ t =
        fluxDivergence false 1 (displacement3 x y z) (displacementGradient3 x y z) (rotation3 x y z)
          (rotationGradient3 x y z) t + loadOf 3 3 (rhs3 m x y z) t) := by
  have h2 : m.gamma / 2 ≠ 0 := div_ne_zero hg two_ne_zero
  constructor
  · intro ht
    refine weak2 (c := m.coeffs) hm hk ht ?_ (.inr one_ne_zero) (law_stress2 m x y z) ?_ (balance2 m x y z) t
    · simpa [Material.coeffs] using hg
    · intro i j
      rw [law_couple2]; simp [Material.coeffs]
  · intro ht
    refine weak3 (c := m.coeffs) hm hk ht h2 h2 ?_ (.inr one_ne_zero) (law_stress3 m x y z) ?_ (balance3 m x y z) t
    · simpa [Material.coeffs] using hg
    · intro i j
      rw [law_couple3]; simp only [hooke, Material.coeffs, zero_mul, ite_self]; ring

/-- C103: they solve the primal weak form of C73 for all test displacements and rotations, for every `m_lambda`. -/
theorem C103_primal (m : Material) (x y z : ℝ) :
    (∀ (v : Fin 2 → ℝ) (gv : Fin 2 → Fin 2 → ℝ) (h : Fin 1 → ℝ) (gh : Fin 1 → Fin 2 → ℝ),
      Cosserat.power 2 ⟨m.mu, m.kappa, m.lambda, m.gamma⟩
          (mat fun i j => displacementGradient2 x y z i j + skew2 (rotation2 x y z 0) i j)
          (mat fun i j => gv i j + skew2 (h 0) i j) +
        m.gamma * Cosserat.contractSpin 2 (mat fun (_ : Fin 1) => rotationGradient2 x y z) (mat gh) +
        primalLoad (rhs2 m x y z) v h =
      primalFlux (stress2 m x y z) (stressDivergence2 m x y z) (coupleStress2 m x y z)
        (coupleStressDivergence2 m x y z) v gv h gh) ∧
    ∀ (v : Fin 3 → ℝ) (gv : Fin 3 → Fin 3 → ℝ) (h : Fin 3 → ℝ) (gh : Fin 3 → Fin 3 → ℝ),
      Cosserat.power 3 ⟨m.mu, m.kappa, m.lambda, m.gamma⟩
          (mat fun i j => displacementGradient3 x y z i j + skew3 (rotation3 x y z) i j)
          (mat fun i j => gv i j + skew3 h i j) +
        m.gamma * Cosserat.contractSpin 3 (mat (rotationGradient3 x y z)) (mat gh) + primalLoad (rhs3 m x y z) v h =
      primalFlux (stress3 m x y z) (stressDivergence3 m x y z) (coupleStress3 m x y z)
        (coupleStressDivergence3 m x y z) v gv h gh :=
  ⟨primal2 (c := ⟨m.mu, m.kappa, m.lambda, m.gamma⟩) (law_stress2 m x y z) (law_couple2 m x y z) (balance2 m x y z),
    primal3 (c := ⟨m.mu, m.kappa, m.lambda, m.gamma⟩) (law_stress3 m x y z) (law_couple3 m x y z) (balance3 m x y z)⟩

/-- Unit constants satisfy the conditions. -/
example : ∃ m : Material, m.mu ≠ 0 ∧ m.kappa ≠ 0 ∧ m.gamma ≠ 0 ∧ 2 * m.mu + (2 : Nat) * m.lambda ≠ 0 ∧
    2 * m.mu + (3 : Nat) * m.lambda ≠ 0 :=
  ⟨⟨1, 1, 1, 1⟩, by norm_num⟩

/-- In the middle of the square the stress is not symmetric. -/
example : rotation2 (1 / 2) (1 / 2) 0 = ![1] ∧
    stress2 ⟨1, 1, 1, 1⟩ (1 / 2) (1 / 2) 0 = ![![0, -2 * π ^ 2 - 2], ![4 * π ^ 2 + 2, 0]] := by
  have hs : sin (π * (1 / 2)) = 1 := by rw [mul_one_div]; exact sin_pi_div_two
  have hc : cos (π * (1 / 2)) = 0 := by rw [mul_one_div]; exact cos_pi_div_two
  have h2 : cos (2 * π * (1 / 2)) = -1 := by rw [show 2 * π * (1 / 2) = π by ring]; exact cos_pi
  have h3 : sin (2 * π * (1 / 2)) = 0 := by rw [show 2 * π * (1 / 2) = π by ring]; exact sin_pi
  refine ⟨?_, ?_⟩
  · unfold rotation2; rw [hs]; norm_num
  · refine funext (Fin.forall_fin_two.2 ⟨funext (Fin.forall_fin_two.2 ⟨?_, ?_⟩),
      funext (Fin.forall_fin_two.2 ⟨?_, ?_⟩)⟩) <;>
      simp only [stress2, hs, hc, h2, h3, Matrix.cons_val] <;> ring

#print axioms C103_gradients
#print axioms C103_laws
#print axioms C103_divergences
#print axioms C103_balance
#print axioms C103_boundary
#print axioms C103_mixed
#print axioms C103_primal

end Verif.Strong.Cosserat2
