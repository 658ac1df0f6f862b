/-
C102: the exact solution of the first Cosserat example solves the problem with the right-hand side that goes with it.
-/
import Verif.Lemmas.StrongCosserat1
import Verif.Lemmas.StrongWeak
import Mathlib.Tactic.NormNum

namespace Verif.Strong.Cosserat1
open Real

/-- C102: `displacement_gradient` and `rotation_gradient` have the derivatives of `displacement` and `rotation`. -/
theorem C102_gradients (x y z : ℝ) :
    GradientAt displacement2 (displacementGradient2 x y z) x y z ∧
    GradientAt rotation2 (fun _ => rotationGradient2 x y z) x y z ∧
    GradientAt displacement3 (displacementGradient3 x y z) x y z ∧
    GradientAt rotation3 (rotationGradient3 x y z) x y z :=
  ⟨grad_displacement2 x y z, grad_rotation2 x y z, grad_displacement3 x y z, grad_rotation3 x y z⟩

/-- C102: `stress` and `couple_stress` follow from displacement and rotation by the laws of the material, and the
scaled couple stress is the couple stress. -/
theorem C102_laws (m : Material) (x y z : ℝ) :
    (∀ i j, stress2 m x y z i j = hooke m.lambda m.mu m.kappa
      (fun i j => displacementGradient2 x y z i j + skew2 (rotation2 x y z 0) i j) i j) ∧
    (∀ i j, coupleStress2 m x y z i j = m.l * (m.kappaO + m.muO) * rotationGradient2 x y z j) ∧
    (∀ i j, stress3 m x y z i j = hooke m.lambda m.mu m.kappa
      (fun i j => displacementGradient3 x y z i j + skew3 (rotation3 x y z) i j) i j) ∧
    (∀ i j, coupleStress3 m x y z i j = hooke m.lambdaO m.muO m.kappaO
      (fun i j => m.l * rotationGradient3 x y z i j) i j) ∧
    coupleStressScaled2 m x y z = coupleStress2 m x y z ∧ coupleStressScaled3 m x y z = coupleStress3 m x y z :=
  ⟨law_stress2 m x y z, law_couple2 m x y z, law_stress3 m x y z, law_couple3 m x y z, rfl, rfl⟩

/-- C102: the divergences are those of the stress, the couple stress and the couple stress times the length. -/
theorem C102_divergences (m : Material) (x y z : ℝ) :
    DivergenceAt (stress2 m) (stressDivergence2 m x y z) x y z ∧
    DivergenceAt (coupleStress2 m) (coupleStressDivergence2 m x y z) x y z ∧
    DivergenceAt (fun x y z i j => m.l * coupleStressScaled2 m x y z i j) (coupleStressDivergenceScaled2 m x y z)
      x y z ∧
    DivergenceAt (stress3 m) (stressDivergence3 m x y z) x y z ∧
    DivergenceAt (coupleStress3 m) (coupleStressDivergence3 m x y z) x y z ∧
    DivergenceAt (fun x y z i j => m.l * coupleStressScaled3 m x y z i j) (coupleStressDivergenceScaled3 m x y z)
      x y z :=
  ⟨div_stress2 m x y z, div_coupleStress2 m x y z, div_coupleStressScaled2 m x y z, div_stress3 m x y z,
    div_coupleStress3 m x y z, div_coupleStressScaled3 m x y z⟩

/-- C102: the right-hand sides are the balances of force and of couple, in the plane. -/
theorem C102_balance2 (m : Material) (x y z : ℝ) :
    rhs2 m x y z = ![stressDivergence2 m x y z 0, stressDivergence2 m x y z 1,
      coupleStressDivergence2 m x y z 0 - axial2 (stress2 m x y z)] ∧
    rhsScaled2 m x y z = ![stressDivergence2 m x y z 0, stressDivergence2 m x y z 1,
      coupleStressDivergenceScaled2 m x y z 0 - axial2 (stress2 m x y z)] := by
  refine ⟨funext (forall_three ?_), funext (forall_three ?_)⟩
  · exact balance2 m x y z
  · exact balanceScaled2 m x y z

/-- C102: the right-hand sides are the balances of force and of couple, in space. -/
theorem C102_balance3 (m : Material) (x y z : ℝ) :
    rhs3 m x y z = ![stressDivergence3 m x y z 0, stressDivergence3 m x y z 1, stressDivergence3 m x y z 2,
      coupleStressDivergence3 m x y z 0 - axial3 (stress3 m x y z) 0,
      coupleStressDivergence3 m x y z 1 - axial3 (stress3 m x y z) 1,
      coupleStressDivergence3 m x y z 2 - axial3 (stress3 m x y z) 2] ∧
    rhsScaled3 m x y z = ![stressDivergence3 m x y z 0, stressDivergence3 m x y z 1, stressDivergence3 m x y z 2,
      coupleStressDivergenceScaled3 m x y z 0 - axial3 (stress3 m x y z) 0,
      coupleStressDivergenceScaled3 m x y z 1 - axial3 (stress3 m x y z) 1,
      coupleStressDivergenceScaled3 m x y z 2 - axial3 (stress3 m x y z) 2] := by
  obtain ⟨⟨h0, h1, h2⟩, h3, h4, h5⟩ := balance3 m x y z
  obtain ⟨⟨k0, k1, k2⟩, k3, k4, k5⟩ := balanceScaled3 m x y z
  refine ⟨funext fun i => ?_, funext fun i => ?_⟩
  · match i with
    | 0 => exact h0
    | 1 => exact h1
    | 2 => exact h2
    | 3 => exact h3
    | 4 => exact h4
    | 5 => exact h5
  · match i with
    | 0 => exact k0
    | 1 => exact k1
    | 2 => exact k2
    | 3 => exact k3
    | 4 => exact k4
    | 5 => exact k5

/-- C102: displacement and rotation vanish on the boundary of the unit square and of the unit cube, so that the weak
form needs no boundary data. -/
theorem C102_boundary (x y z : ℝ) :
    ((x = 0 ∨ x = 1 ∨ y = 0 ∨ y = 1) → displacement2 x y z = 0 ∧ rotation2 x y z = 0) ∧
    ((x = 0 ∨ x = 1 ∨ y = 0 ∨ y = 1 ∨ z = 0 ∨ z = 1) → displacement3 x y z = 0 ∧ rotation3 x y z = 0) := by
  constructor
  · rintro (rfl | rfl | rfl | rfl) <;>
      exact ⟨funext (Fin.forall_fin_two.2 (by simp [displacement2])),
        funext (Fin.forall_fin_one.2 (by simp [rotation2]))⟩
  · rintro (rfl | rfl | rfl | rfl | rfl | rfl) <;>
      exact ⟨funext (forall_three (by simp [displacement3])), funext (forall_three (by simp [rotation3]))⟩

/-- C102: in the plane the exact fields solve the mixed weak form of C78 at every point and for all test fields, up to
the divergence of a flux that vanishes on the boundary; scaled and unscaled, each with its own right-hand side. -/
theorem C102_weak2 (m : Material) (hm : m.mu ≠ 0) (hk : m.kappa ≠ 0) (ht : 2 * m.mu + (2 : Nat) * m.lambda ≠ 0)
    (ho : m.muO + m.kappaO ≠ 0) (hl : m.l ≠ 0) (x y z : ℝ) (t : Dual.Fields ℝ) :
    Dual.dualPower false 2 m.coeffs ⟨mat (stress2 m x y z), vec (stressDivergence2 m x y z),
        mat (coupleStress2 m x y z), vec (coupleStressDivergence2 m x y z), vec (displacement2 x y z),
        vec (rotation2 x y z)⟩ t =
      fluxDivergence false m.l (displacement2 x y z) (displacementGradient2 x y z) (rotation2 x y z)
        (fun _ => rotationGradient2 x y z) t + loadOf 2 1 (rhs2 m x y z) t ∧
    Dual.dualPower true 2 m.coeffs ⟨mat (stress2 m x y z), vec (stressDivergence2 m x y z),
        mat (coupleStressScaled2 m x y z), vec (coupleStressDivergenceScaled2 m x y z), vec (displacement2 x y z),
        vec (rotation2 x y z)⟩ t =
      fluxDivergence true m.l (displacement2 x y z) (displacementGradient2 x y z) (rotation2 x y z)
        (fun _ => rotationGradient2 x y z) t + loadOf 2 1 (rhsScaled2 m x y z) t :=
  ⟨weak2 (c := m.coeffs) hm hk ht ho (.inr hl) (law_stress2 m x y z) (law_couple2 m x y z) (balance2 m x y z) t,
    weak2 (c := m.coeffs) hm hk ht ho (.inl rfl) (law_stress2 m x y z) (law_couple2 m x y z) (balanceScaled2 m x y z) t⟩

/-- C102: the same in space. -/
theorem C102_weak3 (m : Material) (hm : m.mu ≠ 0) (hk : m.kappa ≠ 0) (ht : 2 * m.mu + (3 : Nat) * m.lambda ≠ 0)
    (hm' : m.muO ≠ 0) (hk' : m.kappaO ≠ 0) (ht' : 2 * m.muO + (3 : Nat) * m.lambdaO ≠ 0) (hl : m.l ≠ 0) (x y z : ℝ)
    (t : Dual.Fields ℝ) :
    Dual.dualPower false 3 m.coeffs ⟨mat (stress3 m x y z), vec (stressDivergence3 m x y z),
        mat (coupleStress3 m x y z), vec (coupleStressDivergence3 m x y z), vec (displacement3 x y z),
        vec (rotation3 x y z)⟩ t =
      fluxDivergence false m.l (displacement3 x y z) (displacementGradient3 x y z) (rotation3 x y z)
        (rotationGradient3 x y z) t + loadOf 3 3 (rhs3 m x y z) t ∧
    Dual.dualPower true 3 m.coeffs ⟨mat (stress3 m x y z), vec (stressDivergence3 m x y z),
        mat (coupleStressScaled3 m x y z), vec (coupleStressDivergenceScaled3 m x y z), vec (displacement3 x y z),
        vec (rotation3 x y z)⟩ t =
      fluxDivergence true m.l (displacement3 x y z) (displacementGradient3 x y z) (rotation3 x y z)
        (rotationGradient3 x y z) t + loadOf 3 3 (rhsScaled3 m x y z) t :=
  ⟨weak3 (c := m.coeffs) hm hk ht hm' hk' ht' (.inr hl) (law_stress3 m x y z) (law_couple3 m x y z) (balance3 m x y z) t,
    weak3 (c := m.coeffs) hm hk ht hm' hk' ht' (.inl rfl) (law_stress3 m x y z) (law_couple3 m x y z)
      (balanceScaled3 m x y z) t⟩

/-- Unit constants satisfy the conditions of both dimensions. -/
example : ∃ m : Material, m.mu ≠ 0 ∧ m.kappa ≠ 0 ∧ 2 * m.mu + (2 : Nat) * m.lambda ≠ 0 ∧ m.muO + m.kappaO ≠ 0 ∧
    m.l ≠ 0 ∧ 2 * m.mu + (3 : Nat) * m.lambda ≠ 0 ∧ m.muO ≠ 0 ∧ m.kappaO ≠ 0 ∧ 2 * m.muO + (3 : Nat) * m.lambdaO ≠ 0 :=
  ⟨⟨1, 1, 1, 1, 1, 1, 1⟩, by norm_num⟩

/-- In the middle of the square nothing is trivial: the displacement is a quarter, the rotation one, the stress is skew
and the couple that is asked for is not zero. -/
example : displacement2 (1 / 2) (1 / 2) 0 = ![1 / 4, 1 / 4] ∧ rotation2 (1 / 2) (1 / 2) 0 = ![1] ∧
    stress2 ⟨1, 1, 1, 1, 1, 1, 1⟩ (1 / 2) (1 / 2) 0 = ![![0, -2], ![2, 0]] ∧
    rhs2 ⟨1, 1, 1, 1, 1, 1, 1⟩ (1 / 2) (1 / 2) 0 2 = -4 * π ^ 2 - 4 := by
  have hs : sin (π * (1 / 2)) = 1 := by rw [mul_one_div]; exact sin_pi_div_two
  have hc : cos (π * (1 / 2)) = 0 := by rw [mul_one_div]; exact cos_pi_div_two
  refine ⟨?_, ?_, ?_, ?_⟩
  · unfold displacement2; rw [hs]; norm_num
  · unfold rotation2; rw [hs]; norm_num
  · unfold stress2; simp only [hs, hc]; norm_num
  · simp only [(balance2 _ _ _ _).2.2, coupleStressDivergence2, axial2, stress2, hs, hc, Matrix.cons_val]; ring

#print axioms C102_gradients
#print axioms C102_laws
#print axioms C102_divergences
#print axioms C102_balance2
#print axioms C102_balance3
#print axioms C102_boundary
#print axioms C102_weak2
#print axioms C102_weak3

end Verif.Strong.Cosserat1
