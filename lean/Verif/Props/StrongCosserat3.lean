/-
C104: the exact solution of the third Cosserat example, where the length vanishes in a part of the domain.
-/
import Verif.Lemmas.StrongCosserat3
import Verif.Lemmas.StrongWeak
import Mathlib.Tactic.NormNum

namespace Verif.Strong.Cosserat3
open Real

/-- C104: the length is between zero and one and continuous; it is zero exactly near the corner at the origin and one
exactly far from it. -/
theorem C104_length (x y z : ℝ) :
    (0 ≤ gammaEval2 x y z ∧ gammaEval2 x y z ≤ 1) ∧ (gammaEval2 x y z = 0 ↔ x ≤ 1 / 3 ∧ y ≤ 1 / 3) ∧
    (gammaEval2 x y z = 1 ↔ 2 / 3 ≤ x ∨ 2 / 3 ≤ y) ∧
    (0 ≤ gammaEval3 x y z ∧ gammaEval3 x y z ≤ 1) ∧ (gammaEval3 x y z = 0 ↔ x ≤ 1 / 3 ∧ y ≤ 1 / 3 ∧ z ≤ 1 / 3) ∧
    (gammaEval3 x y z = 1 ↔ 2 / 3 ≤ x ∨ 2 / 3 ≤ y ∨ 2 / 3 ≤ z) ∧
    Continuous (fun p : ℝ × ℝ × ℝ => gammaEval2 p.1 p.2.1 p.2.2) ∧
    Continuous (fun p : ℝ × ℝ × ℝ => gammaEval3 p.1 p.2.1 p.2.2) := by
  refine ⟨?_, ?_, ?_, ?_, ?_, ?_, ?_, ?_⟩
  · unfold gammaEval2; grind
  · unfold gammaEval2; grind
  · unfold gammaEval2; grind
  · unfold gammaEval3; grind
  · unfold gammaEval3; grind
  · unfold gammaEval3; grind
  · unfold gammaEval2; fun_prop
  · unfold gammaEval3; fun_prop

/-- C104: `grad_gamma_eval` has the derivatives of the length away from the kinks. -/
theorem C104_gradient_of_length (x y z : ℝ) :
    (Smooth2 x y → GradientAt (fun x y z (_ : Fin 1) => gammaEval2 x y z) (fun _ => gradGammaEval2 x y z) x y z) ∧
    (Smooth3 x y z → GradientAt (fun x y z (_ : Fin 1) => gammaEval3 x y z) (fun _ => gradGammaEval3 x y z) x y z) :=
  ⟨fun h => gradient2 fun _ => ⟨⟨_, gamma2_dx h, rfl⟩, _, gamma2_dy h, rfl⟩,
    fun h => gradient3 fun _ => ⟨⟨_, gamma3_dx h, rfl⟩, ⟨_, gamma3_dy h, rfl⟩, _, gamma3_dz h, rfl⟩⟩

/-- C104: the kinks have to be left out: there is no derivative in this point. -/
theorem C104_kink : ¬∃ d, HasPartial 0 gammaEval2 d (1 / 3) 0 0 := by
  rintro ⟨d, h⟩
  have h : HasDerivAt (fun t => gammaEval2 t 0 0) d (1 / 3) := h
  rw [gamma2_x, mul_zero] at h
  exact ramp_kink ⟨d, h⟩

/-- C104: the gradients are the derivatives of displacement and rotation. -/
theorem C104_gradients (x y z : ℝ) :
    GradientAt displacement2 (displacementGradient2 x y z) x y z ∧
    GradientAt rotation2 (fun _ => rotationGradient2 x y z) x y z ∧
    GradientAt displacement3 (displacementGradient3 x y z) x y z ∧
    GradientAt rotation3 (rotationGradient3 x y z) x y z :=
  ⟨grad_displacement2 x y z, grad_rotation2 x y z, grad_displacement3 x y z, grad_rotation3 x y z⟩

/-- C104: `stress` and `couple_stress_scaled` follow from displacement and rotation by the laws of the material. -/
theorem C104_laws (m : Material) (x y z : ℝ) :
    (∀ i j, stress2 m x y z i j = hooke m.lambda m.mu m.kappa
      (fun i j => displacementGradient2 x y z i j + skew2 (rotation2 x y z 0) i j) i j) ∧
    (∀ i j, coupleStressScaled2 m x y z i j =
      gammaEval2 x y z * (m.kappaO + m.muO) * rotationGradient2 x y z j) ∧
    (∀ i j, stress3 m x y z i j = hooke m.lambda m.mu m.kappa
      (fun i j => displacementGradient3 x y z i j + skew3 (rotation3 x y z) i j) i j) ∧
    ∀ i j, coupleStressScaled3 m x y z i j = hooke m.lambdaO m.muO m.kappaO
      (fun i j => gammaEval3 x y z * rotationGradient3 x y z i j) i j :=
  ⟨law_stress2 m x y z, law_couple2 m x y z, law_stress3 m x y z, law_couple3 m x y z⟩

/-- C104: the divergences are those of the stress and, away from the kinks, of the couple stress times the length. -/
theorem C104_divergences (m : Material) (x y z : ℝ) :
    DivergenceAt (stress2 m) (stressDivergence2 m x y z) x y z ∧
    (Smooth2 x y → DivergenceAt (fun x y z i j => gammaEval2 x y z * coupleStressScaled2 m x y z i j)
      (coupleStressDivergenceScaled2 m x y z) x y z) ∧
    DivergenceAt (stress3 m) (stressDivergence3 m x y z) x y z ∧
    (Smooth3 x y z → DivergenceAt (fun x y z i j => gammaEval3 x y z * coupleStressScaled3 m x y z i j)
      (coupleStressDivergenceScaled3 m x y z) x y z) :=
  ⟨div_stress2 m x y z, div_coupleStressScaled2 m, div_stress3 m x y z, div_coupleStressScaled3 m⟩

/-- C104: the right-hand sides are the balances of force and of couple. -/
theorem C104_balance (m : Material) (x y z : ℝ) :
    rhsScaled2 m x y z = ![stressDivergence2 m x y z 0, stressDivergence2 m x y z 1,
      coupleStressDivergenceScaled2 m x y z 0 - axial2 (stress2 m x y z)] ∧
    rhsScaled3 m x y z = ![stressDivergence3 m x y z 0, stressDivergence3 m x y z 1, stressDivergence3 m x y z 2,
      coupleStressDivergenceScaled3 m x y z 0 - axial3 (stress3 m x y z) 0,
      coupleStressDivergenceScaled3 m x y z 1 - axial3 (stress3 m x y z) 1,
      coupleStressDivergenceScaled3 m x y z 2 - axial3 (stress3 m x y z) 2] := by
  obtain ⟨⟨h0, h1, h2⟩, h3, h4, h5⟩ := balanceScaled3 m x y z
  refine ⟨funext (forall_three ?_), funext fun i => ?_⟩
  · exact balanceScaled2 m x y z
  · match i with
    | 0 => exact h0
    | 1 => exact h1
    | 2 => exact h2
    | 3 => exact h3
    | 4 => exact h4
    | 5 => exact h5

/-- C104: displacement and rotation vanish on the boundary of the unit square and of the unit cube. -/
theorem C104_boundary (x y z : ℝ) :
    ((x = 0 ∨ x = 1 ∨ y = 0 ∨ y = 1) → displacement2 x y z = 0 ∧ rotation2 x y z = 0) ∧
    ((x = 0 ∨ x = 1 ∨ y = 0 ∨ y = 1 ∨ z = 0 ∨ z = 1) → displacement3 x y z = 0 ∧ rotation3 x y z = 0) := by
  constructor
  · rintro (rfl | rfl | rfl | rfl) <;>
      exact ⟨funext (Fin.forall_fin_two.2 (by simp [displacement2])),
        funext (Fin.forall_fin_one.2 (by simp [rotation2]))⟩
  · rintro (rfl | rfl | rfl | rfl | rfl | rfl) <;>
      exact ⟨funext (forall_three (by simp [displacement3])), funext (forall_three (by simp [rotation3]))⟩

/-- C104: the exact fields solve the scaled mixed weak form of C78 with the functions of `get_material_functions` at
every point, also where the length is zero, and for all test fields, up to the divergence of a flux. -/
theorem C104_weak (m : Material) (hm : m.mu ≠ 0) (hk : m.kappa ≠ 0) (x y z : ℝ) (t : Dual.Fields ℝ) :
    (2 * m.mu + (2 : Nat) * m.lambda ≠ 0 → m.muO + m.kappaO ≠ 0 →
      Dual.dualPower true 2 (m.coeffs2 x y z) ⟨mat (stress2 m x y z), vec (stressDivergence2 m x y z),
          mat (coupleStressScaled2 m x y z), vec (coupleStressDivergenceScaled2 m x y z), vec (displacement2 x y z),
          vec (rotation2 x y z)⟩ t =
        fluxDivergence true (gammaEval2 x y z) (displacement2 x y z) (displacementGradient2 x y z) (rotation2 x y z)
          (fun _ => rotationGradient2 x y z) t + loadOf 2 1 (rhsScaled2 m x y z) t) ∧
    (2 * m.mu + (3 : Nat) * m.lambda ≠ 0 → m.muO ≠ 0 → m.kappaO ≠ 0 → 2 * m.muO + (3 : Nat) * m.lambdaO ≠ 0 →
      Dual.dualPower true 3 (m.coeffs3 x y z) ⟨mat (stress3 m x y z), vec (stressDivergence3 m x y z),
          mat (coupleStressScaled3 m x y z), vec (coupleStressDivergenceScaled3 m x y z), vec (displacement3 x y z),
          vec (rotation3 x y z)⟩ t =
        fluxDivergence true (gammaEval3 x y z) (displacement3 x y z) (displacementGradient3 x y z) (rotation3 x y z)
          (rotationGradient3 x y z) t + loadOf 3 3 (rhsScaled3 m x y z) t) :=
  ⟨fun ht ho => weak2 (c := m.coeffs2 x y z) hm hk ht ho (.inl rfl) (law_stress2 m x y z) (law_couple2 m x y z)
      (balanceScaled2 m x y z) t,
    fun ht hm' hk' ht' => weak3 (c := m.coeffs3 x y z) hm hk ht hm' hk' ht' (.inl rfl) (law_stress3 m x y z)
      (law_couple3 m x y z) (balanceScaled3 m x y z) t⟩

/-- The three parts of the square, and a point of the diagonal where the length is constant. -/
example : Smooth2 (1 / 4) (1 / 4) ∧ Smooth2 (1 / 2) (1 / 4) ∧ Smooth2 (3 / 4) (3 / 4) ∧ Smooth3 (1 / 4) (1 / 2) 0 ∧
    gammaEval2 (1 / 4) (1 / 4) 0 = 0 ∧ gammaEval2 (1 / 2) (1 / 4) 0 = 1 / 2 ∧ gammaEval2 (3 / 4) (3 / 4) 0 = 1 ∧
    gradGammaEval2 (1 / 2) (1 / 4) 0 = ![3, 0] := by
  refine ⟨?_, ?_, ?_, ?_, ?_, ?_, ?_, ?_⟩
  · left; norm_num
  · right; right; norm_num
  · right; left; norm_num
  · right; right; norm_num
  · norm_num [gammaEval2]
  · norm_num [gammaEval2]
  · norm_num [gammaEval2]
  · unfold gradGammaEval2; norm_num

/-- Unit constants satisfy the conditions. -/
example : ∃ m : Material, m.mu ≠ 0 ∧ m.kappa ≠ 0 ∧ 2 * m.mu + (2 : Nat) * m.lambda ≠ 0 ∧ m.muO + m.kappaO ≠ 0 ∧
    2 * m.mu + (3 : Nat) * m.lambda ≠ 0 ∧ m.muO ≠ 0 ∧ m.kappaO ≠ 0 ∧ 2 * m.muO + (3 : Nat) * m.lambdaO ≠ 0 :=
  ⟨⟨1, 1, 1, 1, 1, 1⟩, by norm_num⟩

#print axioms C104_length
#print axioms C104_gradient_of_length
#print axioms C104_kink
#print axioms C104_gradients
#print axioms C104_laws
#print axioms C104_divergences
#print axioms C104_balance
#print axioms C104_boundary
#print axioms C104_weak

end Verif.Strong.Cosserat3
