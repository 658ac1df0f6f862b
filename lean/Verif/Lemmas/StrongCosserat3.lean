/-
Proofs on the third exact solution of Cosserat elasticity, C104: the parts that need derivatives.
-/
import Verif.Model.StrongCosserat3
import Verif.Lemmas.StrongGamma

namespace Verif.Strong.Cosserat3
open Real

variable (m : Material) {x y z : ℝ}

theorem gamma2_x (y z : ℝ) : (fun t => gammaEval2 t y z) = ramp (3 * y) := rfl

theorem gamma2_y (x z : ℝ) : (fun t => gammaEval2 x t z) = ramp (3 * x) := by
  funext t
  unfold gammaEval2 ramp
  rw [max_comm (3 * x)]

theorem gamma3_x (y z : ℝ) : (fun t => gammaEval3 t y z) = ramp (max (3 * y) (3 * z)) := by
  funext t
  unfold gammaEval3 ramp
  rw [max_assoc]

theorem gamma3_y (x z : ℝ) : (fun t => gammaEval3 x t z) = ramp (max (3 * x) (3 * z)) := by
  funext t
  unfold gammaEval3 ramp
  rw [max_comm (3 * x), max_assoc]

theorem gamma3_z (x y : ℝ) : (fun t => gammaEval3 x y t) = ramp (max (3 * x) (3 * y)) := by
  funext t
  unfold gammaEval3 ramp
  rw [max_comm (max (3 * x) (3 * y))]

theorem gamma2_dx (h : Smooth2 x y) : HasDerivAt (fun t => gammaEval2 t y z) (gradGammaEval2 x y z 0) x := by
  rw [gamma2_x]
  have e : gradGammaEval2 x y z 0 = if 3 * y < 3 * x ∧ 1 < 3 * x ∧ 3 * x < 2 then 3 else 0 := by
    simp only [gradGammaEval2, Matrix.cons_val]
    unfold Smooth2 at h
    grind
  rw [e]
  apply ramp_deriv
  unfold Smooth2 at h
  grind

theorem gamma2_dy (h : Smooth2 x y) : HasDerivAt (fun t => gammaEval2 x t z) (gradGammaEval2 x y z 1) y := by
  rw [gamma2_y]
  have e : gradGammaEval2 x y z 1 = if 3 * x < 3 * y ∧ 1 < 3 * y ∧ 3 * y < 2 then 3 else 0 := by
    simp only [gradGammaEval2, Matrix.cons_val]
    unfold Smooth2 at h
    grind
  rw [e]
  apply ramp_deriv
  unfold Smooth2 at h
  grind

theorem gamma3_dx (h : Smooth3 x y z) : HasDerivAt (fun t => gammaEval3 t y z) (gradGammaEval3 x y z 0) x := by
  rw [gamma3_x]
  have e : gradGammaEval3 x y z 0 = if max (3 * y) (3 * z) < 3 * x ∧ 1 < 3 * x ∧ 3 * x < 2 then 3 else 0 := by
    simp only [gradGammaEval3, Matrix.cons_val, max_lt_iff]
    simp only [Smooth3, max_lt_iff, lt_max_iff] at h
    grind (splits := 20)
  rw [e]
  apply ramp_deriv
  unfold Smooth3 at h
  grind

theorem gamma3_dy (h : Smooth3 x y z) : HasDerivAt (fun t => gammaEval3 x t z) (gradGammaEval3 x y z 1) y := by
  rw [gamma3_y]
  have e : gradGammaEval3 x y z 1 = if max (3 * x) (3 * z) < 3 * y ∧ 1 < 3 * y ∧ 3 * y < 2 then 3 else 0 := by
    simp only [gradGammaEval3, Matrix.cons_val, max_lt_iff]
    simp only [Smooth3, max_lt_iff, lt_max_iff] at h
    grind (splits := 20)
  rw [e]
  apply ramp_deriv
  unfold Smooth3 at h
  grind

theorem gamma3_dz (h : Smooth3 x y z) : HasDerivAt (fun t => gammaEval3 x y t) (gradGammaEval3 x y z 2) z := by
  rw [gamma3_z]
  have e : gradGammaEval3 x y z 2 = if max (3 * x) (3 * y) < 3 * z ∧ 1 < 3 * z ∧ 3 * z < 2 then 3 else 0 := by
    simp only [gradGammaEval3, Matrix.cons_val, max_lt_iff]
    simp only [Smooth3, max_lt_iff, lt_max_iff] at h
    grind (splits := 20)
  rw [e]
  apply ramp_deriv
  unfold Smooth3 at h
  grind

variable (x y z)

theorem grad_displacement2 : GradientAt displacement2 (displacementGradient2 x y z) x y z := by
  refine gradient2 (Fin.forall_fin_two.2 ⟨?_, ?_⟩) <;>
  exact ⟨⟨_, by simp only [displacement2, Matrix.cons_val]; derive, by simp only [displacementGradient2, Matrix.cons_val]; ring⟩,
    _, by simp only [displacement2, Matrix.cons_val]; derive, by simp only [displacementGradient2, Matrix.cons_val]; ring⟩

theorem grad_displacement3 : GradientAt displacement3 (displacementGradient3 x y z) x y z := by
  refine gradient3 (forall_three ⟨?_, ?_, ?_⟩) <;>
  exact ⟨⟨_, by simp only [displacement3, Matrix.cons_val]; derive, by simp only [displacementGradient3, Matrix.cons_val]; ring⟩,
    ⟨_, by simp only [displacement3, Matrix.cons_val]; derive, by simp only [displacementGradient3, Matrix.cons_val]; ring⟩,
    _, by simp only [displacement3, Matrix.cons_val]; derive, by simp only [displacementGradient3, Matrix.cons_val]; ring⟩

theorem grad_rotation2 : GradientAt rotation2 (fun _ => rotationGradient2 x y z) x y z := by
  refine gradient2 (Fin.forall_fin_one.2 ?_) <;>
  exact ⟨⟨_, by simp only [rotation2, Matrix.cons_val]; derive, by simp only [rotationGradient2, Matrix.cons_val]; ring⟩,
    _, by simp only [rotation2, Matrix.cons_val]; derive, by simp only [rotationGradient2, Matrix.cons_val]; ring⟩

theorem grad_rotation3 : GradientAt rotation3 (rotationGradient3 x y z) x y z := by
  refine gradient3 (forall_three ⟨?_, ?_, ?_⟩) <;>
  exact ⟨⟨_, by simp only [rotation3, Matrix.cons_val]; derive, by simp only [rotationGradient3, Matrix.cons_val]; ring⟩,
    ⟨_, by simp only [rotation3, Matrix.cons_val]; derive, by simp only [rotationGradient3, Matrix.cons_val]; ring⟩,
    _, by simp only [rotation3, Matrix.cons_val]; derive, by simp only [rotationGradient3, Matrix.cons_val]; ring⟩

theorem div_stress2 : DivergenceAt (stress2 m) (stressDivergence2 m x y z) x y z := by
  refine divergence2 (Fin.forall_fin_two.2 ⟨?_, ?_⟩) <;>
  exact ⟨_, _, by simp only [stress2, Matrix.cons_val]; derive,
    by simp only [stress2, Matrix.cons_val]; derive,
    by simp only [stressDivergence2, Matrix.cons_val]; ring⟩

theorem div_stress3 : DivergenceAt (stress3 m) (stressDivergence3 m x y z) x y z := by
  refine divergence3 (forall_three ⟨?_, ?_, ?_⟩) <;>
  exact ⟨_, _, _, by simp only [stress3, Matrix.cons_val]; derive,
    by simp only [stress3, Matrix.cons_val]; derive,
    by simp only [stress3, Matrix.cons_val]; derive,
    by simp only [stressDivergence3, Matrix.cons_val]; ring⟩

variable {x y z}

theorem div_coupleStressScaled2 (h : Smooth2 x y) :
    DivergenceAt (fun x y z i j => gammaEval2 x y z * coupleStressScaled2 m x y z i j) (coupleStressDivergenceScaled2 m x y z) x y z := by
  refine divergence2 (Fin.forall_fin_one.2 ?_) <;>
  exact ⟨_, _, by simp only [coupleStressScaled2, Matrix.cons_val]; derive; all_goals exact gamma2_dx h,
    by simp only [coupleStressScaled2, Matrix.cons_val]; derive; all_goals exact gamma2_dy h,
    by simp only [coupleStressDivergenceScaled2, Matrix.cons_val]; ring⟩

theorem div_coupleStressScaled3 (h : Smooth3 x y z) :
    DivergenceAt (fun x y z i j => gammaEval3 x y z * coupleStressScaled3 m x y z i j) (coupleStressDivergenceScaled3 m x y z) x y z := by
  refine divergence3 (forall_three ⟨?_, ?_, ?_⟩) <;>
  exact ⟨_, _, _, by simp only [coupleStressScaled3, Matrix.cons_val]; derive; all_goals exact gamma3_dx h,
    by simp only [coupleStressScaled3, Matrix.cons_val]; derive; all_goals exact gamma3_dy h,
    by simp only [coupleStressScaled3, Matrix.cons_val]; derive; all_goals exact gamma3_dz h,
    by simp only [coupleStressDivergenceScaled3, Matrix.cons_val]; ring⟩

variable (x y z)

theorem law_stress2 : ∀ i j, stress2 m x y z i j = hooke m.lambda m.mu m.kappa
    (fun i j => displacementGradient2 x y z i j + skew2 (rotation2 x y z 0) i j) i j := by
  refine Fin.forall_fin_two.2 ⟨Fin.forall_fin_two.2 ⟨?_, ?_⟩, Fin.forall_fin_two.2 ⟨?_, ?_⟩⟩ <;>
    simp [stress2, hooke, displacementGradient2, skew2, rotation2] <;> ring

theorem law_stress3 : ∀ i j, stress3 m x y z i j = hooke m.lambda m.mu m.kappa
    (fun i j => displacementGradient3 x y z i j + skew3 (rotation3 x y z) i j) i j := by
  refine forall_three ⟨forall_three ⟨?_, ?_, ?_⟩, forall_three ⟨?_, ?_, ?_⟩, forall_three ⟨?_, ?_, ?_⟩⟩ <;>
    simp [stress3, hooke, displacementGradient3, skew3, rotation3, Fin.sum_univ_three] <;> ring

theorem law_couple2 : ∀ i j, coupleStressScaled2 m x y z i j =
    gammaEval2 x y z * (m.kappaO + m.muO) * rotationGradient2 x y z j := by
  refine Fin.forall_fin_one.2 (Fin.forall_fin_two.2 ⟨?_, ?_⟩) <;>
    simp only [coupleStressScaled2, rotationGradient2, Matrix.cons_val] <;> ring

theorem law_couple3 : ∀ i j, coupleStressScaled3 m x y z i j = hooke m.lambdaO m.muO m.kappaO
    (fun i j => gammaEval3 x y z * rotationGradient3 x y z i j) i j := by
  refine forall_three ⟨forall_three ⟨?_, ?_, ?_⟩, forall_three ⟨?_, ?_, ?_⟩, forall_three ⟨?_, ?_, ?_⟩⟩ <;>
    simp [coupleStressScaled3, hooke, rotationGradient3, Fin.sum_univ_three] <;> ring

theorem balanceScaled2 : rhsScaled2 m x y z 0 = stressDivergence2 m x y z 0 ∧
    rhsScaled2 m x y z 1 = stressDivergence2 m x y z 1 ∧
    rhsScaled2 m x y z 2 = coupleStressDivergenceScaled2 m x y z 0 - axial2 (stress2 m x y z) := by
  refine ⟨?_, ?_, ?_⟩ <;>
    simp only [rhsScaled2, stressDivergence2, coupleStressDivergenceScaled2, axial2, stress2, Matrix.cons_val] <;> ring

theorem balanceScaled3 : (rhsScaled3 m x y z 0 = stressDivergence3 m x y z 0 ∧
    rhsScaled3 m x y z 1 = stressDivergence3 m x y z 1 ∧ rhsScaled3 m x y z 2 = stressDivergence3 m x y z 2) ∧
    rhsScaled3 m x y z 3 = coupleStressDivergenceScaled3 m x y z 0 - axial3 (stress3 m x y z) 0 ∧
    rhsScaled3 m x y z 4 = coupleStressDivergenceScaled3 m x y z 1 - axial3 (stress3 m x y z) 1 ∧
    rhsScaled3 m x y z 5 = coupleStressDivergenceScaled3 m x y z 2 - axial3 (stress3 m x y z) 2 := by
  refine ⟨⟨?_, ?_, ?_⟩, ?_, ?_, ?_⟩ <;>
    simp only [rhsScaled3, stressDivergence3, coupleStressDivergenceScaled3, axial3, stress3, Matrix.cons_val] <;> ring

end Verif.Strong.Cosserat3
