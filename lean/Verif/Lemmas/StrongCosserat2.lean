/-
Proofs on the second exact solution of Cosserat elasticity, C103: the parts that need derivatives.
-/
import Verif.Model.StrongCosserat2
import Verif.Lemmas.Strong

namespace Verif.Strong.Cosserat2
open Real

variable (m : Material) (x y z : ℝ)

theorem sin2 (a : ℝ) : sin (2 * π * a) = 2 * sin (π * a) * cos (π * a) := by
  rw [mul_assoc, sin_two_mul]

theorem cos2 (a : ℝ) : cos (2 * π * a) = 2 * cos (π * a) ^ 2 - 1 := by
  rw [mul_assoc, cos_two_mul]

/-- Write everything in sines and cosines of `π x`, `π y`, `π z` and compare as polynomials. -/
local macro "trig" : tactic => `(tactic| (
  simp only [sin2, cos2, mul_add, mul_sub, sin_sub, cos_sub, sin_add, cos_add, ← mul_assoc, mul_comm π 2]
  have hx := sin_sq_add_cos_sq (π * x)
  have hy := sin_sq_add_cos_sq (π * y)
  have hz := sin_sq_add_cos_sq (π * z)
  generalize sin (π * x) = sx at *
  generalize cos (π * x) = cx at *
  generalize sin (π * y) = sy at *
  generalize cos (π * y) = cy at *
  generalize sin (π * z) = sz at *
  generalize cos (π * z) = cz at *
  grind))

theorem grad_displacement2 : GradientAt displacement2 (displacementGradient2 x y z) x y z := by
  refine gradient2 (Fin.forall_fin_two.2 ⟨?_, ?_⟩) <;>
  exact ⟨⟨_, by simp only [displacement2, Matrix.cons_val]; derive, by simp only [displacementGradient2, Matrix.cons_val]; trig⟩,
    _, by simp only [displacement2, Matrix.cons_val]; derive, by simp only [displacementGradient2, Matrix.cons_val]; trig⟩

theorem grad_displacement3 : GradientAt displacement3 (displacementGradient3 x y z) x y z := by
  refine gradient3 (forall_three ⟨?_, ?_, ?_⟩) <;>
  exact ⟨⟨_, by simp only [displacement3, Matrix.cons_val]; derive, by simp only [displacementGradient3, Matrix.cons_val]; trig⟩,
    ⟨_, by simp only [displacement3, Matrix.cons_val]; derive, by simp only [displacementGradient3, Matrix.cons_val]; trig⟩,
    _, by simp only [displacement3, Matrix.cons_val]; derive, by simp only [displacementGradient3, Matrix.cons_val]; trig⟩

theorem div_stress2 : DivergenceAt (stress2 m) (stressDivergence2 m x y z) x y z := by
  refine divergence2 (Fin.forall_fin_two.2 ⟨?_, ?_⟩) <;>
  exact ⟨_, _, by simp only [stress2, Matrix.cons_val]; derive, by simp only [stress2, Matrix.cons_val]; derive,
    by simp only [stressDivergence2, Matrix.cons_val]; trig⟩

theorem div_stress3 : DivergenceAt (stress3 m) (stressDivergence3 m x y z) x y z := by
  refine divergence3 (forall_three ⟨?_, ?_, ?_⟩) <;>
  exact ⟨_, _, _, by simp only [stress3, Matrix.cons_val]; derive, by simp only [stress3, Matrix.cons_val]; derive, by simp only [stress3, Matrix.cons_val]; derive,
    by simp only [stressDivergence3, Matrix.cons_val]; trig⟩

theorem law_stress2 : ∀ i j, stress2 m x y z i j = hooke m.lambda m.mu m.kappa
    (fun i j => displacementGradient2 x y z i j + skew2 (rotation2 x y z 0) i j) i j := by
  refine Fin.forall_fin_two.2 ⟨Fin.forall_fin_two.2 ⟨?_, ?_⟩, Fin.forall_fin_two.2 ⟨?_, ?_⟩⟩ <;>
    simp [stress2, hooke, displacementGradient2, skew2, rotation2] <;> trig

theorem law_stress3 : ∀ i j, stress3 m x y z i j = hooke m.lambda m.mu m.kappa
    (fun i j => displacementGradient3 x y z i j + skew3 (rotation3 x y z) i j) i j := by
  refine forall_three ⟨forall_three ⟨?_, ?_, ?_⟩, forall_three ⟨?_, ?_, ?_⟩, forall_three ⟨?_, ?_, ?_⟩⟩ <;>
    simp [stress3, hooke, displacementGradient3, skew3, rotation3, Fin.sum_univ_three] <;> trig

theorem balance2 : rhs2 m x y z 0 = stressDivergence2 m x y z 0 ∧ rhs2 m x y z 1 = stressDivergence2 m x y z 1 ∧
    rhs2 m x y z 2 = coupleStressDivergence2 m x y z 0 - axial2 (stress2 m x y z) := by
  refine ⟨?_, ?_, ?_⟩ <;>
    simp only [rhs2, stressDivergence2, coupleStressDivergence2, axial2, stress2, Matrix.cons_val] <;> trig

theorem balance3 : (rhs3 m x y z 0 = stressDivergence3 m x y z 0 ∧ rhs3 m x y z 1 = stressDivergence3 m x y z 1 ∧
    rhs3 m x y z 2 = stressDivergence3 m x y z 2) ∧
    rhs3 m x y z 3 = coupleStressDivergence3 m x y z 0 - axial3 (stress3 m x y z) 0 ∧
    rhs3 m x y z 4 = coupleStressDivergence3 m x y z 1 - axial3 (stress3 m x y z) 1 ∧
    rhs3 m x y z 5 = coupleStressDivergence3 m x y z 2 - axial3 (stress3 m x y z) 2 := by
  refine ⟨⟨?_, ?_, ?_⟩, ?_, ?_, ?_⟩ <;>
    simp only [rhs3, stressDivergence3, coupleStressDivergence3, axial3, stress3, Matrix.cons_val] <;> trig

theorem grad_rotation2 : GradientAt rotation2 (fun _ => rotationGradient2 x y z) x y z := by
  refine gradient2 (Fin.forall_fin_one.2 ?_) <;>
  exact ⟨⟨_, by simp only [rotation2, Matrix.cons_val]; derive, by simp only [rotationGradient2, Matrix.cons_val]; ring⟩,
    _, by simp only [rotation2, Matrix.cons_val]; derive, by simp only [rotationGradient2, Matrix.cons_val]; ring⟩

theorem grad_rotation3 : GradientAt rotation3 (rotationGradient3 x y z) x y z := by
  refine gradient3 (forall_three ⟨?_, ?_, ?_⟩) <;>
  exact ⟨⟨_, by simp only [rotation3, Matrix.cons_val]; derive, by simp only [rotationGradient3, Matrix.cons_val]; ring⟩,
    ⟨_, by simp only [rotation3, Matrix.cons_val]; derive, by simp only [rotationGradient3, Matrix.cons_val]; ring⟩,
    _, by simp only [rotation3, Matrix.cons_val]; derive, by simp only [rotationGradient3, Matrix.cons_val]; ring⟩

theorem div_coupleStress2 : DivergenceAt (coupleStress2 m) (coupleStressDivergence2 m x y z) x y z := by
  refine divergence2 (Fin.forall_fin_one.2 ?_) <;>
  exact ⟨_, _, by simp only [coupleStress2, Matrix.cons_val]; derive, by simp only [coupleStress2, Matrix.cons_val]; derive,
    by simp only [coupleStressDivergence2, Matrix.cons_val]; ring⟩

theorem div_coupleStress3 : DivergenceAt (coupleStress3 m) (coupleStressDivergence3 m x y z) x y z := by
  refine divergence3 (forall_three ⟨?_, ?_, ?_⟩) <;>
  exact ⟨_, _, _, by simp only [coupleStress3, Matrix.cons_val]; derive, by simp only [coupleStress3, Matrix.cons_val]; derive, by simp only [coupleStress3, Matrix.cons_val]; derive,
    by simp only [coupleStressDivergence3, Matrix.cons_val]; ring⟩

theorem div_scaled_coupleStress2 :
    DivergenceAt (fun x y z i j => m.gamma * coupleStress2 m x y z i j) (coupleStressDivergenceScaled2 m x y z) x y z := by
  refine divergence2 (Fin.forall_fin_one.2 ?_) <;>
  exact ⟨_, _, by simp only [coupleStress2, Matrix.cons_val]; derive, by simp only [coupleStress2, Matrix.cons_val]; derive,
    by simp only [coupleStressDivergenceScaled2, Matrix.cons_val]; ring⟩

theorem div_scaled_coupleStress3 :
    DivergenceAt (fun x y z i j => m.gamma * coupleStress3 m x y z i j) (coupleStressDivergenceScaled3 m x y z) x y z := by
  refine divergence3 (forall_three ⟨?_, ?_, ?_⟩) <;>
  exact ⟨_, _, _, by simp only [coupleStress3, Matrix.cons_val]; derive, by simp only [coupleStress3, Matrix.cons_val]; derive, by simp only [coupleStress3, Matrix.cons_val]; derive,
    by simp only [coupleStressDivergenceScaled3, Matrix.cons_val]; ring⟩

theorem law_couple2 : ∀ i j, coupleStress2 m x y z i j = m.gamma * rotationGradient2 x y z j := by
  refine Fin.forall_fin_one.2 (Fin.forall_fin_two.2 ⟨?_, ?_⟩) <;>
    simp only [coupleStress2, rotationGradient2, Matrix.cons_val] <;> ring

theorem law_couple3 : ∀ i j, coupleStress3 m x y z i j = m.gamma * rotationGradient3 x y z i j := by
  refine forall_three ⟨forall_three ⟨?_, ?_, ?_⟩, forall_three ⟨?_, ?_, ?_⟩, forall_three ⟨?_, ?_, ?_⟩⟩ <;>
    simp only [coupleStress3, rotationGradient3, Matrix.cons_val] <;> ring

theorem solenoidal2 : displacementGradient2 x y z 0 0 + displacementGradient2 x y z 1 1 = 0 := by
  simp only [displacementGradient2, Matrix.cons_val]; ring

theorem solenoidal3 : displacementGradient3 x y z 0 0 + displacementGradient3 x y z 1 1 +
    displacementGradient3 x y z 2 2 = 0 := by
  simp only [displacementGradient3, Matrix.cons_val]; trig

end Verif.Strong.Cosserat2
