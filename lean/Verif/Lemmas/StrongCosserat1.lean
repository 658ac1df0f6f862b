/-
Proofs on the first exact solution of Cosserat elasticity, C102: the parts that need derivatives.
-/
import Verif.Model.StrongCosserat1
import Verif.Lemmas.Strong

namespace Verif.Strong.Cosserat1
open Real

variable (m : Material) (x y z : ℝ)

theorem grad_displacement2 : GradientAt displacement2 (displacementGradient2 x y z) x y z := by
  refine gradient2 (Fin.forall_fin_two.2 ⟨?_, ?_⟩) <;>
  exact ⟨⟨_, by simp only [displacement2, Matrix.cons_val]; derive, by simp only [displacementGradient2, Matrix.cons_val]; ring⟩,
    _, by simp only [displacement2, Matrix.cons_val]; derive, by simp only [displacementGradient2, Matrix.cons_val]; ring⟩

theorem grad_displacement3 : GradientAt displacement3 (displacementGradient3 x y z) x y z := by
  refine gradient3 (forall_three ⟨?_, ?_, ?_⟩) <;>
  exact ⟨⟨_, by simp only [displacement3, Matrix.cons_val]; derive, by simp only [displacementGradient3, Matrix.cons_val]; ring⟩,
    ⟨_, by simp only [displacement3, Matrix.cons_val]; derive, by simp only [displacementGradient3, Matrix.cons_val]; ring⟩,
    _, by simp only [displacement3, Matrix.cons_val]; derive, by simp only [displacementGradient3, Matrix.cons_val]; ring⟩

theorem grad_rotation2 : GradientAt rotation2 (fun _ => rotationGradient2 x y z) x y z := by
  refine gradient2 (Fin.forall_fin_one.2 ?_) <;>
  exact ⟨⟨_, by simp only [rotation2, Matrix.cons_val]; derive, by simp only [rotationGradient2, Matrix.cons_val]; ring⟩,
    _, by simp only [rotation2, Matrix.cons_val]; derive, by simp only [rotationGradient2, Matrix.cons_val]; ring⟩

theorem grad_rotation3 : GradientAt rotation3 (rotationGradient3 x y z) x y z := by
  refine gradient3 (forall_three ⟨?_, ?_, ?_⟩) <;>
  exact ⟨⟨_, by simp only [rotation3, Matrix.cons_val]; derive, by simp only [rotationGradient3, Matrix.cons_val]; ring⟩,
    ⟨_, by simp only [rotation3, Matrix.cons_val]; derive, by simp only [rotationGradient3, Matrix.cons_val]; ring⟩,
    _, by simp only [rotation3, Matrix.cons_val]; derive, by simp only [rotationGradient3, Matrix.cons_val]; ring⟩

theorem div_stress2 : DivergenceAt (stress2 m) (stressDivergence2 m x y z) x y z := by
  refine divergence2 (Fin.forall_fin_two.2 ⟨?_, ?_⟩) <;>
  exact ⟨_, _, by simp only [stress2, Matrix.cons_val]; derive, by simp only [stress2, Matrix.cons_val]; derive,
    by simp only [stressDivergence2, Matrix.cons_val]; ring⟩

theorem div_stress3 : DivergenceAt (stress3 m) (stressDivergence3 m x y z) x y z := by
  refine divergence3 (forall_three ⟨?_, ?_, ?_⟩) <;>
  exact ⟨_, _, _, by simp only [stress3, Matrix.cons_val]; derive, by simp only [stress3, Matrix.cons_val]; derive, by simp only [stress3, Matrix.cons_val]; derive,
    by simp only [stressDivergence3, Matrix.cons_val]; ring⟩

theorem div_coupleStress2 : DivergenceAt (coupleStress2 m) (coupleStressDivergence2 m x y z) x y z := by
  refine divergence2 (Fin.forall_fin_one.2 ?_) <;>
  exact ⟨_, _, by simp only [coupleStress2, Matrix.cons_val]; derive, by simp only [coupleStress2, Matrix.cons_val]; derive,
    by simp only [coupleStressDivergence2, Matrix.cons_val]; ring⟩

theorem div_coupleStress3 : DivergenceAt (coupleStress3 m) (coupleStressDivergence3 m x y z) x y z := by
  refine divergence3 (forall_three ⟨?_, ?_, ?_⟩) <;>
  exact ⟨_, _, _, by simp only [coupleStress3, Matrix.cons_val]; derive, by simp only [coupleStress3, Matrix.cons_val]; derive, by simp only [coupleStress3, Matrix.cons_val]; derive,
    by simp only [coupleStressDivergence3, Matrix.cons_val]; ring⟩

theorem div_coupleStressScaled2 :
    DivergenceAt (fun x y z i j => m.l * coupleStressScaled2 m x y z i j) (coupleStressDivergenceScaled2 m x y z) x y z := by
  refine divergence2 (Fin.forall_fin_one.2 ?_) <;>
  exact ⟨_, _, by simp only [coupleStressScaled2, Matrix.cons_val]; derive, by simp only [coupleStressScaled2, Matrix.cons_val]; derive,
    by simp only [coupleStressDivergenceScaled2, Matrix.cons_val]; ring⟩

theorem div_coupleStressScaled3 :
    DivergenceAt (fun x y z i j => m.l * coupleStressScaled3 m x y z i j) (coupleStressDivergenceScaled3 m x y z) x y z := by
  refine divergence3 (forall_three ⟨?_, ?_, ?_⟩) <;>
  exact ⟨_, _, _, by simp only [coupleStressScaled3, Matrix.cons_val]; derive, by simp only [coupleStressScaled3, Matrix.cons_val]; derive, by simp only [coupleStressScaled3, Matrix.cons_val]; derive,
    by simp only [coupleStressDivergenceScaled3, Matrix.cons_val]; ring⟩

theorem law_stress2 : ∀ i j, stress2 m x y z i j = hooke m.lambda m.mu m.kappa
    (fun i j => displacementGradient2 x y z i j + skew2 (rotation2 x y z 0) i j) i j := by
  refine Fin.forall_fin_two.2 ⟨Fin.forall_fin_two.2 ⟨?_, ?_⟩, Fin.forall_fin_two.2 ⟨?_, ?_⟩⟩ <;>
    simp [stress2, hooke, displacementGradient2, skew2, rotation2] <;> ring

theorem law_stress3 : ∀ i j, stress3 m x y z i j = hooke m.lambda m.mu m.kappa
    (fun i j => displacementGradient3 x y z i j + skew3 (rotation3 x y z) i j) i j := by
  refine forall_three ⟨forall_three ⟨?_, ?_, ?_⟩, forall_three ⟨?_, ?_, ?_⟩, forall_three ⟨?_, ?_, ?_⟩⟩ <;>
    simp [stress3, hooke, displacementGradient3, skew3, rotation3, Fin.sum_univ_three] <;> ring

theorem law_couple2 : ∀ i j, coupleStress2 m x y z i j = m.l * (m.kappaO + m.muO) * rotationGradient2 x y z j := by
  refine Fin.forall_fin_one.2 (Fin.forall_fin_two.2 ⟨?_, ?_⟩) <;> simp [coupleStress2, rotationGradient2] <;> ring

theorem law_couple3 : ∀ i j, coupleStress3 m x y z i j = hooke m.lambdaO m.muO m.kappaO
    (fun i j => m.l * rotationGradient3 x y z i j) i j := by
  refine forall_three ⟨forall_three ⟨?_, ?_, ?_⟩, forall_three ⟨?_, ?_, ?_⟩, forall_three ⟨?_, ?_, ?_⟩⟩ <;>
    simp [coupleStress3, hooke, rotationGradient3, Fin.sum_univ_three] <;> ring

theorem scaled_couple2 : coupleStressScaled2 m x y z = coupleStress2 m x y z := rfl

theorem scaled_couple3 : coupleStressScaled3 m x y z = coupleStress3 m x y z := rfl

theorem balance2 : rhs2 m x y z 0 = stressDivergence2 m x y z 0 ∧ rhs2 m x y z 1 = stressDivergence2 m x y z 1 ∧
    rhs2 m x y z 2 = coupleStressDivergence2 m x y z 0 - axial2 (stress2 m x y z) := by
  refine ⟨?_, ?_, ?_⟩ <;> simp [rhs2, stressDivergence2, coupleStressDivergence2, axial2, stress2] <;> ring

theorem balanceScaled2 : rhsScaled2 m x y z 0 = stressDivergence2 m x y z 0 ∧
    rhsScaled2 m x y z 1 = stressDivergence2 m x y z 1 ∧
    rhsScaled2 m x y z 2 = coupleStressDivergenceScaled2 m x y z 0 - axial2 (stress2 m x y z) := by
  refine ⟨?_, ?_, ?_⟩ <;> simp [rhsScaled2, stressDivergence2, coupleStressDivergenceScaled2, axial2, stress2] <;> ring

theorem balance3 : (rhs3 m x y z 0 = stressDivergence3 m x y z 0 ∧ rhs3 m x y z 1 = stressDivergence3 m x y z 1 ∧
    rhs3 m x y z 2 = stressDivergence3 m x y z 2) ∧
    rhs3 m x y z 3 = coupleStressDivergence3 m x y z 0 - axial3 (stress3 m x y z) 0 ∧
    rhs3 m x y z 4 = coupleStressDivergence3 m x y z 1 - axial3 (stress3 m x y z) 1 ∧
    rhs3 m x y z 5 = coupleStressDivergence3 m x y z 2 - axial3 (stress3 m x y z) 2 := by
  refine ⟨⟨?_, ?_, ?_⟩, ?_, ?_, ?_⟩ <;> simp [rhs3, stressDivergence3, coupleStressDivergence3, axial3, stress3] <;> ring

theorem balanceScaled3 : (rhsScaled3 m x y z 0 = stressDivergence3 m x y z 0 ∧
    rhsScaled3 m x y z 1 = stressDivergence3 m x y z 1 ∧ rhsScaled3 m x y z 2 = stressDivergence3 m x y z 2) ∧
    rhsScaled3 m x y z 3 = coupleStressDivergenceScaled3 m x y z 0 - axial3 (stress3 m x y z) 0 ∧
    rhsScaled3 m x y z 4 = coupleStressDivergenceScaled3 m x y z 1 - axial3 (stress3 m x y z) 1 ∧
    rhsScaled3 m x y z 5 = coupleStressDivergenceScaled3 m x y z 2 - axial3 (stress3 m x y z) 2 := by
  refine ⟨⟨?_, ?_, ?_⟩, ?_, ?_, ?_⟩ <;>
    simp [rhsScaled3, stressDivergence3, coupleStressDivergenceScaled3, axial3, stress3] <;> ring

end Verif.Strong.Cosserat1
