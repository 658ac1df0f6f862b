/-
Proofs on the exact solution of Cosserat elasticity in the plane, C107.
-/
import Verif.Model.StrongEcmor
import Verif.Lemmas.StrongCosserat3
import Verif.Lemmas.StrongCauchy

namespace Verif.Strong.Ecmor
open Real

variable (lambda mu kappa : ℝ) {x y z : ℝ}

theorem gamma_eq : gammaEval = Cosserat3.gammaEval2 := by
  funext x y z
  unfold gammaEval Cosserat3.gammaEval2
  rw [max_sub_sub_right]

theorem grad_gamma_eq : gradGammaEval = Cosserat3.gradGammaEval2 := rfl

theorem gamma_dx (h : Smooth2 x y) : HasDerivAt (fun t => gammaEval t y z) (gradGammaEval x y z 0) x := by
  rw [gamma_eq]; exact Cosserat3.gamma2_dx h

theorem gamma_dy (h : Smooth2 x y) : HasDerivAt (fun t => gammaEval x t z) (gradGammaEval x y z 1) y := by
  rw [gamma_eq]; exact Cosserat3.gamma2_dy h

/-- The gradient of the displacement, which the code does not have. -/
noncomputable def gradient (x y : ℝ) : Fin 2 → Fin 2 → ℝ :=
  ![![2 * π * ((1 - y) * y) * cos (2 * π * x), (1 - 2 * y) * sin (2 * π * x)],
    ![(1 - 2 * x) * sin (2 * π * y), 2 * π * ((1 - x) * x) * cos (2 * π * y)]]

/-- The gradient of the rotation, which the code does not have. -/
noncomputable def rotationGradient (x y : ℝ) : Fin 1 → Fin 2 → ℝ :=
  ![![(1 - 2 * x) * ((1 - y) * y), (1 - x) * x * (1 - 2 * y)]]

theorem grad_displacement (x y z : ℝ) : GradientAt (displacement lambda mu kappa) (gradient x y) x y z := by
  refine gradient2 (Fin.forall_fin_two.2 ⟨?_, ?_⟩) <;>
  exact ⟨⟨_, by simp only [displacement, Matrix.cons_val]; derive, by simp only [gradient, Matrix.cons_val]; ring⟩,
    _, by simp only [displacement, Matrix.cons_val]; derive, by simp only [gradient, Matrix.cons_val]; ring⟩

theorem grad_rotation (x y z : ℝ) : GradientAt (rotation lambda mu kappa) (rotationGradient x y) x y z := by
  refine gradient2 (Fin.forall_fin_one.2 ?_) <;>
  exact ⟨⟨_, by simp only [rotation, Matrix.cons_val]; derive, by simp only [rotationGradient, Matrix.cons_val]; ring⟩,
    _, by simp only [rotation, Matrix.cons_val]; derive, by simp only [rotationGradient, Matrix.cons_val]; ring⟩

theorem div_stress (x y z : ℝ) :
    DivergenceAt (stress lambda mu kappa) (stressDivergence lambda mu kappa x y z) x y z := by
  refine divergence2 (Fin.forall_fin_two.2 ⟨?_, ?_⟩) <;>
  exact ⟨_, _, by simp only [stress, Matrix.cons_val]; derive, by simp only [stress, Matrix.cons_val]; derive,
    by simp only [stressDivergence, Matrix.cons_val]; ring⟩

theorem div_couple (h : Smooth2 x y) :
    DivergenceAt (fun x y z i j => gammaEval x y z * coupleStressScaled lambda mu kappa x y z i j)
      (coupleStressDivergenceScaled lambda mu kappa x y z) x y z := by
  refine divergence2 (Fin.forall_fin_one.2 ?_) <;>
  exact ⟨_, _, by simp only [coupleStressScaled, Matrix.cons_val]; derive; all_goals exact gamma_dx h,
    by simp only [coupleStressScaled, Matrix.cons_val]; derive; all_goals exact gamma_dy h,
    by simp only [coupleStressDivergenceScaled, Matrix.cons_val]; ring⟩

theorem law_stress (x y z : ℝ) : ∀ i j, stress lambda mu kappa x y z i j = hooke lambda mu kappa
    (fun i j => gradient x y i j + skew2 (rotation lambda mu kappa x y z 0) i j) i j := by
  refine Fin.forall_fin_two.2 ⟨Fin.forall_fin_two.2 ⟨?_, ?_⟩, Fin.forall_fin_two.2 ⟨?_, ?_⟩⟩ <;>
    simp [stress, hooke, gradient, skew2, rotation] <;> ring

theorem law_couple (x y z : ℝ) : ∀ i j,
    coupleStressScaled lambda mu kappa x y z i j = gammaEval x y z * rotationGradient x y i j := by
  refine Fin.forall_fin_one.2 (Fin.forall_fin_two.2 ⟨?_, ?_⟩) <;>
    simp only [coupleStressScaled, rotationGradient, Matrix.cons_val] <;> ring

theorem balance (x y z : ℝ) :
    rhsScaled lambda mu kappa x y z 0 = stressDivergence lambda mu kappa x y z 0 ∧
    rhsScaled lambda mu kappa x y z 1 = stressDivergence lambda mu kappa x y z 1 ∧
    rhsScaled lambda mu kappa x y z 2 = coupleStressDivergenceScaled lambda mu kappa x y z 0 -
      axial2 (stress lambda mu kappa x y z) := by
  refine ⟨rfl, rfl, ?_⟩
  simp only [rhsScaled, coupleStressDivergenceScaled, axial2, stress, Matrix.cons_val]
  ring

end Verif.Strong.Ecmor
