/-
Proofs on the first exact solution of elasticity, C105.
-/
import Verif.Model.StrongCauchy1
import Verif.Lemmas.StrongCauchy

namespace Verif.Strong.Cauchy1
open Real

variable (lambda mu x y z : ℝ)

theorem sin4 (a : ℝ) : sin (4 * π * a) = 2 * sin (2 * π * a) * cos (2 * π * a) := by
  rw [← sin_two_mul]; congr 1; ring

theorem cos4 (a : ℝ) : cos (4 * π * a) = 2 * cos (2 * π * a) ^ 2 - 1 := by
  rw [← cos_two_mul]; congr 1; ring

local macro "trig" : tactic => `(tactic| (
  try simp only [sin4, cos4]
  have hx := sin_sq_add_cos_sq (2 * π * x)
  have hy := sin_sq_add_cos_sq (2 * π * y)
  generalize sin (2 * π * x) = sx at *
  generalize cos (2 * π * x) = cx at *
  generalize sin (2 * π * y) = sy at *
  generalize cos (2 * π * y) = cy at *
  grind))

/-- The gradient of the displacement, which the code does not have. -/
noncomputable def gradient : Fin 2 → Fin 2 → ℝ :=
  ![![16 * π ^ 2 * sin (2 * π * x) * cos (2 * π * x) * sin (2 * π * y) * cos (2 * π * y),
      8 * π ^ 2 * sin (2 * π * x) ^ 2 * (cos (2 * π * y) ^ 2 - sin (2 * π * y) ^ 2)],
    ![-8 * π ^ 2 * (cos (2 * π * x) ^ 2 - sin (2 * π * x) ^ 2) * sin (2 * π * y) ^ 2,
      -16 * π ^ 2 * cos (2 * π * x) * sin (2 * π * x) * sin (2 * π * y) * cos (2 * π * y)]]

theorem grad_displacement : GradientAt (displacement lambda mu) (gradient x y) x y z := by
  refine gradient2 (Fin.forall_fin_two.2 ⟨?_, ?_⟩) <;>
  exact ⟨⟨_, by simp only [displacement, Matrix.cons_val]; derive, by simp only [gradient, Matrix.cons_val]; trig⟩,
    _, by simp only [displacement, Matrix.cons_val]; derive, by simp only [gradient, Matrix.cons_val]; trig⟩

theorem div_stress : DivergenceAt (stress lambda mu) (stressDivergence lambda mu x y z) x y z := by
  refine divergence2 (Fin.forall_fin_two.2 ⟨?_, ?_⟩) <;>
  exact ⟨_, _, by simp only [stress, Matrix.cons_val]; derive, by simp only [stress, Matrix.cons_val]; derive,
    by simp only [stressDivergence, Matrix.cons_val]; trig⟩

theorem law_stress (a : ℝ) : ∀ i j, stress lambda mu x y z i j = hooke a mu mu
    (fun i j => gradient x y i j + skew2 (rotation lambda mu x y z 0) i j) i j := by
  refine Fin.forall_fin_two.2 ⟨Fin.forall_fin_two.2 ⟨?_, ?_⟩, Fin.forall_fin_two.2 ⟨?_, ?_⟩⟩ <;>
    simp [stress, hooke, gradient, skew2, rotation] <;> trig

theorem trace_gradient : gradient x y 0 0 + gradient x y 1 1 = 0 := by
  simp only [gradient, Matrix.cons_val]; ring

end Verif.Strong.Cauchy1
