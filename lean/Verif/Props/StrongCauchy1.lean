/-
C105: the first exact solution of elasticity.
-/
import Verif.Lemmas.StrongCauchy1
import Mathlib.Tactic.NormNum

namespace Verif.Strong.Cauchy1
open Real

variable (lambda mu x y z : ℝ)

/-- C105: the displacement has a gradient everywhere, without divergence. -/
theorem C105_gradient : ∃ g : Fin 2 → Fin 2 → ℝ, GradientAt (displacement lambda mu) g x y z ∧ g 0 0 + g 1 1 = 0 :=
  ⟨_, grad_displacement lambda mu x y z, trace_gradient x y⟩

/-- C105: stress, rotation and pressure follow from the gradient of the displacement, for every first constant. -/
theorem C105_law (g : Fin 2 → Fin 2 → ℝ) (hg : GradientAt (displacement lambda mu) g x y z) (a : ℝ) :
    rotation lambda mu x y z 0 = (g 0 1 - g 1 0) / 2 ∧
    (∀ i j, stress lambda mu x y z i j = hooke a mu 0 g i j) ∧
    (∀ i j, stress lambda mu x y z i j =
      hooke a mu mu (fun i j => g i j + skew2 (rotation lambda mu x y z 0) i j) i j) ∧
    pressure lambda mu x y z 0 = (a + mu) * (g 0 0 + g 1 1) := by
  cases (grad_displacement lambda mu x y z).unique hg
  have hr : rotation lambda mu x y z 0 = (gradient x y 0 1 - gradient x y 1 0) / 2 := by
    simp only [rotation, gradient, Matrix.cons_val]; ring
  refine ⟨hr, fun i j => ?_, law_stress lambda mu x y z a, ?_⟩
  · rw [law_stress lambda mu x y z a, hr]
    revert i j
    refine Fin.forall_fin_two.2 ⟨Fin.forall_fin_two.2 ⟨?_, ?_⟩, Fin.forall_fin_two.2 ⟨?_, ?_⟩⟩ <;>
      simp [hooke, skew2] <;> ring
  · rw [trace_gradient, mul_zero]
    simp [pressure]

/-- C105: the divergence is that of the stress, the stress is symmetric, and the right-hand side is the balance. -/
theorem C105_balance : DivergenceAt (stress lambda mu) (stressDivergence lambda mu x y z) x y z ∧
    axial2 (stress lambda mu x y z) = 0 ∧
    rhs lambda mu x y z = ![stressDivergence lambda mu x y z 0, stressDivergence lambda mu x y z 1, 0] :=
  ⟨div_stress lambda mu x y z, sub_self _, rfl⟩

/-- C105: the displacement vanishes on the boundary of the unit square. -/
theorem C105_boundary (h : x = 0 ∨ x = 1 ∨ y = 0 ∨ y = 1) : displacement lambda mu x y z = 0 := by
  have hp : sin (2 * π) = 0 := sin_two_pi
  funext i
  revert i
  rcases h with rfl | rfl | rfl | rfl <;> exact Fin.forall_fin_two.2 (by simp [displacement])

/-- C105: the fields solve the primal form of C71, the form with a pressure of C74 and the mixed form of C81 for all
test fields, up to the divergence of a flux. -/
theorem C105_weak (g : Fin 2 → Fin 2 → ℝ) (hg : GradientAt (displacement lambda mu) g x y z) (v : Fin 2 → ℝ)
    (gv : Fin 2 → Fin 2 → ℝ) :
    Elasticity.elasticPower 2 mu lambda (mat g) (mat gv) +
        (v 0 * rhs lambda mu x y z 0 + v 1 * rhs lambda mu x y z 1) =
      workFlux (stress lambda mu x y z) (stressDivergence lambda mu x y z) v gv ∧
    (lambda + mu ≠ 0 → ∀ q, TaylorHood.mixedPower mu lambda (mat g) (pressure lambda mu x y z 0) (mat gv) q +
        (v 0 * rhs lambda mu x y z 0 + v 1 * rhs lambda mu x y z 1) =
      workFlux (stress lambda mu x y z) (stressDivergence lambda mu x y z) v gv) ∧
    (lambda + mu ≠ 0 → mu ≠ 0 → ∀ t : Dual.Fields ℝ, t.mom = (fun _ _ => 0) → t.dmom = (fun _ => 0) →
      Dual.dualPower false 2 (Dual.leCoeffs (fun _ _ => lambda) (fun _ _ => mu) (x, y, z) 0)
        ⟨mat (stress lambda mu x y z), vec (stressDivergence lambda mu x y z), fun _ _ => 0, fun _ => 0,
          vec (displacement lambda mu x y z), vec (rotation lambda mu x y z)⟩ t =
      stressFlux (displacement lambda mu x y z) g t + loadOf 2 1 (rhs lambda mu x y z) t) := by
  obtain ⟨-, -, hl, hp⟩ := C105_law lambda mu x y z g hg lambda
  obtain ⟨-, hs, hr⟩ := C105_balance lambda mu x y z
  refine ⟨primalLe2 hl hs ⟨rfl, rfl⟩ v gv, fun h q => taylorHood2 hl hs ⟨rfl, rfl⟩ hp h v gv q,
    fun h1 h2 t t1 t2 => ?_⟩
  exact mixedLe2 hl hs hr h2 h1 t t1 t2 (x, y, z) 0

/-- C105: in any other dimension every function raises `ValueError`. -/
theorem C105_dimension (dim : Nat) :
    (dim = 2 → displacementOf lambda mu dim = .ok (displacement lambda mu) ∧
      rotationOf lambda mu dim = .ok (rotation lambda mu) ∧ stressOf lambda mu dim = .ok (stress lambda mu) ∧
      pressureOf lambda mu dim = .ok (pressure lambda mu) ∧ rhsOf lambda mu dim = .ok (rhs lambda mu) ∧
      stressDivergenceOf lambda mu dim = .ok (stressDivergence lambda mu)) ∧
    (dim ≠ 2 → displacementOf lambda mu dim = .error .valueError ∧ rotationOf lambda mu dim = .error .valueError ∧
      stressOf lambda mu dim = .error .valueError ∧ pressureOf lambda mu dim = .error .valueError ∧
      rhsOf lambda mu dim = .error .valueError ∧ stressDivergenceOf lambda mu dim = .error .valueError) :=
  ⟨fun h => ⟨if_pos h, if_pos h, if_pos h, if_pos h, if_pos h, if_pos h⟩,
    fun h => ⟨if_neg h, if_neg h, if_neg h, if_neg h, if_neg h, if_neg h⟩⟩

/-- A point with values that are not zero, and constants that satisfy the conditions. -/
example : stress 1 1 (1 / 8) (1 / 8) 0 0 0 = 8 * π ^ 2 ∧ (1 : ℝ) + 1 ≠ 0 ∧ (1 : ℝ) ≠ 0 := by
  refine ⟨?_, by norm_num, one_ne_zero⟩
  have e : 4 * π * (1 / 8) = π / 2 := by ring
  simp only [stress, Matrix.cons_val, e, sin_pi_div_two, mul_one]

#print axioms C105_gradient
#print axioms C105_law
#print axioms C105_balance
#print axioms C105_boundary
#print axioms C105_weak
#print axioms C105_dimension

end Verif.Strong.Cauchy1
