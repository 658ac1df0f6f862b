/-
C107: an exact solution of Cosserat elasticity in the plane with a length that vanishes in a part of the domain.
-/
import Verif.Lemmas.StrongEcmor
import Mathlib.Tactic.NormNum

namespace Verif.Strong.Ecmor
open Real

variable (lambda mu kappa x y z : ℝ)

/-- C107: the length is that of C104, with its gradient away from the kinks. -/
theorem C107_length : gammaEval x y z = Cosserat3.gammaEval2 x y z ∧
    (0 ≤ gammaEval x y z ∧ gammaEval x y z ≤ 1) ∧ (gammaEval x y z = 0 ↔ x ≤ 1 / 3 ∧ y ≤ 1 / 3) ∧
    (gammaEval x y z = 1 ↔ 2 / 3 ≤ x ∨ 2 / 3 ≤ y) ∧
    (Smooth2 x y → GradientAt (fun x y z (_ : Fin 1) => gammaEval x y z) (fun _ => gradGammaEval x y z) x y z) := by
  refine ⟨by rw [gamma_eq], ?_, ?_, ?_, fun h => gradient2 fun _ => ⟨⟨_, gamma_dx h, rfl⟩, _, gamma_dy h, rfl⟩⟩
  · unfold gammaEval; grind
  · unfold gammaEval; grind
  · unfold gammaEval; grind

/-- C107: displacement and rotation have gradients everywhere and vanish on the boundary of the unit square. -/
theorem C107_gradients :
    (∃ g : Fin 2 → Fin 2 → ℝ, GradientAt (displacement lambda mu kappa) g x y z) ∧
    (∃ h : Fin 1 → Fin 2 → ℝ, GradientAt (rotation lambda mu kappa) h x y z) ∧
    ((x = 0 ∨ x = 1 ∨ y = 0 ∨ y = 1) →
      displacement lambda mu kappa x y z = 0 ∧ rotation lambda mu kappa x y z = 0) := by
  refine ⟨⟨_, grad_displacement lambda mu kappa x y z⟩, ⟨_, grad_rotation lambda mu kappa x y z⟩, ?_⟩
  have hp : sin (2 * π) = 0 := sin_two_pi
  rintro (rfl | rfl | rfl | rfl) <;>
    exact ⟨funext (Fin.forall_fin_two.2 (by simp [displacement])), funext (Fin.forall_fin_one.2 (by simp [rotation]))⟩

/-- C107: the stress follows the law of the material; the scaled couple stress is the gradient of the rotation times
the length, so the sum of the two constants of the couples is one. -/
theorem C107_laws (g : Fin 2 → Fin 2 → ℝ) (h : Fin 1 → Fin 2 → ℝ)
    (hg : GradientAt (displacement lambda mu kappa) g x y z) (hh : GradientAt (rotation lambda mu kappa) h x y z) :
    (∀ i j, stress lambda mu kappa x y z i j = hooke lambda mu kappa
      (fun i j => g i j + skew2 (rotation lambda mu kappa x y z 0) i j) i j) ∧
    ∀ i j, coupleStressScaled lambda mu kappa x y z i j = gammaEval x y z * h i j := by
  cases (grad_displacement lambda mu kappa x y z).unique hg
  cases (grad_rotation lambda mu kappa x y z).unique hh
  exact ⟨law_stress lambda mu kappa x y z, law_couple lambda mu kappa x y z⟩

/-- C107: the divergences are those of the stress and, away from the kinks, of the couple stress times the length; the
right-hand side is the balance of force and couple. -/
theorem C107_balance : DivergenceAt (stress lambda mu kappa) (stressDivergence lambda mu kappa x y z) x y z ∧
    (Smooth2 x y → DivergenceAt (fun x y z i j => gammaEval x y z * coupleStressScaled lambda mu kappa x y z i j)
      (coupleStressDivergenceScaled lambda mu kappa x y z) x y z) ∧
    rhsScaled lambda mu kappa x y z = ![stressDivergence lambda mu kappa x y z 0,
      stressDivergence lambda mu kappa x y z 1,
      coupleStressDivergenceScaled lambda mu kappa x y z 0 - axial2 (stress lambda mu kappa x y z)] :=
  ⟨div_stress lambda mu kappa x y z, div_couple lambda mu kappa, funext (forall_three (balance lambda mu kappa x y z))⟩

/-- C107: the fields solve the scaled mixed weak form of C78 at every point, also where the length is zero, for all
test fields and for constants of the couples with the sum one, up to the divergence of a flux. -/
theorem C107_weak (g : Fin 2 → Fin 2 → ℝ) (h : Fin 1 → Fin 2 → ℝ)
    (hg : GradientAt (displacement lambda mu kappa) g x y z) (hh : GradientAt (rotation lambda mu kappa) h x y z)
    (hm : mu ≠ 0) (hk : kappa ≠ 0) (ht : 2 * mu + (2 : Nat) * lambda ≠ 0) (lo muo ko : ℝ) (ho : muo + ko = 1)
    (t : Dual.Fields ℝ) :
    Dual.dualPower true 2 ⟨lambda, mu, kappa, lo, muo, ko, gammaEval x y z, vec (gradGammaEval x y z)⟩
        ⟨mat (stress lambda mu kappa x y z), vec (stressDivergence lambda mu kappa x y z),
          mat (coupleStressScaled lambda mu kappa x y z), vec (coupleStressDivergenceScaled lambda mu kappa x y z),
          vec (displacement lambda mu kappa x y z), vec (rotation lambda mu kappa x y z)⟩ t =
      fluxDivergence true (gammaEval x y z) (displacement lambda mu kappa x y z) g (rotation lambda mu kappa x y z) h t +
        loadOf 2 1 (rhsScaled lambda mu kappa x y z) t := by
  obtain ⟨h1, h2⟩ := C107_laws lambda mu kappa x y z g h hg hh
  refine weak2 (c := ⟨lambda, mu, kappa, lo, muo, ko, gammaEval x y z, vec (gradGammaEval x y z)⟩) hm hk ht
    (fun e => ?_) (.inl rfl) h1 (fun i j => ?_) (balance lambda mu kappa x y z) t
  · have e : muo + ko = 0 := e
    rw [ho] at e
    exact one_ne_zero e
  · show _ = gammaEval x y z * (ko + muo) * _
    rw [h2, add_comm ko, ho, mul_one]

/-- C107: in any other dimension every function raises `ValueError`. -/
theorem C107_dimension (dim : Nat) (hd : dim ≠ 2) : gammaOf dim = .error .valueError ∧
    gradGammaOf dim = .error .valueError ∧ displacementOf lambda mu kappa dim = .error .valueError ∧
    rotationOf lambda mu kappa dim = .error .valueError ∧ stressOf lambda mu kappa dim = .error .valueError ∧
    coupleStressScaledOf lambda mu kappa dim = .error .valueError ∧
    rhsScaledOf lambda mu kappa dim = .error .valueError ∧
    stressDivergenceOf lambda mu kappa dim = .error .valueError ∧
    coupleStressDivergenceScaledOf lambda mu kappa dim = .error .valueError :=
  ⟨if_neg hd, if_neg hd, if_neg hd, if_neg hd, if_neg hd, if_neg hd, if_neg hd, if_neg hd, if_neg hd⟩

/-- Points of the three parts away from the kinks, and constants that satisfy the conditions. -/
example : Smooth2 (1 / 4) (1 / 4) ∧ Smooth2 (1 / 2) (1 / 4) ∧ Smooth2 (3 / 4) (3 / 4) ∧
    coupleStressScaled 1 1 1 (1 / 4) (3 / 4) 0 0 0 = 3 / 32 ∧ gammaEval (1 / 4) (1 / 4) 0 = 0 ∧
    (1 : ℝ) ≠ 0 ∧ 2 * (1 : ℝ) + (2 : Nat) * 1 ≠ 0 ∧ (1 / 2 : ℝ) + 1 / 2 = 1 := by
  refine ⟨?_, ?_, ?_, ?_, ?_, one_ne_zero, by norm_num, by norm_num⟩
  · left; norm_num
  · right; right; norm_num
  · right; left; norm_num
  · norm_num [coupleStressScaled, gammaEval]
  · norm_num [gammaEval]

#print axioms C107_length
#print axioms C107_gradients
#print axioms C107_laws
#print axioms C107_balance
#print axioms C107_weak
#print axioms C107_dimension

end Verif.Strong.Ecmor
