/-
Proofs on the second exact solution of elasticity, C106.
-/
import Verif.Model.StrongCauchy2
import Verif.Lemmas.StrongCauchy

namespace Verif.Strong.Cauchy2
open Real Filter Topology

variable (lambda mu kappa : ℝ) {x y z : ℝ}

theorem xi_cases (x y z : ℝ) : xi kappa x y z = if min x y > 1 / 2 then kappa else 1 := by
  unfold xi chi
  split_ifs <;> ring

theorem xi_ne (h : kappa ≠ 0) (x y z : ℝ) : xi kappa x y z ≠ 0 := by
  rw [xi_cases]
  split_ifs
  · exact h
  · exact one_ne_zero

theorem xi_near {f : ℝ → ℝ} {a : ℝ} (hf : ContinuousAt f a) (h : f a ≠ 1 / 2) :
    ∀ᶠ t in 𝓝 a, (if f t > 1 / 2 then kappa else 1) = if f a > 1 / 2 then kappa else 1 := by
  rcases lt_or_gt_of_ne h with h | h
  · filter_upwards [hf.eventually_lt continuousAt_const h] with t ht
    rw [if_neg (not_lt.2 ht.le), if_neg (not_lt.2 h.le)]
  · filter_upwards [continuousAt_const.eventually_lt hf h] with t ht
    rw [if_pos ht, if_pos h]

theorem xi_x (h : min x y ≠ 1 / 2) : ∀ᶠ t in 𝓝 x, xi kappa t y z = xi kappa x y z := by
  simp only [xi_cases]
  exact xi_near (f := fun t => min t y) kappa (by fun_prop) h

theorem xi_y (h : min x y ≠ 1 / 2) : ∀ᶠ t in 𝓝 y, xi kappa x t z = xi kappa x y z := by
  simp only [xi_cases]
  exact xi_near (f := fun t => min x t) kappa (by fun_prop) h

/-- The displacement times `xi` -/
noncomputable def scaled (x y : ℝ) : Fin 2 → ℝ :=
  ![(1 / 2 - y) * (1 - y) * y * sin (2 * π * x), (1 / 2 - x) * (1 - x) * x * sin (2 * π * y)]

theorem displacement_eq (x y z : ℝ) (i : Fin 2) :
    displacement lambda mu kappa x y z i = scaled x y i / xi kappa x y z := by
  revert i
  exact Fin.forall_fin_two.2 ⟨rfl, rfl⟩

/-- The gradient of the displacement times `xi`, which the code does not have. -/
noncomputable def gradient (x y : ℝ) : Fin 2 → Fin 2 → ℝ :=
  ![![2 * π * ((1 / 2 - y) * (1 - y) * y) * cos (2 * π * x), (1 / 2 - 3 * y + 3 * y ^ 2) * sin (2 * π * x)],
    ![(1 / 2 - 3 * x + 3 * x ^ 2) * sin (2 * π * y), 2 * π * ((1 / 2 - x) * (1 - x) * x) * cos (2 * π * y)]]

theorem grad_scaled (x y z : ℝ) : GradientAt (fun x y _ => scaled x y) (gradient x y) x y z := by
  refine gradient2 (Fin.forall_fin_two.2 ⟨?_, ?_⟩) <;>
  exact ⟨⟨_, by simp only [scaled, Matrix.cons_val]; derive, by simp only [gradient, Matrix.cons_val]; ring⟩,
    _, by simp only [scaled, Matrix.cons_val]; derive, by simp only [gradient, Matrix.cons_val]; ring⟩

theorem grad_displacement (h : min x y ≠ 1 / 2) :
    GradientAt (displacement lambda mu kappa) (fun i j => gradient x y i j / xi kappa x y z) x y z := by
  have hs := grad_scaled x y z
  refine gradient2 fun i => ⟨⟨_, ?_, rfl⟩, _, ?_, rfl⟩
  · refine ((hs i 0).div_const (xi kappa x y z)).congr_of_eventuallyEq ?_
    filter_upwards [xi_x kappa (z := z) h] with t ht
    rw [displacement_eq, ht]
  · refine ((hs i 1).div_const (xi kappa x y z)).congr_of_eventuallyEq ?_
    filter_upwards [xi_y kappa (z := z) h] with t ht
    rw [displacement_eq, ht]

theorem div_stress (x y z : ℝ) :
    DivergenceAt (stress lambda mu kappa) (stressDivergence lambda mu kappa x y z) x y z := by
  refine divergence2 (Fin.forall_fin_two.2 ⟨?_, ?_⟩) <;>
  exact ⟨_, _, by simp only [stress, Matrix.cons_val]; derive, by simp only [stress, Matrix.cons_val]; derive,
    by simp only [stressDivergence, Matrix.cons_val]; ring⟩

theorem law_stress (hk : kappa ≠ 0) (x y z : ℝ) : ∀ i j, stress lambda mu kappa x y z i j =
    hooke (xi kappa x y z) (xi kappa x y z) (xi kappa x y z)
      (fun i j => gradient x y i j / xi kappa x y z + skew2 (rotation lambda mu kappa x y z 0) i j) i j := by
  have h := xi_ne kappa hk x y z
  refine Fin.forall_fin_two.2 ⟨Fin.forall_fin_two.2 ⟨?_, ?_⟩, Fin.forall_fin_two.2 ⟨?_, ?_⟩⟩ <;>
    simp [stress, hooke, gradient, skew2, rotation] <;> field_simp <;> ring

theorem pressure_eq (hk : kappa ≠ 0) (x y z : ℝ) : pressure lambda mu kappa x y z 0 =
    (xi kappa x y z + xi kappa x y z) * (gradient x y 0 0 / xi kappa x y z + gradient x y 1 1 / xi kappa x y z) := by
  have h := xi_ne kappa hk x y z
  simp only [pressure, gradient, Matrix.cons_val]
  field_simp
  ring

/-- The displacement is zero on the interface. -/
theorem interface (h : min x y = 1 / 2) (i : Fin 2) : scaled x y i = 0 := by
  have hc : x = 1 / 2 ∨ y = 1 / 2 := by
    rcases min_choice x y with h' | h'
    · left; rw [← h', h]
    · right; rw [← h', h]
  have hp : (2 : ℝ) * π * 2⁻¹ = π := by ring
  revert i
  rcases hc with h | h <;> refine Fin.forall_fin_two.2 ⟨?_, ?_⟩ <;> simp [scaled, h, hp]

theorem continuous_displacement (hk : kappa ≠ 0) (i : Fin 2) :
    Continuous fun p : ℝ × ℝ × ℝ => displacement lambda mu kappa p.1 p.2.1 p.2.2 i := by
  have e : (fun p : ℝ × ℝ × ℝ => displacement lambda mu kappa p.1 p.2.1 p.2.2 i) =
      fun p => if min p.1 p.2.1 ≤ 1 / 2 then scaled p.1 p.2.1 i else scaled p.1 p.2.1 i / kappa := by
    funext p
    rw [displacement_eq, xi_cases]
    by_cases h : min p.1 p.2.1 ≤ 1 / 2
    · rw [if_pos h, if_neg (not_lt.2 h), div_one]
    · rw [if_neg h, if_pos (not_le.1 h)]
  rw [e]
  have hs : Continuous fun p : ℝ × ℝ × ℝ => scaled p.1 p.2.1 i := by
    revert i
    refine Fin.forall_fin_two.2 ⟨?_, ?_⟩ <;> simp only [scaled, Matrix.cons_val] <;> fun_prop
  refine Continuous.if_le hs (hs.div_const kappa) (by fun_prop) continuous_const ?_
  intro p hp
  rw [interface hp i, zero_div]

end Verif.Strong.Cauchy2
