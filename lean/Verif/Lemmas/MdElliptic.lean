/-
Lemmas for C109: derivatives of the exact solution.
-/
import Verif.Model.MdElliptic
import Verif.Lemmas.Strong
import Mathlib.Tactic.FieldSimp

namespace Verif.Strong.MdElliptic
open Real

theorem pF_deriv (x y z : ℝ) : HasDerivAt (fun t => pF t y z) (gradPF x y z) x := by
  have : ∃ a, HasDerivAt (fun t => sin (2 * π * t)) a x ∧ a = 2 * π * cos (2 * π * x) := by
    refine ⟨_, by derive, ?_⟩
    ring
  obtain ⟨a, h, rfl⟩ := this
  exact h

theorem gradPF_deriv (x y z : ℝ) : HasDerivAt (fun t => gradPF t y z) (-(4 * π ^ 2 * pF x y z)) x := by
  have : ∃ a, HasDerivAt (fun t => 2 * π * cos (2 * π * t)) a x ∧ a = -(4 * π ^ 2 * sin (2 * π * x)) := by
    refine ⟨_, by derive, ?_⟩
    ring
  obtain ⟨a, h, rfl⟩ := this
  exact h

theorem below_deriv (c p y : ℝ) : HasDerivAt (fun t => (c * (0.5 - t) + 1) * p) (-c * p) y :=
  (((((hasDerivAt_id' y).const_sub 0.5).const_mul c).add_const 1).mul_const p).congr_deriv (by ring)

theorem above_deriv (c p y : ℝ) : HasDerivAt (fun t => (c * (t - 0.5) + 1) * p) (c * p) y :=
  (((((hasDerivAt_id' y).sub_const 0.5).const_mul c).add_const 1).mul_const p).congr_deriv (by ring)

end Verif.Strong.MdElliptic
