/-
Lemmas on exact solutions: derivatives are found by the rules, then compared.
-/
import Verif.Spec.Strong
import Mathlib.Analysis.SpecialFunctions.Trigonometric.Deriv
import Mathlib.Analysis.Calculus.Deriv.Pow
import Mathlib.Tactic.Ring
import Mathlib.Tactic.FinCases

namespace Verif.Strong

/-- Find the derivative of a function that is built from the rules. -/
macro "derive" : tactic => `(tactic| repeat' first
  | with_reducible exact hasDerivAt_const _ _
  | with_reducible exact hasDerivAt_id' _
  | with_reducible apply HasDerivAt.fun_add
  | with_reducible apply HasDerivAt.fun_sub
  | with_reducible apply HasDerivAt.fun_mul
  | with_reducible apply HasDerivAt.fun_neg
  | with_reducible apply HasDerivAt.div_const
  | with_reducible apply HasDerivAt.fun_pow
  | with_reducible apply HasDerivAt.sin
  | with_reducible apply HasDerivAt.cos)

theorem forall_three {p : Fin 3 → Prop} (h : p 0 ∧ p 1 ∧ p 2) : ∀ i, p i := by
  intro i
  match i with
  | 0 => exact h.1
  | 1 => exact h.2.1
  | 2 => exact h.2.2

variable {m : Nat} {x y z : ℝ}

theorem gradient2 {u : ℝ → ℝ → ℝ → Fin m → ℝ} {g : Fin m → Fin 2 → ℝ}
    (h : ∀ i, (∃ a, HasDerivAt (fun t => u t y z i) a x ∧ g i 0 = a) ∧
      ∃ b, HasDerivAt (fun t => u x t z i) b y ∧ g i 1 = b) : GradientAt u g x y z := by
  intro i j
  obtain ⟨⟨a, ha, h0⟩, b, hb, h1⟩ := h i
  match j with
  | 0 => rw [h0]; exact ha
  | 1 => rw [h1]; exact hb

theorem gradient3 {u : ℝ → ℝ → ℝ → Fin m → ℝ} {g : Fin m → Fin 3 → ℝ}
    (h : ∀ i, (∃ a, HasDerivAt (fun t => u t y z i) a x ∧ g i 0 = a) ∧
      (∃ b, HasDerivAt (fun t => u x t z i) b y ∧ g i 1 = b) ∧
      ∃ c, HasDerivAt (fun t => u x y t i) c z ∧ g i 2 = c) : GradientAt u g x y z := by
  intro i j
  obtain ⟨⟨a, ha, h0⟩, ⟨b, hb, h1⟩, c, hc, h2⟩ := h i
  match j with
  | 0 => rw [h0]; exact ha
  | 1 => rw [h1]; exact hb
  | 2 => rw [h2]; exact hc

theorem divergence2 {s : ℝ → ℝ → ℝ → Fin m → Fin 2 → ℝ} {d : Fin m → ℝ}
    (h : ∀ i, ∃ a b, HasDerivAt (fun t => s t y z i 0) a x ∧ HasDerivAt (fun t => s x t z i 1) b y ∧ d i = a + b) :
    DivergenceAt s d x y z := by
  intro i
  obtain ⟨a, b, ha, hb, hd⟩ := h i
  refine ⟨![a, b], fun j => ?_, by rw [hd, Fin.sum_univ_two]; rfl⟩
  match j with
  | 0 => exact ha
  | 1 => exact hb

theorem divergence3 {s : ℝ → ℝ → ℝ → Fin m → Fin 3 → ℝ} {d : Fin m → ℝ}
    (h : ∀ i, ∃ a b c, HasDerivAt (fun t => s t y z i 0) a x ∧ HasDerivAt (fun t => s x t z i 1) b y ∧
      HasDerivAt (fun t => s x y t i 2) c z ∧ d i = a + b + c) : DivergenceAt s d x y z := by
  intro i
  obtain ⟨a, b, c, ha, hb, hc, hd⟩ := h i
  refine ⟨![a, b, c], fun j => ?_, by rw [hd, Fin.sum_univ_three]; rfl⟩
  match j with
  | 0 => exact ha
  | 1 => exact hb
  | 2 => exact hc

end Verif.Strong
