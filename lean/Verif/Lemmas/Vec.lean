/-
Lemmas on vectors with three components.
-/
import Verif.Spec.Geometry
import Mathlib.Tactic.Ring
import Mathlib.Tactic.Linarith
import Mathlib.Tactic.LinearCombination
import Mathlib.Tactic.FieldSimp
import Mathlib.Tactic.Positivity
import Mathlib.Tactic.FinCases

namespace Verif.Geometry
open Trace MeshMetrics

theorem norm3_nonneg (v : Pt ℝ) : 0 ≤ norm3 v := Real.sqrt_nonneg _

theorem dot_self_nonneg (v : Pt ℝ) : 0 ≤ dot v v := by
  simp only [dot]; nlinarith [mul_self_nonneg (v 0), mul_self_nonneg (v 1), mul_self_nonneg (v 2)]

theorem norm3_eq (v : Pt ℝ) : norm3 v = Real.sqrt (dot v v) := by
  simp only [norm3, dot]; congr 1; ring

theorem norm3_mul_self (v : Pt ℝ) : norm3 v * norm3 v = dot v v := by
  rw [norm3_eq]; exact Real.mul_self_sqrt (dot_self_nonneg v)

theorem pt_ext {u v : Pt ℝ} (h0 : u 0 = v 0) (h1 : u 1 = v 1) (h2 : u 2 = v 2) : u = v := by
  funext k; fin_cases k <;> assumption

theorem dot_self_eq_zero {v : Pt ℝ} : dot v v = 0 ↔ v = 0 := by
  constructor
  · intro h
    simp only [dot] at h
    have h0 := mul_self_nonneg (v 0)
    have h1 := mul_self_nonneg (v 1)
    have h2 := mul_self_nonneg (v 2)
    exact pt_ext (mul_self_eq_zero.1 (by linarith)) (mul_self_eq_zero.1 (by linarith))
      (mul_self_eq_zero.1 (by linarith))
  · rintro rfl; simp [dot]

theorem norm3_eq_zero {v : Pt ℝ} : norm3 v = 0 ↔ v = 0 := by
  rw [← dot_self_eq_zero, ← norm3_mul_self, mul_self_eq_zero]

theorem norm3_zero : norm3 (0 : Pt ℝ) = 0 := norm3_eq_zero.2 rfl

theorem norm3_smul (t : ℝ) (v : Pt ℝ) : norm3 (t • v) = |t| * norm3 v := by
  rw [norm3_eq, norm3_eq]
  have : dot (t • v) (t • v) = t ^ 2 * dot v v := by simp [dot]; ring
  rw [this, Real.sqrt_mul (sq_nonneg t), Real.sqrt_sq_eq_abs]

theorem norm3_sub_comm (u v : Pt ℝ) : norm3 (u - v) = norm3 (v - u) := by
  rw [norm3_eq, norm3_eq]; congr 1; simp [dot]; ring

@[simp] theorem cross_0 (u v : Pt ℝ) : cross u v 0 = u 1 * v 2 - u 2 * v 1 := rfl
@[simp] theorem cross_1 (u v : Pt ℝ) : cross u v 1 = u 2 * v 0 - u 0 * v 2 := rfl
@[simp] theorem cross_2 (u v : Pt ℝ) : cross u v 2 = u 0 * v 1 - u 1 * v 0 := rfl

/-- Lagrange's identity. -/
theorem dot_cross_self (u v : Pt ℝ) :
    dot (cross u v) (cross u v) = dot u u * dot v v - dot u v * dot u v := by
  simp only [dot, cross_0, cross_1, cross_2]; ring

/-- A vector parallel to `v ≠ 0` is a multiple of it. -/
theorem eq_smul_of_cross {u v : Pt ℝ} (h : cross u v = 0) (hv : v ≠ 0) : ∃ s : ℝ, u = s • v := by
  have hd : dot v v ≠ 0 := fun h => hv (dot_self_eq_zero.1 h)
  have h0 := congrFun h 0
  have h1 := congrFun h 1
  have h2 := congrFun h 2
  simp only [cross_0, cross_1, cross_2, Pi.zero_apply] at h0 h1 h2
  refine ⟨dot u v / dot v v, pt_ext ?_ ?_ ?_⟩ <;>
    simp only [Pi.smul_apply, smul_eq_mul] <;> rw [div_mul_eq_mul_div, eq_div_iff hd] <;>
    simp only [dot]
  · linear_combination v 1 * h2 - v 2 * h1
  · linear_combination v 2 * h0 - v 0 * h2
  · linear_combination v 0 * h1 - v 1 * h0

theorem isClose_self {r a x : ℝ} (hr : 0 ≤ r) (ha : 0 ≤ a) : IsClose r a x x := by
  unfold IsClose; rw [sub_self, abs_zero]; positivity

theorem isClose_zero {x y : ℝ} : IsClose 0 0 x y ↔ x = y := by
  unfold IsClose
  rw [zero_mul, add_zero, abs_nonpos_iff, sub_eq_zero]

/-- Numbers that differ are not close for small tolerances. -/
theorem not_isClose_of_ne {x y : ℝ} (h : x ≠ y) :
    ∃ δ > 0, ∀ e < δ, ¬ IsClose e e x y := by
  have h1 : 0 < |x - y| := abs_pos.2 (sub_ne_zero.2 h)
  have h2 : 0 < 1 + |y| := by positivity
  refine ⟨|x - y| / (1 + |y|), by positivity, fun e he hc => ?_⟩
  unfold IsClose at hc
  rw [lt_div_iff₀ h2] at he
  nlinarith

theorem close_self {r a : ℝ} (hr : 0 ≤ r) (ha : 0 ≤ a) (x : Pt ℝ) : Close r a x x :=
  fun _ => isClose_self hr ha

theorem close_zero {x y : Pt ℝ} : Close 0 0 x y ↔ x = y :=
  ⟨fun h => funext fun k => isClose_zero.1 (h k), fun h k => isClose_zero.2 (congrFun h k)⟩

theorem not_close_of_ne {x y : Pt ℝ} (h : x ≠ y) : ∃ δ > 0, ∀ e < δ, ¬ Close e e x y := by
  obtain ⟨k, hk⟩ := Function.ne_iff.1 h
  obtain ⟨δ, hδ, hc⟩ := not_isClose_of_ne hk
  exact ⟨δ, hδ, fun e he hcl => hc e he (hcl k)⟩

theorem mem_segment_iff {p a b : Pt ℝ} :
    p ∈ segment ℝ a b ↔ ∃ t : ℝ, 0 ≤ t ∧ t ≤ 1 ∧ p = a + t • (b - a) := by
  rw [segment_eq_image']
  constructor
  · rintro ⟨t, ⟨h0, h1⟩, rfl⟩
    exact ⟨t, h0, h1, rfl⟩
  · rintro ⟨t, h0, h1, rfl⟩
    exact ⟨t, ⟨h0, h1⟩, rfl⟩

end Verif.Geometry
