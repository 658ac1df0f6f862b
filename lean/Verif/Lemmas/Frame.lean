/-
Lemmas: motions keep lengths, angles and least squares.
-/
import Verif.Spec.Frame
import Verif.Lemmas.LineGeometry
import Mathlib.Tactic.LinearCombination
import Mathlib.Tactic.Linarith

namespace Verif.Geometry
open Trace MeshMetrics

theorem turn_dot (m : Motion) (u v : Pt ℝ) : dot (m.turn u) (m.turn v) = dot u v := by
  have h00 := m.orth 0 0
  have h11 := m.orth 1 1
  have h22 := m.orth 2 2
  have h01 := m.orth 0 1
  have h02 := m.orth 0 2
  have h12 := m.orth 1 2
  simp at h00 h11 h22 h01 h02 h12
  unfold dot Motion.turn
  linear_combination u 0 * v 0 * h00 + u 1 * v 1 * h11 + u 2 * v 2 * h22 + (u 0 * v 1 + u 1 * v 0) * h01
    + (u 0 * v 2 + u 2 * v 0) * h02 + (u 1 * v 2 + u 2 * v 1) * h12

theorem turn_add (m : Motion) (u v : Pt ℝ) : m.turn (u + v) = m.turn u + m.turn v := by
  funext k
  simp only [Motion.turn, Pi.add_apply]
  ring

theorem turn_smul (m : Motion) (c : ℝ) (u : Pt ℝ) : m.turn (c • u) = c • m.turn u := by
  funext k
  simp only [Motion.turn, Pi.smul_apply, smul_eq_mul]
  ring

theorem turn_sub (m : Motion) (u v : Pt ℝ) : m.turn (u - v) = m.turn u - m.turn v := by
  funext k
  simp only [Motion.turn, Pi.sub_apply]
  ring

theorem move_sub (m : Motion) (p q : Pt ℝ) : m.move p - m.move q = m.turn (p - q) := by
  rw [turn_sub, Motion.move, Motion.move]
  abel

theorem norm3_dot (u : Pt ℝ) : norm3 u = Real.sqrt (dot u u) := by
  rw [norm3, dot]
  congr 1
  ring

theorem turn_norm (m : Motion) (u : Pt ℝ) : norm3 (m.turn u) = norm3 u := by
  rw [norm3_dot, norm3_dot, turn_dot]

theorem norm3_cross (u v : Pt ℝ) : norm3 (cross u v) = Real.sqrt (dot u u * dot v v - dot u v * dot u v) := by
  rw [norm3_dot]
  congr 1
  simp only [dot, cross, Matrix.cons_val_zero, Matrix.cons_val_one, Matrix.cons_val]
  ring

theorem turn_cross_norm (m : Motion) (u v : Pt ℝ) : norm3 (cross (m.turn u) (m.turn v)) = norm3 (cross u v) := by
  rw [norm3_cross, norm3_cross, turn_dot, turn_dot, turn_dot]

theorem move_inj (m : Motion) {p q : Pt ℝ} : m.move p = m.move q ↔ p = q := by
  constructor
  · intro h
    have h0 : m.turn (p - q) = 0 := by rw [← move_sub, h, sub_self]
    have h1 : dot (p - q) (p - q) = 0 := by
      rw [← turn_dot m, h0]
      simp [dot]
    have h2 : p - q = 0 := by
      simp only [dot] at h1
      have e0 := sq_nonneg ((p - q) 0)
      have e1 := sq_nonneg ((p - q) 1)
      have e2 := sq_nonneg ((p - q) 2)
      funext k
      match k with
      | 0 => exact pow_eq_zero_iff (two_ne_zero) |>.1 (by nlinarith)
      | 1 => exact pow_eq_zero_iff (two_ne_zero) |>.1 (by nlinarith)
      | 2 => exact pow_eq_zero_iff (two_ne_zero) |>.1 (by nlinarith)
    exact sub_eq_zero.1 h2
  · rintro rfl
    rfl

theorem move_line (m : Motion) (a d : Pt ℝ) (t : ℝ) : m.move (a + t • d) = m.move a + t • m.turn d := by
  rw [Motion.move, Motion.move, turn_add, turn_smul]
  abel

/-- The solution with the least residual and the least norm is unique. -/
theorem least_unique {d1 d2 r : Pt ℝ} {x y : ℝ × ℝ}
    (hx : ∀ z, residual d1 d2 r x ≤ residual d1 d2 r z) (hy : ∀ z, residual d1 d2 r y ≤ residual d1 d2 r z)
    (nx : ∀ z, residual d1 d2 r z = residual d1 d2 r x → x.1 ^ 2 + x.2 ^ 2 ≤ z.1 ^ 2 + z.2 ^ 2)
    (ny : ∀ z, residual d1 d2 r z = residual d1 d2 r y → y.1 ^ 2 + y.2 ^ 2 ≤ z.1 ^ 2 + z.2 ^ 2) : x = y := by
  have hxy : residual d1 d2 r x = residual d1 d2 r y := le_antisymm (hx y) (hy x)
  let z : ℝ × ℝ := ((x.1 + y.1) / 2, (x.2 + y.2) / 2)
  have hz : residual d1 d2 r z ≤ residual d1 d2 r x := by
    have key : residual d1 d2 r z = (residual d1 d2 r x + residual d1 d2 r y) / 2
        - dot ((x.1 - y.1) • d1 - (x.2 - y.2) • d2) ((x.1 - y.1) • d1 - (x.2 - y.2) • d2) / 4 := by
      simp only [residual, dot, Pi.sub_apply, Pi.smul_apply, smul_eq_mul, z]
      ring
    have := dot_self_nonneg ((x.1 - y.1) • d1 - (x.2 - y.2) • d2)
    rw [key, ← hxy]
    linarith
  have hz' : residual d1 d2 r z = residual d1 d2 r x := le_antisymm hz (hx z)
  have n1 := nx z hz'
  have n2 := ny z (hz'.trans hxy)
  have n3 := nx y hxy.symm
  have n4 := ny x hxy
  simp only [z] at n1 n2
  have e1 := sq_nonneg (x.1 - y.1)
  have e2 := sq_nonneg (x.2 - y.2)
  refine Prod.ext ?_ ?_
  · exact sub_eq_zero.1 (pow_eq_zero_iff two_ne_zero |>.1 (by nlinarith))
  · exact sub_eq_zero.1 (pow_eq_zero_iff two_ne_zero |>.1 (by nlinarith))

theorem turn_residual (m : Motion) (d1 d2 r : Pt ℝ) (x : ℝ × ℝ) :
    residual (m.turn d1) (m.turn d2) (m.turn r) x = residual d1 d2 r x := by
  rw [residual, residual, ← turn_smul, ← turn_smul, ← turn_sub, ← turn_sub, turn_dot]

theorem turn_lstsq {f : Pt ℝ → Pt ℝ → Pt ℝ → ℝ × ℝ} (hf : IsLstsq f) (m : Motion) (d1 d2 r : Pt ℝ) :
    f (m.turn d1) (m.turn d2) (m.turn r) = f d1 d2 r := by
  refine least_unique (d1 := d1) (d2 := d2) (r := r) ?_ (hf.residual d1 d2 r) ?_ (hf.norm d1 d2 r)
  · intro z
    have := hf.residual (m.turn d1) (m.turn d2) (m.turn r) z
    rwa [turn_residual, turn_residual] at this
  · intro z hz
    refine hf.norm (m.turn d1) (m.turn d2) (m.turn r) z ?_
    rw [turn_residual, turn_residual]
    exact hz

end Verif.Geometry
