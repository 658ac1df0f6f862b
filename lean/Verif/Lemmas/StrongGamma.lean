/-
The length that varies in space: its derivatives away from the kinks, and its continuity.
-/
import Verif.Lemmas.Strong
import Mathlib.Topology.Order.Basic
import Mathlib.Topology.Order.OrderClosed
import Mathlib.Topology.Order.Lattice
import Mathlib.Tactic.Linarith
import Mathlib.Analysis.Calculus.TangentCone.Real
import Mathlib.Topology.Algebra.Ring.Real

namespace Verif.Strong
open Filter Topology

/-- Ramp in one variable: `min(1, max(0, max(3t, c) - 1))` -/
noncomputable def ramp (c t : ℝ) : ℝ := min 1 (max 0 (max (3 * t) c - 1))

variable {c x : ℝ}

theorem ramp_rise (h : c < 3 * x) (h1 : 1 < 3 * x) (h2 : 3 * x < 2) : HasDerivAt (ramp c) 3 x := by
  have hd : HasDerivAt (fun t : ℝ => 3 * t - 1) 3 x := by
    simpa using ((hasDerivAt_id' x).const_mul 3).sub_const 1
  refine hd.congr_of_eventuallyEq ?_
  have hm : max (max (c / 3) (1 / 3)) 0 < x := by
    refine max_lt (max_lt ?_ ?_) ?_ <;> linarith
  filter_upwards [Ioo_mem_nhds hm (show x < 2 / 3 by linarith)] with t ht
  have ht1 : c / 3 < t := lt_of_le_of_lt ((le_max_left _ _).trans (le_max_left _ _)) ht.1
  have ht2 : 1 / 3 < t := lt_of_le_of_lt ((le_max_right _ _).trans (le_max_left _ _)) ht.1
  have ht3 : t < 2 / 3 := ht.2
  unfold ramp
  rw [max_eq_left (by linarith : c ≤ 3 * t), max_eq_right (by linarith), min_eq_right (by linarith)]

theorem ramp_const (h : 3 * x < c) : HasDerivAt (ramp c) 0 x := by
  refine (hasDerivAt_const x (min 1 (max 0 (c - 1)))).congr_of_eventuallyEq ?_
  filter_upwards [Iio_mem_nhds (show x < c / 3 by linarith)] with t ht
  have ht : t < c / 3 := ht
  unfold ramp
  rw [max_eq_right (by linarith : 3 * t ≤ c)]

theorem ramp_low (hc : c < 1) (h : 3 * x < 1) : HasDerivAt (ramp c) 0 x := by
  refine (hasDerivAt_const x (0 : ℝ)).congr_of_eventuallyEq ?_
  filter_upwards [Iio_mem_nhds (show x < 1 / 3 by linarith)] with t ht
  have ht : t < 1 / 3 := ht
  have : max (3 * t) c < 1 := max_lt (by linarith) hc
  unfold ramp
  rw [max_eq_left (by linarith), min_eq_right (by norm_num)]

theorem ramp_high (h : 2 < 3 * x) : HasDerivAt (ramp c) 0 x := by
  refine (hasDerivAt_const x (1 : ℝ)).congr_of_eventuallyEq ?_
  filter_upwards [Ioi_mem_nhds (show 2 / 3 < x by linarith)] with t ht
  have ht : 2 / 3 < t := ht
  have : 3 * t ≤ max (3 * t) c := le_max_left _ _
  unfold ramp
  rw [max_eq_right (by linarith), min_eq_left (by linarith)]

theorem ramp_full (hc : 2 < c) : HasDerivAt (ramp c) 0 x := by
  refine (hasDerivAt_const x (1 : ℝ)).congr_of_eventuallyEq (Eventually.of_forall fun t => ?_)
  have : c ≤ max (3 * t) c := le_max_right _ _
  show ramp c t = 1
  unfold ramp
  rw [max_eq_right (by linarith), min_eq_left (by linarith)]

open Classical in
theorem ramp_deriv (h : (c < 1 ∧ 3 * x < 1) ∨ (2 < c ∨ 2 < 3 * x) ∨ (3 * x < c ∨ (c < 3 * x ∧ 1 < 3 * x ∧ 3 * x < 2))) :
    HasDerivAt (ramp c) (if c < 3 * x ∧ 1 < 3 * x ∧ 3 * x < 2 then 3 else 0) x := by
  split_ifs with hi
  · exact ramp_rise hi.1 hi.2.1 hi.2.2
  · rcases h with h | (h | h) | h | h
    · exact ramp_low h.1 h.2
    · exact ramp_full h
    · exact ramp_high h
    · exact ramp_const h
    · exact absurd h hi

theorem ramp_kink : ¬∃ d, HasDerivAt (ramp 0) d (1 / 3) := by
  rintro ⟨d, h⟩
  have h0 : HasDerivWithinAt (ramp 0) 0 (Set.Iic (1 / 3)) (1 / 3) := by
    refine (hasDerivWithinAt_const (1 / 3 : ℝ) (Set.Iic (1 / 3)) (0 : ℝ)).congr ?_ ?_
    · intro t ht
      have ht : t ≤ 1 / 3 := ht
      have : max (3 * t) 0 ≤ 1 := max_le (by linarith) (by norm_num)
      unfold ramp
      rw [max_eq_left (by linarith), min_eq_right (by norm_num)]
    · norm_num [ramp]
  have h1 : HasDerivWithinAt (ramp 0) 3 (Set.Icc (1 / 3) (2 / 3)) (1 / 3) := by
    have hd : HasDerivAt (fun t : ℝ => 3 * t - 1) 3 (1 / 3) := by
      simpa using ((hasDerivAt_id' (1 / 3 : ℝ)).const_mul 3).sub_const 1
    refine hd.hasDerivWithinAt.congr ?_ ?_
    · intro t ht
      have h1 : 1 / 3 ≤ t := ht.1
      have h2 : t ≤ 2 / 3 := ht.2
      unfold ramp
      rw [max_eq_left (by linarith : (0 : ℝ) ≤ 3 * t), max_eq_right (by linarith), min_eq_right (by linarith)]
    · norm_num [ramp]
  have e0 : d = 0 := (uniqueDiffWithinAt_Iic _).eq_deriv _ h.hasDerivWithinAt h0
  have e1 : d = 3 := (uniqueDiffOn_Icc (by norm_num) _ ⟨le_refl _, by norm_num⟩).eq_deriv _ h.hasDerivWithinAt h1
  norm_num [e0] at e1

end Verif.Strong
