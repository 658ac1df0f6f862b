/-
Helper lemmas for C95: sums of wrapped angles.
-/
import Verif.Model.Polygon
import Mathlib.Analysis.SpecialFunctions.Complex.Arg
import Mathlib.Analysis.Convex.Segment
import Mathlib.Tactic.Linarith
import Mathlib.Tactic.FieldSimp
import Mathlib.Tactic.Ring

namespace Verif.Polygon
open Real

theorem wrap_congr (x : ℝ) : ∃ k : ℤ, wrap x = x + k * (2 * π) := by
  unfold wrap
  split
  · exact ⟨0, by simp⟩
  · have h := toIcoMod_add_toIcoDiv_zsmul Real.two_pi_pos (-π) x
    rw [zsmul_eq_mul] at h
    simp only
    split
    · rename_i hm
      refine ⟨1 - toIcoDiv Real.two_pi_pos (-π) x, ?_⟩
      push_cast
      rw [hm.1] at h
      linarith
    · refine ⟨- toIcoDiv Real.two_pi_pos (-π) x, ?_⟩
      push_cast
      linarith

theorem abs_wrap_le (x : ℝ) : |wrap x| ≤ π := by
  unfold wrap
  split
  · rename_i h; exact h.le
  · simp only
    have h := toIcoMod_mem_Ico Real.two_pi_pos (-π) x
    split
    · rw [abs_of_pos Real.pi_pos]
    · rw [abs_le]
      exact ⟨h.1, by have := h.2; linarith⟩

/-- The wrapped difference is the only representative in the open interval. -/
theorem wrap_eq {x y : ℝ} {k : ℤ} (h : y = x + k * (2 * π)) (hy : |y| < π) : wrap x = y := by
  obtain ⟨n, hn⟩ := wrap_congr x
  have hle := abs_wrap_le x
  have hd : wrap x = y + ((n - k : ℤ) : ℝ) * (2 * π) := by push_cast; rw [hn, h]; ring
  have hpi := Real.pi_pos
  rw [abs_lt] at hy
  rw [abs_le, hd] at hle
  have : n - k = 0 := by
    have h1 : ((n - k : ℤ) : ℝ) < 1 := by
      by_contra hc
      have : (1 : ℝ) * (2 * π) ≤ ((n - k : ℤ) : ℝ) * (2 * π) :=
        mul_le_mul_of_nonneg_right (not_lt.1 hc) (by linarith)
      linarith
    have h2 : (-1 : ℝ) < ((n - k : ℤ) : ℝ) := by
      by_contra hc
      have : ((n - k : ℤ) : ℝ) * (2 * π) ≤ (-1) * (2 * π) :=
        mul_le_mul_of_nonneg_right (not_lt.1 hc) (by linarith)
      linarith
    have h1' : n - k < 1 := by exact_mod_cast h1
    have h2' : -1 < n - k := by exact_mod_cast h2
    omega
  rw [hd, this]
  simp

theorem angleDiffs_append (l : List ℝ) (a b : ℝ) :
    angleDiffs (l ++ [a, b]) = angleDiffs (l ++ [a]) ++ [wrap (b - a)] := by
  induction l with
  | nil => rfl
  | cons x l ih =>
    cases l with
    | nil => rfl
    | cons y l =>
      simp only [List.cons_append, angleDiffs] at ih ⊢
      rw [ih]

/-- The sum of wrapped differences is the whole difference up to full turns. -/
theorem sum_angleDiffs (a : ℝ) (l : List ℝ) : ∃ k : ℤ,
    (angleDiffs (a :: l)).sum = (a :: l).getLast (List.cons_ne_nil _ _) - a + k * (2 * π) := by
  induction l generalizing a with
  | nil => exact ⟨0, by simp [angleDiffs]⟩
  | cons b l ih =>
    obtain ⟨k, hk⟩ := ih b
    obtain ⟨n, hn⟩ := wrap_congr (b - a)
    refine ⟨n + k, ?_⟩
    rw [angleDiffs, List.sum_cons, hk, hn, List.getLast_cons (List.cons_ne_nil b l)]
    push_cast
    ring

theorem sum_angleDiffs_branch {g : ℝ → ℝ} : ∀ {a : ℝ} {l : List ℝ},
    (∀ x ∈ a :: l, ∀ y ∈ a :: l, wrap (y - x) = g y - g x) →
    (angleDiffs (a :: l)).sum = g ((a :: l).getLast (List.cons_ne_nil _ _)) - g a
  | a, [], _ => by simp [angleDiffs]
  | a, b :: l, h => by
    rw [angleDiffs, List.sum_cons, h a (by simp) b (by simp), sum_angleDiffs_branch (g := g)
      (fun x hx y hy => h x (List.mem_cons_of_mem _ hx) y (List.mem_cons_of_mem _ hy)),
      List.getLast_cons (List.cons_ne_nil b l)]
    ring

theorem pyRound_near {x : ℝ} {n : ℤ} (h : |x - n| < 1 / 2) : pyRound x = n := by
  rw [abs_lt] at h
  have hr : round x = n := by
    rw [round_eq, Int.floor_eq_iff]
    constructor <;> linarith
  unfold pyRound
  split
  · rename_i hf
    exfalso
    have h1 := Int.floor_add_fract x
    rw [hf] at h1
    have h2 : (⌊x⌋ : ℝ) - n < 0 := by linarith
    have h3 : (-1 : ℝ) < (⌊x⌋ : ℝ) - n := by linarith
    have h2' : ⌊x⌋ - n < 0 := by exact_mod_cast h2
    have h3' : -1 < ⌊x⌋ - n := by exact_mod_cast h3
    omega
  · exact hr

/-- The angle between two complex numbers, as a rotation -/
theorem exp_wrap (z w : ℂ) : ∃ k : ℤ, w.arg = z.arg + wrap (w.arg - z.arg) + k * (2 * π) := by
  obtain ⟨k, hk⟩ := wrap_congr (w.arg - z.arg)
  refine ⟨-k, ?_⟩
  push_cast
  rw [hk]
  ring

theorem exp_add_turns (x : ℝ) (k : ℤ) :
    Complex.exp (((x + k * (2 * π) : ℝ) : ℂ) * Complex.I) = Complex.exp ((x : ℂ) * Complex.I) := by
  have : ((x + k * (2 * π) : ℝ) : ℂ) * Complex.I = (x : ℂ) * Complex.I + k * (2 * π * Complex.I) := by
    push_cast
    ring
  rw [this]
  exact Complex.exp_periodic.int_mul k _

/-- Opposite directions: the origin is between. -/
theorem zero_mem_segment {z w : ℂ} (h : |wrap (w.arg - z.arg)| = π) : (0 : ℂ) ∈ segment ℝ z w := by
  have hexp : Complex.exp (w.arg * Complex.I) = - Complex.exp (z.arg * Complex.I) := by
    obtain ⟨k, hk⟩ := exp_wrap z w
    rw [hk, exp_add_turns]
    rcases (abs_eq Real.pi_pos.le).1 h with h | h <;> rw [h] <;> push_cast
    · rw [add_mul, Complex.exp_add, Complex.exp_pi_mul_I, mul_neg_one]
    · rw [add_mul, Complex.exp_add, neg_mul, Complex.exp_neg, Complex.exp_pi_mul_I]
      norm_num
  have hz := Complex.norm_mul_exp_arg_mul_I z
  have hw := Complex.norm_mul_exp_arg_mul_I w
  rw [hexp] at hw
  by_cases h0 : ‖z‖ + ‖w‖ = 0
  · have : z = 0 := by
      have h1 := norm_nonneg z
      have h2 := norm_nonneg w
      exact norm_eq_zero.1 (by linarith)
    rw [this]
    exact left_mem_segment ℝ 0 w
  · have hpos : 0 < ‖z‖ + ‖w‖ := lt_of_le_of_ne (by positivity) (Ne.symm h0)
    refine ⟨‖w‖ / (‖z‖ + ‖w‖), ‖z‖ / (‖z‖ + ‖w‖), by positivity, by positivity, by field_simp; ring, ?_⟩
    rw [Complex.real_smul, Complex.real_smul]
    conv_lhs => rw [← hz, ← hw]
    simp only [norm_mul, norm_neg, Complex.norm_exp_ofReal_mul_I, mul_one, Complex.norm_real, norm_norm]
    push_cast
    ring

/-- The left side: the angle is between 0 and `π`. -/
theorem wrap_pos {z w : ℂ} (h : 0 < (starRingEnd ℂ z * w).im) :
    0 < wrap (w.arg - z.arg) ∧ wrap (w.arg - z.arg) < π := by
  have hs : 0 < Real.sin (wrap (w.arg - z.arg)) := by
    obtain ⟨k, hk⟩ := wrap_congr (w.arg - z.arg)
    have e : Real.sin (wrap (w.arg - z.arg)) = Real.sin (w.arg - z.arg) := by
      rw [hk, Real.sin_add_int_mul_two_pi]
    rw [e]
    have him : (starRingEnd ℂ z * w).im = ‖z‖ * ‖w‖ * Real.sin (w.arg - z.arg) := by
      rw [Real.sin_sub]
      have h1 := Complex.norm_mul_cos_arg z
      have h2 := Complex.norm_mul_sin_arg z
      have h3 := Complex.norm_mul_cos_arg w
      have h4 := Complex.norm_mul_sin_arg w
      rw [Complex.mul_im, Complex.conj_re, Complex.conj_im, ← h1, ← h2, ← h3, ← h4]
      ring
    rw [him] at h
    have hn : 0 ≤ ‖z‖ * ‖w‖ := by positivity
    by_contra hc
    exact absurd h (not_lt.2 (mul_nonpos_of_nonneg_of_nonpos hn (not_lt.1 hc)))
  have hle := abs_le.1 (abs_wrap_le (w.arg - z.arg))
  constructor
  · by_contra hc
    exact absurd hs (not_lt.2 (Real.sin_nonpos_of_nonpos_of_neg_pi_le (not_lt.1 hc) hle.1))
  · refine lt_of_le_of_ne hle.2 fun hc => ?_
    rw [hc, Real.sin_pi] at hs
    exact lt_irrefl _ hs

/-- Seen from a point with everything ahead, angles are differences of one function. -/
theorem wrap_ahead {u : ℂ} {z w : ℂ} (hz : 0 < (u * z).re) (hw : 0 < (u * w).re) :
    wrap (w.arg - z.arg) = (u * w).arg - (u * z).arg := by
  have hu : u ≠ 0 := by rintro rfl; simp at hz
  have hz0 : z ≠ 0 := by rintro rfl; simp at hz
  have hw0 : w ≠ 0 := by rintro rfl; simp at hw
  have key : ∀ x : ℂ, x ≠ 0 → ∃ k : ℤ, (u * x).arg = u.arg + x.arg + k * (2 * π) := by
    intro x hx
    have := Complex.arg_mul_coe_angle hu hx
    rw [← Real.Angle.coe_add, Real.Angle.angle_eq_iff_two_pi_dvd_sub] at this
    obtain ⟨k, hk⟩ := this
    exact ⟨k, by linarith⟩
  obtain ⟨k, hk⟩ := key z hz0
  obtain ⟨n, hn⟩ := key w hw0
  have h1 := abs_lt.1 (Complex.abs_arg_lt_pi_div_two_iff.2 (.inl hz))
  have h2 := abs_lt.1 (Complex.abs_arg_lt_pi_div_two_iff.2 (.inl hw))
  refine wrap_eq (k := n - k) ?_ ?_
  · push_cast
    rw [hk, hn]
    ring
  · rw [abs_lt]
    constructor <;> linarith

end Verif.Polygon
