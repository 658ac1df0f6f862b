/-
Property theorems C125: the time loop of the transport example
(examples/parabolic_diffusive_problem/mixed_transport_model.py).
-/
import Verif.Spec.TimeLoop
import Verif.Lemmas.Prelude
import Mathlib.Tactic.Ring
import Mathlib.Tactic.Linarith
import Mathlib.Tactic.FieldSimp
import Mathlib.Tactic.NormNum
import Mathlib.Tactic.Positivity

namespace Verif.TimeLoop

variable {K V M : Type} [Field K] [AddCommGroup V] [Module K V] [AddCommGroup M] [Module K M]

/-- C125: the arrays are zero when an assembly starts, so the iteration is Newton's method: the state it leaves is the
first iterate that passes the test before the last iteration, or the last iterate, which is not tested. -/
theorem C125_newton (residual : V → V) (jacobian : V → M) (small : V → Bool) (solve : M → V → V) (n : Nat) (a : V) :
    ∃ k ≤ n, (iterate K residual jacobian small solve n ⟨a, 0, 0⟩).alpha = (newton residual jacobian solve)^[k] a ∧
      (∀ i < k, small (residual ((newton residual jacobian solve)^[i] a)) = false) ∧
      (k < n → small (residual ((newton residual jacobian solve)^[k] a)) = true) := by
  induction n generalizing a with
  | zero => exact ⟨0, le_refl 0, rfl, fun i hi => absurd hi (Nat.not_lt_zero i), fun h => absurd h (Nat.lt_irrefl 0)⟩
  | succ n ih =>
    unfold iterate
    simp only [zero_add, zero_smul]
    by_cases hs : small (residual a) = true
    · rw [if_pos hs]
      exact ⟨0, Nat.zero_le _, rfl, fun i hi => absurd hi (Nat.not_lt_zero i), fun _ => hs⟩
    · rw [if_neg hs]
      obtain ⟨k, hk, h1, h2, h3⟩ := ih (newton residual jacobian solve a)
      refine ⟨k + 1, Nat.succ_le_succ hk, h1, ?_, fun h => h3 (Nat.lt_of_succ_lt_succ h)⟩
      intro i hi
      match i with
      | 0 => exact Bool.eq_false_iff.2 hs
      | i + 1 => exact h2 i (Nat.lt_of_succ_lt_succ hi)

/-- C125: if one of the first `n` iterates passes the test, the time step ends in a state that passes it. -/
theorem C125_accepted {iterations : Nat} {residual : V → V → V} {jacobian : V → V → M} {small : V → Bool}
    {solve : M → V → V} {old : V} {i : Nat} (hi : i < iterations)
    (h : small (residual ((newton (fun a => residual a old) (fun a => jacobian a old) solve)^[i] old) old) = true) :
    small (residual (timeStep K iterations residual jacobian small solve old) old) = true := by
  obtain ⟨k, hk, h1, h2, h3⟩ := C125_newton (K := K) (fun a => residual a old) (fun a => jacobian a old) small solve
    iterations old
  unfold timeStep
  rw [h1]
  refine h3 (lt_of_le_of_ne hk ?_)
  rintro rfl
  rw [h2 i hi] at h
  exact Bool.noConfusion h

/-- C125: without reaction, when the residual is affine with the Jacobian as its matrix, and with an exact linear solver,
the first step solves the equation: the time step ends in a state that passes the test. -/
theorem C125_linear {iterations : Nat} (hn : 2 ≤ iterations) {residual : V → V → V} {jacobian : V → V → M}
    {small : V → Bool} {solve : M → V → V} {apply : M → V → V} {old : V}
    (haff : ∀ a d, residual (a + d) old = residual a old + apply (jacobian a old) d)
    (hsolve : ∀ a b, apply (jacobian a old) (solve (jacobian a old) b) = b) (h0 : small 0 = true) :
    small (residual (timeStep K iterations residual jacobian small solve old) old) = true := by
  refine C125_accepted (i := 1) hn ?_
  show small (residual (old + solve (jacobian old old) (-residual old old)) old) = true
  rw [haff, hsolve, add_neg_cancel, h0]

/-- C125, disagreement: an iteration that does not converge is accepted in silence.  For the equation `a² + 1 = 0`, a
reaction without a stationary state, no tolerance up to one is ever reached, and the time step returns all the same. -/
theorem C125_silent_violated (iterations : Nat) (old : ℚ) {tol : ℚ} (ht : tol ≤ 1) :
    let residual : ℚ → ℚ → ℚ := fun a _ => a ^ 2 + 1
    let small : ℚ → Bool := fun r => decide (|r| < tol)
    small (residual (timeStep ℚ iterations residual (fun a _ => 2 * a) small (fun m b => b / m) old) old) = false := by
  dsimp only
  generalize timeStep (V := ℚ) (M := ℚ) ℚ iterations _ _ _ _ _ = a
  rw [decide_eq_false_iff_not, not_lt]
  have : 1 ≤ a ^ 2 + 1 := by nlinarith [sq_nonneg a]
  exact ht.trans (this.trans (le_abs_self _))

theorem arange_times {dt tEnd : ℚ} (hdt : 0 < dt) : arange dt (tEnd + dt) dt =
    .ok ((List.range ⌈tEnd / dt⌉.toNat).map fun (i : Nat) => ((i + 1 : ℕ) : ℚ) * dt) := by
  unfold arange
  rw [if_neg hdt.ne', add_sub_cancel_right]
  congr 1
  refine List.map_congr_left fun i _ => ?_
  push_cast
  ring

/-- C125: the times are the multiples of the time step; the last is the first that reaches the end, and it is the end
exactly when the time step divides it. -/
theorem C125_times {dt tEnd : ℚ} (hdt : 0 < dt) (ht : 0 < tEnd) :
    ∃ n : Nat, 0 < n ∧ arange dt (tEnd + dt) dt = .ok ((List.range n).map fun (i : Nat) => ((i + 1 : ℕ) : ℚ) * dt) ∧
      ((n - 1 : ℕ) : ℚ) * dt < tEnd ∧ tEnd ≤ n * dt ∧ (n * dt = tEnd ↔ ∃ k : Nat, tEnd = k * dt) := by
  have hpos : 0 < tEnd / dt := div_pos ht hdt
  have hc : 0 < ⌈tEnd / dt⌉ := Int.ceil_pos.2 hpos
  obtain ⟨n, hn⟩ := Int.eq_ofNat_of_zero_le hc.le
  have hn0 : 0 < n := by omega
  refine ⟨n, hn0, ?_, ?_, ?_, ?_⟩
  · rw [arange_times hdt, hn]
    rfl
  · have h1 := Int.ceil_lt_add_one (tEnd / dt)
    rw [hn] at h1
    have h2 : ((n - 1 : ℕ) : ℚ) < tEnd / dt := by
      rw [Nat.cast_sub hn0]
      push_cast at h1 ⊢
      linarith
    exact (lt_div_iff₀ hdt).1 h2
  · have h1 := Int.le_ceil (tEnd / dt)
    rw [hn] at h1
    exact (div_le_iff₀ hdt).1 (by exact_mod_cast h1)
  · constructor
    · intro h; exact ⟨n, h.symm⟩
    · rintro ⟨k, hk⟩
      have : tEnd / dt = k := by rw [hk]; field_simp
      rw [this, Int.ceil_natCast] at hn
      have : n = k := by exact_mod_cast hn.symm
      rw [this, hk]

/-- C125: the loop leaves the last state of the chain of time steps that starts in zero. -/
theorem C125_run (iterations : Nat) {dt tEnd : ℚ} (hdt : 0 < dt) (residual : ℚ → V → V → V)
    (jacobian : ℚ → V → V → M) (small : V → Bool) (solve : M → V → V) {a : Nat → V}
    (ha : Chain (fun t => timeStep K iterations (residual t) (jacobian t) small solve) dt ⌈tEnd / dt⌉.toNat a)
    (ht : 0 < tEnd) :
    run K iterations dt tEnd residual jacobian small solve = .ok (a ⌈tEnd / dt⌉.toNat) := by
  have hpos : 0 < ⌈tEnd / dt⌉.toNat := by
    have := Int.ceil_pos.2 (div_pos ht hdt)
    omega
  unfold run
  rw [arange_times hdt]
  simp only [Res.bind_ok]
  generalize ⌈tEnd / dt⌉.toNat = n at ha hpos
  have key : ∀ k ≤ n, ((List.range k).map fun (i : Nat) => ((i + 1 : ℕ) : ℚ) * dt).foldl
      (fun (s : V × Option V) t =>
        (timeStep K iterations (residual t) (jacobian t) small solve s.1,
          some (timeStep K iterations (residual t) (jacobian t) small solve s.1))) (0, none) =
      (a k, if k = 0 then none else some (a k)) := by
    intro k
    induction k with
    | zero => intro _; simp [ha.1]
    | succ k ih =>
      intro hk
      rw [List.range_succ, List.map_append, List.foldl_append, ih (by omega)]
      simp only [List.map_cons, List.map_nil, List.foldl_cons, List.foldl_nil]
      rw [if_neg (Nat.succ_ne_zero k), ha.2 k (by omega)]
  rw [key n (le_refl n), if_neg hpos.ne']

/-- C125: without a positive end there is no time step and the result is not defined; the time step zero is refused. -/
theorem C125_errors (iterations : Nat) (dt tEnd : ℚ) (residual : ℚ → V → V → V) (jacobian : ℚ → V → V → M)
    (small : V → Bool) (solve : M → V → V) :
    (0 < dt → tEnd ≤ 0 → run K iterations dt tEnd residual jacobian small solve = .error .nameError) ∧
    run K iterations 0 tEnd residual jacobian small solve = .error .zeroDivisionError := by
  refine ⟨?_, ?_⟩
  · intro hdt ht
    unfold run
    have : ⌈tEnd / dt⌉.toNat = 0 := Int.toNat_of_nonpos (Int.ceil_le.2 (by
      push_cast
      exact div_nonpos_of_nonpos_of_nonneg ht hdt.le))
    rw [arange_times hdt, this]
    rfl
  · unfold run arange
    rw [if_pos rfl]
    rfl

/-- The times of the example: ten steps, the last is the end. -/
example : arange (1 / 10) (1 + 1 / 10) (1 / 10) =
    .ok [1 / 10, 2 / 10, 3 / 10, 4 / 10, 5 / 10, 6 / 10, 7 / 10, 8 / 10, 9 / 10, 1] := by decide +kernel

/-- With the time step `3/10` the last time is `12/10`. -/
example : arange (3 / 10) (1 + 3 / 10) (3 / 10) = .ok [3 / 10, 6 / 10, 9 / 10, 12 / 10] := by decide +kernel

/-- Newton's method for `a² = 4` from one, with the test `|r| < 1/10`: `1`, `5/2`, `41/20`, `3281/1640` -/
example : timeStep ℚ 20 (fun (a _ : ℚ) => a ^ 2 - 4) (fun a _ => 2 * a) (fun r => decide (|r| < 1 / 10)) (fun m b => b / m) 1 =
    3281 / 1640 := by decide +kernel

#print axioms C125_newton
#print axioms C125_accepted
#print axioms C125_linear
#print axioms C125_silent_violated
#print axioms C125_times
#print axioms C125_run
#print axioms C125_errors

end Verif.TimeLoop
