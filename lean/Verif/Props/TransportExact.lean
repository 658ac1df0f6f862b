/-
Property theorems C121: the exact solutions of the transport example
(examples/parabolic_diffusive_problem/mixed_transport_model.py).
-/
import Verif.Spec.TransportExact
import Mathlib.Analysis.Calculus.Deriv.Add
import Mathlib.Analysis.Calculus.Deriv.Mul
import Mathlib.Analysis.Calculus.Deriv.Pow
import Mathlib.Tactic.Ring
import Mathlib.Tactic.FieldSimp
import Mathlib.Tactic.NormNum
import Mathlib.Tactic.LinearCombination

namespace Verif.Transport.Exact
open Strong

variable (eta x y z t : ℝ)

theorem quad {f : ℝ → ℝ} (a b c : ℝ) {d x : ℝ} (h : ∀ s, f s = a + b * s + c * s ^ 2) (hd : d = b + 2 * c * x) :
    HasDerivAt f d x := by
  have e : f = fun s => a + b * s + c * s ^ 2 := funext h
  rw [e]
  have h1 := ((hasDerivAt_id x).const_mul b).const_add a
  have h2 := (hasDerivAt_pow 2 x).const_mul c
  have h3 : HasDerivAt (fun s => a + b * s + c * s ^ 2) (b * 1 + c * ((2 : ℕ) * x ^ (2 - 1))) x :=
    HasDerivAt.add h1 h2
  refine h3.congr_deriv ?_
  rw [hd]
  norm_num
  ring

theorem partial_unique {f : ℝ → ℝ → ℝ → ℝ} {j : Nat} {a b x y z : ℝ} (ha : HasPartial j f a x y z)
    (hb : HasPartial j f b x y z) : a = b := by
  match j with
  | 0 => exact HasDerivAt.unique ha hb
  | 1 => exact HasDerivAt.unique ha hb
  | _ + 2 => exact HasDerivAt.unique ha hb

theorem diffusion1 (s f : ℝ) (h : f = t * (2 + 0 * x) + x * (1 - x) + s) : Diffusion p1 mp1 s f x y z t where
  flux := Fin.forall_fin_one.2 (quad 0 t (-t) (fun s => by unfold p1; ring) (by simp [mp1]; ring))
  balance := ⟨(1 - x) * x, ![2 * t], quad 0 ((1 - x) * x) 0 (fun s => by unfold p1; ring) (by ring),
    Fin.forall_fin_one.2 (quad (-t) (2 * t) 0 (fun s => by simp [mp1]; ring) (by simp)),
    by rw [h]; simp; ring⟩

theorem diffusion2 (s f : ℝ)
    (h : f = t * (2 * (1 - x) * x + 2 * (1 - y) * y) + (1 - x) * x * (1 - y) * y + s) :
    Diffusion p2 mp2 s f x y z t where
  flux := Fin.forall_fin_two.2
    ⟨quad 0 (t * ((1 - y) * y)) (-(t * ((1 - y) * y))) (fun s => by unfold p2; ring) (by simp [mp2]; ring),
    quad 0 (t * ((1 - x) * x)) (-(t * ((1 - x) * x))) (fun s => by unfold p2; ring) (by simp [mp2]; ring)⟩
  balance := ⟨(1 - x) * x * (1 - y) * y, ![2 * t * ((1 - y) * y), 2 * t * ((1 - x) * x)],
    quad 0 ((1 - x) * x * (1 - y) * y) 0 (fun s => by unfold p2; ring) (by ring),
    Fin.forall_fin_two.2
      ⟨quad (-(t * ((1 - y) * y))) (2 * t * ((1 - y) * y)) 0 (fun s => by simp [mp2]; ring) (by simp),
      quad (-(t * ((1 - x) * x))) (2 * t * ((1 - x) * x)) 0 (fun s => by simp [mp2]; ring) (by simp)⟩,
    by rw [h, Fin.sum_univ_two]; simp; ring⟩

theorem forall_fin_three {P : Fin 3 → Prop} (h0 : P 0) (h1 : P 1) (h2 : P 2) : ∀ i, P i := by
  intro i
  match i with
  | 0 => exact h0
  | 1 => exact h1
  | 2 => exact h2

theorem diffusion3 (s f : ℝ)
    (h : f = t * (2 * (1 - x) * x * (1 - y) * y + 2 * (1 - x) * x * (1 - z) * z + 2 * (1 - y) * y * (1 - z) * z) +
      (1 - x) * x * (1 - y) * y * (1 - z) * z + s) : Diffusion p3 mp3 s f x y z t where
  flux := forall_fin_three
    (quad 0 (t * ((1 - y) * y * (1 - z) * z)) (-(t * ((1 - y) * y * (1 - z) * z))) (fun s => by unfold p3; ring)
      (by simp [mp3]; ring))
    (quad 0 (t * ((1 - x) * x * (1 - z) * z)) (-(t * ((1 - x) * x * (1 - z) * z))) (fun s => by unfold p3; ring)
      (by simp [mp3]; ring))
    (quad 0 (t * ((1 - x) * x * (1 - y) * y)) (-(t * ((1 - x) * x * (1 - y) * y))) (fun s => by unfold p3; ring)
      (by simp [mp3]; ring))
  balance := ⟨(1 - x) * x * (1 - y) * y * (1 - z) * z,
    ![2 * t * ((1 - y) * y * (1 - z) * z), 2 * t * ((1 - x) * x * (1 - z) * z), 2 * t * ((1 - x) * x * (1 - y) * y)],
    quad 0 ((1 - x) * x * (1 - y) * y * (1 - z) * z) 0 (fun s => by unfold p3; ring) (by ring),
    forall_fin_three
      (quad (-(t * ((1 - y) * y * (1 - z) * z))) (2 * t * ((1 - y) * y * (1 - z) * z)) 0
        (fun s => by simp [mp3]; ring) (by simp))
      (quad (-(t * ((1 - x) * x * (1 - z) * z))) (2 * t * ((1 - x) * x * (1 - z) * z)) 0
        (fun s => by simp [mp3]; ring) (by simp))
      (quad (-(t * ((1 - x) * x * (1 - y) * y))) (2 * t * ((1 - x) * x * (1 - y) * y)) 0
        (fun s => by simp [mp3]; ring) (by simp)),
    by rw [h, Fin.sum_univ_three]; simp; ring⟩

/-- C121: in dimension one and three the functions solve both equations everywhere; in dimension two the pressure
solves its equation. -/
theorem C121_solutions :
    (Diffusion (case1 eta).p (case1 eta).mp 0 ((case1 eta).f x y z t) x y z t ∧
      Diffusion (case1 eta).c (case1 eta).mc (1 + eta * (case1 eta).c x y z t ^ 2) ((case1 eta).r x y z t) x y z t) ∧
    Diffusion (case2 eta).p (case2 eta).mp 0 ((case2 eta).f x y z t) x y z t ∧
    (Diffusion (case3 eta).p (case3 eta).mp 0 ((case3 eta).f x y z t) x y z t ∧
      Diffusion (case3 eta).c (case3 eta).mc (1 + eta * (case3 eta).c x y z t ^ 2) ((case3 eta).r x y z t) x y z t) :=
  ⟨⟨diffusion1 x y z t _ _ (by simp [case1]), diffusion1 x y z t _ _ rfl⟩, diffusion2 x y z t _ _ (by simp [case2]),
    diffusion3 x y z t _ _ (by simp [case3]), diffusion3 x y z t _ _ rfl⟩

theorem Diffusion.unique {n : Nat} {u : ℝ → ℝ → ℝ → ℝ → ℝ} {m : ℝ → ℝ → ℝ → ℝ → Fin n → ℝ} {s s' f f' x y z t : ℝ}
    (h : Diffusion u m s f x y z t) (h' : Diffusion u m s' f' x y z t) : f - s = f' - s' := by
  obtain ⟨du, dm, h1, h2, h3⟩ := h.balance
  obtain ⟨du', dm', h1', h2', h3'⟩ := h'.balance
  have e : ∀ j : Fin n, dm j = dm' j := fun j => partial_unique (h2 j) (h2' j)
  rw [← h3, ← h3', h1.unique h1', Finset.sum_congr rfl fun j _ => e j]
  ring

/-- C121, disagreement: in dimension two the source of the concentration is computed with `c_exact(t, x, y, z)`: the
concentration solves its equation exactly where the reaction of that number is its own. -/
theorem C121_arguments_violated :
    Diffusion (case2 eta).c (case2 eta).mc (1 + eta * (case2 eta).c x y z t ^ 2) ((case2 eta).r x y z t) x y z t ↔
      eta * p2 x y z t ^ 2 = eta * p2 t x y z ^ 2 := by
  have h0 := diffusion2 x y z t (1 + eta * p2 t x y z ^ 2) ((case2 eta).r x y z t) rfl
  constructor
  · intro h
    have := h.unique h0
    simp only [case2] at this
    linear_combination -this
  · intro h
    show Diffusion p2 mp2 (1 + eta * p2 x y z t ^ 2) _ x y z t
    rw [h]
    exact h0

/-- C121: the plane of the mesh is `z = 0`: there the concentration solves its equation only on the boundary, at the
time zero or without reaction. -/
theorem C121_plane_violated :
    Diffusion (case2 eta).c (case2 eta).mc (1 + eta * (case2 eta).c x y 0 t ^ 2) ((case2 eta).r x y 0 t) x y 0 t ↔
      eta = 0 ∨ t = 0 ∨ OnBoundary 2 x y 0 := by
  rw [C121_arguments_violated]
  have e : p2 t x y 0 = 0 := by unfold p2; ring
  rw [e]
  have key : eta * p2 x y 0 t ^ 2 = eta * 0 ^ 2 ↔ eta * p2 x y 0 t ^ 2 = 0 := by
    rw [show eta * (0 : ℝ) ^ 2 = 0 by ring]
  rw [key, mul_eq_zero, pow_eq_zero_iff two_ne_zero]
  unfold p2 OnBoundary
  simp only [mul_eq_zero, sub_eq_zero]
  constructor
  · rintro (h | h | ((h | h) | h) | h)
    · exact .inl h
    · exact .inr (.inl h)
    · exact .inr (.inr (.inr (.inl h.symm)))
    · exact .inr (.inr (.inl h))
    · exact .inr (.inr (.inr (.inr (.inl ⟨le_refl 2, .inr h.symm⟩))))
    · exact .inr (.inr (.inr (.inr (.inl ⟨le_refl 2, .inl h⟩))))
  · rintro (h | h | h | h | ⟨-, h | h⟩ | ⟨h, -⟩)
    · exact .inl h
    · exact .inr (.inl h)
    · exact .inr (.inr (.inl (.inl (.inr h))))
    · exact .inr (.inr (.inl (.inl (.inl h.symm))))
    · exact .inr (.inr (.inr h))
    · exact .inr (.inr (.inl (.inr h.symm)))
    · omega

/-- C121: pressure and concentration vanish at the time zero and on the boundary of the unit cube. -/
theorem C121_vanish {dim : Nat} {k : Case} (h : exactCase eta dim = .ok k)
    (hb : t = 0 ∨ OnBoundary k.n x y z) : k.p x y z t = 0 ∧ k.c x y z t = 0 := by
  unfold exactCase at h
  split at h
  · cases h
    have : p1 x y z t = 0 := by
      unfold p1
      rcases hb with rfl | rfl | rfl | ⟨h, -⟩ | ⟨h, -⟩
      · ring
      · ring
      · ring
      · exact absurd h (by simp [case1])
      · exact absurd h (by simp [case1])
    exact ⟨this, this⟩
  · cases h
    have : p2 x y z t = 0 := by
      unfold p2
      rcases hb with rfl | rfl | rfl | ⟨-, rfl | rfl⟩ | ⟨h, -⟩
      · ring
      · ring
      · ring
      · ring
      · ring
      · exact absurd h (by simp [case2])
    exact ⟨this, this⟩
  · cases h
    have : p3 x y z t = 0 := by
      unfold p3
      rcases hb with rfl | rfl | rfl | ⟨-, rfl | rfl⟩ | ⟨-, rfl | rfl⟩ <;> ring
    exact ⟨this, this⟩
  · cases h

/-- C121: the solutions are linear in time, so that the implicit Euler step has no error: with the fields at `t` and at
`t - dt` the weak form of C120 is minus the divergence of the product of the fields with the test fluxes. -/
theorem C121_euler {k : Case} (hk : k = case1 eta ∨ k = case3 eta) {dt : ℝ} (hdt : dt ≠ 0) (d d0 e0 : ℝ) (w : Fields ℝ)
    (hd : ∃ dm : Fin k.n → ℝ, (∀ j : Fin k.n, HasPartial j (fun x y z => k.mp x y z t j) (dm j) x y z) ∧ d = ∑ j, dm j) :
    weak k.n ⟨1, 1, eta⟩ dt (k.f x y z t) (k.r x y z t) (k.fields x y z t d d) (k.fields x y z (t - dt) d0 e0) w =
      - productRule (k.p x y z t) (k.c x y z t) (fun j => - k.mp x y z t j) (fun j => - k.mc x y z t j) w := by
  obtain ⟨dm, h1, rfl⟩ := hd
  have euler : ∀ u : ℝ → ℝ → ℝ → ℝ → ℝ, (∀ s, u x y z s = s * u x y z 1) → ∀ a, HasDerivAt (fun s => u x y z s) a t →
      (u x y z t - u x y z (t - dt)) / dt = a := by
    intro u hu a ha
    have : HasDerivAt (fun s => u x y z s) (u x y z 1) t := quad 0 (u x y z 1) 0 (fun s => by rw [hu s]; ring) (by ring)
    rw [ha.unique this, hu t, hu (t - dt)]
    field_simp
    ring
  have main : ∀ (n : Nat) (u : ℝ → ℝ → ℝ → ℝ → ℝ) (m : ℝ → ℝ → ℝ → ℝ → Fin n → ℝ) (f r : ℝ) (dm : Fin n → ℝ),
      (∀ s, u x y z s = s * u x y z 1) →
      (∀ j : Fin n, HasPartial j (fun x y z => m x y z t j) (dm j) x y z) →
      Diffusion u m 0 f x y z t → Diffusion u m (1 + eta * u x y z t ^ 2) r x y z t →
      weak n ⟨1, 1, eta⟩ dt f r ⟨vec (m x y z t), ∑ j, dm j, vec (m x y z t), ∑ j, dm j, u x y z t, u x y z t⟩
        ⟨vec (m x y z (t - dt)), d0, vec (m x y z (t - dt)), e0, u x y z (t - dt), u x y z (t - dt)⟩ w =
      - productRule (u x y z t) (u x y z t) (fun j => - m x y z t j) (fun j => - m x y z t j) w := by
    intro n u m f r dm hu h1 h2 h3
    obtain ⟨du, dm', h4, h5, h6⟩ := h2.balance
    obtain ⟨du', dm'', h7, h8, h9⟩ := h3.balance
    have same : ∀ q : Fin n → ℝ, (∀ j : Fin n, HasPartial j (fun x y z => m x y z t j) (q j) x y z) → q = dm := by
      intro q hq
      funext j
      exact partial_unique (hq j) (h1 j)
    rw [same dm' h5] at h6
    rw [same dm'' h8] at h9
    unfold weak productRule
    dsimp only
    rw [euler u hu du h4, ← h6, ← h9, h7.unique h4]
    have hv : ∀ q : Nat → ℝ, ∑ l ∈ Finset.range n, vec (m x y z t) l / 1 * q l = ∑ j : Fin n, m x y z t j * q j := by
      intro q
      rw [Finset.sum_range]
      refine Finset.sum_congr rfl fun j _ => ?_
      rw [div_one, vec, dif_pos j.2]
    rw [hv, hv]
    simp only [neg_mul, Finset.sum_neg_distrib]
    ring
  rcases hk with rfl | rfl
  · exact main 1 p1 mp1 _ _ dm (fun s => by unfold p1; ring) h1 (C121_solutions eta x y z t).1.1
      (C121_solutions eta x y z t).1.2
  · exact main 3 p3 mp3 _ _ dm (fun s => by unfold p3; ring) h1 (C121_solutions eta x y z t).2.2.1
      (C121_solutions eta x y z t).2.2.2

/-- C121: other dimensions raise `ValueError`. -/
theorem C121_dimension (dim : Nat) : (∃ k, exactCase eta dim = .ok k ∧ k.n = dim) ∧ dim ∈ [1, 2, 3] ∨
    exactCase eta dim = .error .valueError ∧ dim ∉ [1, 2, 3] := by
  unfold exactCase
  split
  · exact .inl ⟨⟨_, rfl, rfl⟩, by decide⟩
  · exact .inl ⟨⟨_, rfl, rfl⟩, by decide⟩
  · exact .inl ⟨⟨_, rfl, rfl⟩, by decide⟩
  · refine .inr ⟨rfl, ?_⟩
    simp only [List.mem_cons, List.not_mem_nil, or_false, not_or]
    exact ⟨‹_›, ‹_›, ‹_›⟩

/-- In the middle of the unit square at the time one the concentration `1/16` does not solve its equation. -/
example : ¬ Diffusion (case2 1).c (case2 1).mc (1 + 1 * (case2 1).c (1 / 2) (1 / 2) 0 1 ^ 2)
    ((case2 1).r (1 / 2) (1 / 2) 0 1) (1 / 2) (1 / 2) 0 1 := by
  rw [C121_plane_violated]
  unfold OnBoundary
  norm_num

example : (case2 1).c (1 / 2) (1 / 2) 0 1 = 1 / 16 := by norm_num [case2, p2]

#print axioms C121_solutions
#print axioms C121_arguments_violated
#print axioms C121_plane_violated
#print axioms C121_vanish
#print axioms C121_euler
#print axioms C121_dimension

end Verif.Transport.Exact
