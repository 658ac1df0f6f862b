/-
Helper lemmas for C129.
-/
import Verif.Spec.ThreeFieldsDiffusion
import Verif.Lemmas.Transport

namespace Verif.ThreeFields.Diffusion
open Assembly L2Form Laplace
open Transport (comb comb_block comb_fst comb_snd am_fst am_snd subAt_slice)

variable {K X R : Type} [Field K] [CommRing R] [Algebra K R]

/-- The fields with degrees of freedom in the algebra -/
def stateR (s : Spaces K X) (alpha : Nat → R) (i : Nat) : Fields R where
  q d := comb (size s) alpha fun b => (basis s i b).q d
  divQ := comb (size s) alpha fun b => (basis s i b).divQ
  divM := comb (size s) alpha fun b => (basis s i b).divM
  u := comb (size s) alpha fun b => (basis s i b).u

section
variable (s : Spaces K X) (i : Nat)

theorem basis_q {a : Nat} (h : a < s.q.tab.nPhi) : basis s i a =
    ⟨fun d => s.q.tab.val 0 i a d, divOf s s.q.tab i a, 0, 0⟩ := if_pos h

theorem basis_m {a : Nat} (h : a < s.m.nPhi) : basis s i (s.q.tab.nPhi + a) =
    ⟨fun _ => 0, 0, divOf s s.m i a, 0⟩ := by
  unfold basis
  rw [if_neg (by omega), if_pos (by omega), Nat.add_sub_cancel_left]

theorem basis_u (a : Nat) : basis s i (s.q.tab.nPhi + s.m.nPhi + a) = ⟨fun _ => 0, 0, 0, s.u.val 0 i a 0⟩ := by
  unfold basis
  rw [if_neg (by omega), if_neg (by omega), Nat.add_sub_cancel_left]

theorem basis_cases (P : Nat → Fields K → Prop)
    (h1 : ∀ a, a < s.q.tab.nPhi → P a ⟨fun d => s.q.tab.val 0 i a d, divOf s s.q.tab i a, 0, 0⟩)
    (h2 : ∀ a, s.q.tab.nPhi ≤ a → a < s.q.tab.nPhi + s.m.nPhi → P a
      ⟨fun _ => 0, 0, divOf s s.m i (a - s.q.tab.nPhi), 0⟩)
    (h3 : ∀ a, s.q.tab.nPhi + s.m.nPhi ≤ a → P a
      ⟨fun _ => 0, 0, 0, s.u.val 0 i (a - (s.q.tab.nPhi + s.m.nPhi)) 0⟩)
    (a : Nat) : P a (basis s i a) := by
  unfold basis
  split
  · exact h1 a ‹_›
  split
  · exact h2 a (by omega) ‹_›
  · exact h3 a (by omega)

variable (alpha : Nat → R)

theorem stateR_q (d : Nat) : ∑ j ∈ Finset.range s.q.tab.nPhi, alpha (0 + j) * algebraMap K R (s.q.tab.val 0 i j d) =
    (stateR s alpha i).q d := by
  refine comb_block (by unfold size; omega) alpha (fun j hj => ?_) (fun b hb => ?_)
  · rw [Nat.zero_add, basis_q s i hj]
  · revert hb
    exact basis_cases s i (fun b f => b < 0 ∨ 0 + s.q.tab.nPhi ≤ b → f.q d = 0) (fun a h1 h2 => by omega)
      (fun _ _ _ _ => rfl) (fun _ _ _ => rfl) b

theorem stateR_divQ : ∑ j ∈ Finset.range s.q.tab.nPhi, alpha (0 + j) * algebraMap K R (divOf s s.q.tab i j) =
    (stateR s alpha i).divQ := by
  refine comb_block (by unfold size; omega) alpha (fun j hj => ?_) (fun b hb => ?_)
  · rw [Nat.zero_add, basis_q s i hj]
  · revert hb
    exact basis_cases s i (fun b f => b < 0 ∨ 0 + s.q.tab.nPhi ≤ b → f.divQ = 0) (fun a h1 h2 => by omega)
      (fun _ _ _ _ => rfl) (fun _ _ _ => rfl) b

theorem stateR_divM : ∑ j ∈ Finset.range s.m.nPhi, alpha (s.q.tab.nPhi + j) *
    algebraMap K R (divOf s s.m i j) = (stateR s alpha i).divM := by
  refine comb_block (by unfold size; omega) alpha (fun j hj => ?_) (fun b hb => ?_)
  · rw [basis_m s i hj]
  · revert hb
    exact basis_cases s i (fun b f => b < s.q.tab.nPhi ∨ s.q.tab.nPhi + s.m.nPhi ≤ b → f.divM = 0)
      (fun _ _ _ => rfl) (fun a h1 h2 h3 => by omega) (fun _ _ _ => rfl) b

theorem stateR_u : ∑ j ∈ Finset.range s.u.nPhi, alpha (s.q.tab.nPhi + s.m.nPhi + j) *
    algebraMap K R (s.u.val 0 i j 0) = (stateR s alpha i).u := by
  have := comb_block (R := R) (N := size s) (off := s.q.tab.nPhi + s.m.nPhi) (n := s.u.nPhi)
    (G := fun b => if b < size s then (basis s i b).u else 0) (g := fun j => s.u.val 0 i j 0)
    (by unfold size; omega) alpha (fun j hj => by
      rw [if_pos (by unfold size; omega), basis_u s i]) (fun b hb => by
      split
      · rename_i hs
        unfold size at hs
        revert hb hs
        exact basis_cases s i (fun b f => (b < s.q.tab.nPhi + s.m.nPhi ∨
          s.q.tab.nPhi + s.m.nPhi + s.u.nPhi ≤ b) → b < s.q.tab.nPhi + s.m.nPhi + s.u.nPhi → f.u = 0)
          (fun _ _ _ _ => rfl) (fun _ _ _ _ _ => rfl) (fun a h1 h2 h3 => by omega) b
      · rfl)
  rw [this]
  exact Finset.sum_congr rfl fun b hb => by dsimp only; rw [if_pos (Finset.mem_range.1 hb)]

end

/-- The equations without the source, with fields in the algebra -/
def weakR (dim : Nat) (kappa : K) (w : Fields R) (z : Fields K) : R :=
  (∑ d ∈ Finset.range dim, w.q d * algebraMap K R (1 / kappa) * algebraMap K R (z.q d) -
    w.u * algebraMap K R z.divQ) +
  (w.divQ + w.divM) * algebraMap K R z.u

theorem divergences_ok {s : Spaces K X} {t : Tab K} {n i : Nat} (h : n = t.nPhi) (h1 : s.q.dim ≤ t.nVal)
    (h2 : s.q.dim ≤ t.nDer) (h3 : s.q.dim ≤ t.nPhi) :
    divergences t s.q.dim n i (s.q.det i) = .ok ⟨1, t.nPhi, fun _ a => divOf s t i a⟩ := by
  have e : min (min t.nDer t.nPhi) (min s.q.dim t.nVal) = s.q.dim := by omega
  unfold divergences
  rw [if_neg (by omega), e, h]
  rfl

theorem integrand_spec {s : Spaces K X} (h : Shapes s) (kappa : K) (alpha : Nat → R) {old : Vec K}
    (ho : size s ≤ old.n) (i : Nat) : ∃ v, integrand s kappa alpha old i = .ok v ∧ v.n = size s ∧
      ∀ a < size s, v.val a = weakR s.q.dim kappa (stateR s alpha i) (basis s i a) := by
  have n1 : s.nQ = s.q.tab.nPhi := by unfold Spaces.nQ; rw [h.qOne, Nat.mul_one]
  have n2 : s.nM = s.m.nPhi := by unfold Spaces.nM; rw [h.mOne, Nat.mul_one]
  have n3 : s.nU = s.u.nPhi := by unfold Spaces.nU; rw [h.uOne, Nat.mul_one]
  have n4 : min s.nDof old.n - (s.q.tab.nPhi + s.m.nPhi) = s.u.nPhi := by
    unfold size at ho
    unfold Spaces.nDof
    rw [n1, n2, n3]
    omega
  have d1 : min s.q.dim s.q.tab.nVal = s.q.dim := Nat.min_eq_left h.qValues
  have d3 : min s.q.dim s.u.nVal = 1 := by rw [h.uScalar]; exact Nat.min_eq_right h.dim
  unfold integrand
  dsimp only
  rw [divergences_ok n1 h.qValues h.qDer h.qMany, divergences_ok n2 h.mValues h.mDer h.mMany]
  simp only [Res.bind_ok, n1, n2, n3, n4]
  simp only [matmul, Arr.sub, Cosserat.add, rowOf, Arr.lift, Arr.transpose, Arr.scale, Tab.values,
    d1, d3, Res.bind_ok, ne_eq, not_true, or_self, if_false, Finset.sum_range_one, Nat.zero_add]
  refine ⟨_, rfl, by simp only [Spaces.nDof, n1, n2, n3, size], ?_⟩
  intro a ha
  dsimp only
  have e1 := stateR_q s i alpha
  have e2 := stateR_divQ s i alpha
  have e4 := stateR_divM s i alpha
  have e5 := stateR_u s i alpha
  simp only [Nat.zero_add] at e1 e2 e4 e5
  simp only [e1, e2, e4, e5]
  split
  · rw [basis_q s i ‹_›]
    simp only [weakR, map_zero, mul_zero, Finset.sum_const_zero, sub_zero, add_zero]
  split
  · obtain ⟨j, rfl⟩ := Nat.exists_eq_add_of_le (Nat.le_of_not_lt ‹¬ a < s.q.tab.nPhi›)
    rw [basis_m s i (by omega)]
    simp only [weakR, map_zero, mul_zero, Finset.sum_const_zero, sub_zero, add_zero]
  · obtain ⟨j, rfl⟩ := Nat.exists_eq_add_of_le (Nat.le_of_not_lt ‹¬ a < s.q.tab.nPhi + s.m.nPhi›)
    rw [basis_u s i]
    simp only [weakR, map_zero, mul_zero, Finset.sum_const_zero, sub_zero, zero_add,
      Nat.add_sub_cancel_left]

theorem form_spec {s : Spaces K X} (h : Shapes s) (rhs : X → Nat → Nat → K) (kappa : X → Nat → K)
    (alpha : Nat → R) {old : Vec K} (ho : size s ≤ old.n) : ∃ r, form s rhs kappa alpha old = .ok r ∧ r.n = size s ∧
      ∀ a < size s, r.val a = ∑ i ∈ Finset.range s.q.nPts, algebraMap K R (s.q.det i * s.q.weights i) *
        (weakR s.q.dim (kappa s.q.x i) (stateR s alpha i) (basis s i a) -
          algebraMap K R (rhs s.q.x 0 i * (basis s i a).u)) := by
  have n1 : s.nQ = s.q.tab.nPhi := by unfold Spaces.nQ; rw [h.qOne, Nat.mul_one]
  have n2 : s.nM = s.m.nPhi := by unfold Spaces.nM; rw [h.mOne, Nat.mul_one]
  have n3 : s.nU = s.u.nPhi := by unfold Spaces.nU; rw [h.uOne, Nat.mul_one]
  have nn : s.nDof = size s := by unfold Spaces.nDof size; rw [n1, n2, n3]
  obtain ⟨r1, a1, a2, a3⟩ := subAt_slice (n := size s) (b := s.q.tab.nPhi + s.m.nPhi) (m := s.u.nPhi)
    (by unfold size; omega) (Vec.zeros (size s) : Vec R) (fun a => algebraMap K R
      (∑ i ∈ Finset.range s.q.nPts, s.q.det i * s.q.weights i * s.u.val 0 i a 0 * rhs s.q.x 0 i))
  obtain ⟨r, c1, c2, c3⟩ := foldlM_addScaled (size s) (fun i => integrand s (kappa s.q.x i) alpha old i)
    (fun i => algebraMap K R (s.q.det i * s.q.weights i)) _ (List.range s.q.nPts)
    (fun i _ => integrand_spec h (kappa s.q.x i) alpha ho i) r1 a2
  refine ⟨r, ?_, c2, ?_⟩
  · unfold form
    dsimp only
    simp only [h.uOne, List.range_one, List.foldlM_cons, List.foldlM_nil, n1, n2, n3, nn, Nat.zero_add]
    rw [a1]
    simp only [Res.bind_ok, Res.pure_eq]
    exact c1
  · intro a ha
    rw [c3 a ha, a3 a, sum_map_range]
    simp only [mul_sub, Finset.sum_sub_distrib]
    have hz : (Vec.zeros (size s) : Vec R).val a = 0 := rfl
    rw [hz]
    have key : (if s.q.tab.nPhi + s.m.nPhi ≤ a ∧ a < s.q.tab.nPhi + s.m.nPhi + s.u.nPhi then algebraMap K R
          (∑ i ∈ Finset.range s.q.nPts, s.q.det i * s.q.weights i *
            s.u.val 0 i (a - (s.q.tab.nPhi + s.m.nPhi)) 0 * rhs s.q.x 0 i) else 0) =
        ∑ i ∈ Finset.range s.q.nPts, algebraMap K R (s.q.det i * s.q.weights i) *
          algebraMap K R (rhs s.q.x 0 i * (basis s i a).u) := by
      simp only [← map_mul, ← map_sum]
      unfold size at ha
      rcases Nat.lt_or_ge a (s.q.tab.nPhi + s.m.nPhi) with h1 | h1
      · rw [if_neg (by omega), ← map_zero (algebraMap K R)]
        congr 1
        symm
        refine Finset.sum_eq_zero fun i _ => ?_
        have hb : (basis s i a).u = 0 := by
          revert h1
          exact basis_cases s i (fun b f => b < s.q.tab.nPhi + s.m.nPhi → f.u = 0)
            (fun _ _ _ => rfl) (fun _ _ _ _ => rfl) (fun _ _ _ => by omega) a
        rw [hb, mul_zero, mul_zero]
      · obtain ⟨j, rfl⟩ := Nat.exists_eq_add_of_le h1
        rw [if_pos (by omega)]
        congr 1
        refine Finset.sum_congr rfl fun i _ => ?_
        rw [basis_u s i, Nat.add_sub_cancel_left]
        ring
    rw [← key]
    ring

theorem weakR_fst (s : Spaces K X) (kappa : K) (alpha : Nat → K) (i : Nat) (f : K) (z : Fields K) :
    (weakR s.q.dim kappa (stateR s (adVar alpha) i) z - algebraMap K (Dual K) (f * z.u)).fst =
      weak s.q.dim kappa f (state s alpha i) z := by
  unfold weakR weak
  simp only [stateR, state, TrivSqZeroExt.fst_add, TrivSqZeroExt.fst_sub, TrivSqZeroExt.fst_sum,
    TrivSqZeroExt.fst_mul, comb_fst, am_fst]
  simp only [mul_one_div]
  ring

theorem weakR_snd (s : Spaces K X) (kappa : K) (alpha : Nat → K) (i : Nat) (x : K) (z : Fields K)
    {b : Nat} (hb : b < size s) :
    (weakR s.q.dim kappa (stateR s (adVar alpha) i) z - algebraMap K (Dual K) x).snd b =
      weak s.q.dim kappa 0 (basis s i b) z := by
  unfold weakR weak
  simp only [stateR, TrivSqZeroExt.snd_add, TrivSqZeroExt.snd_sub, TrivSqZeroExt.snd_sum,
    TrivSqZeroExt.snd_mul, TrivSqZeroExt.fst_add,
    TrivSqZeroExt.fst_mul, comb_fst, am_fst, am_snd,
    Pi.add_apply, Pi.sub_apply, Finset.sum_apply, Pi.smul_apply, smul_zero, zero_add, sub_zero,
    MulOpposite.smul_eq_mul_unop, MulOpposite.unop_op, comb_snd _ _ _ hb, Pi.zero_apply]
  simp only [div_eq_mul_inv, one_mul]

end Verif.ThreeFields.Diffusion
