/-
Helper lemmas for C120.
-/
import Verif.Spec.Transport
import Verif.Lemmas.Laplace
import Verif.Lemmas.Cosserat
import Mathlib.Tactic.LinearCombination

namespace Verif.Transport
open Assembly L2Form Laplace

variable {K X R : Type} [Field K] [CommRing R] [Algebra K R]

/-- Sums of the degrees of freedom with the coefficients `G` -/
def comb (N : Nat) (alpha : Nat → R) (G : Nat → K) : R := ∑ b ∈ Finset.range N, alpha b * algebraMap K R (G b)

theorem comb_block {N off n : Nat} (h : off + n ≤ N) (alpha : Nat → R) {G g : Nat → K}
    (hin : ∀ j < n, G (off + j) = g j) (hout : ∀ b, b < off ∨ off + n ≤ b → G b = 0) :
    ∑ j ∈ Finset.range n, alpha (off + j) * algebraMap K R (g j) = comb N alpha G := by
  obtain ⟨m, rfl⟩ := Nat.exists_eq_add_of_le h
  unfold comb
  rw [Finset.sum_range_add, Finset.sum_range_add]
  rw [Finset.sum_eq_zero (s := Finset.range off), Finset.sum_eq_zero (s := Finset.range m), zero_add, add_zero]
  · exact Finset.sum_congr rfl fun j hj => by rw [hin j (Finset.mem_range.1 hj)]
  · intro b _
    rw [hout _ (Or.inr (by omega)), map_zero, mul_zero]
  · intro b hb
    rw [hout _ (Or.inl (Finset.mem_range.1 hb)), map_zero, mul_zero]

/-- The fields with degrees of freedom in the algebra -/
def stateR (s : Spaces K X) (alpha : Nat → R) (i : Nat) : Fields R where
  mp d := comb (size s) alpha fun b => (basis s i b).mp d
  divMp := comb (size s) alpha fun b => (basis s i b).divMp
  mc d := comb (size s) alpha fun b => (basis s i b).mc d
  divMc := comb (size s) alpha fun b => (basis s i b).divMc
  p := comb (size s) alpha fun b => (basis s i b).p
  c := comb (size s) alpha fun b => (basis s i b).c

section
variable (s : Spaces K X) (i : Nat)

theorem basis_mp {a : Nat} (h : a < s.mp.tab.nPhi) : basis s i a =
    ⟨fun d => s.mp.tab.val 0 i a d, divOf s s.mp.tab i a, fun _ => 0, 0, 0, 0⟩ := if_pos h

theorem basis_mc {a : Nat} (h : a < s.mc.nPhi) : basis s i (s.mp.tab.nPhi + a) =
    ⟨fun _ => 0, 0, fun d => s.mc.val 0 i a d, divOf s s.mc i a, 0, 0⟩ := by
  unfold basis
  rw [if_neg (by omega), if_pos (by omega), Nat.add_sub_cancel_left]

theorem basis_p {a : Nat} (h : a < s.p.nPhi) : basis s i (s.mp.tab.nPhi + s.mc.nPhi + a) =
    ⟨fun _ => 0, 0, fun _ => 0, 0, s.p.val 0 i a 0, 0⟩ := by
  unfold basis
  rw [if_neg (by omega), if_neg (by omega), if_pos (by omega), Nat.add_sub_cancel_left]

theorem basis_c (a : Nat) : basis s i (s.mp.tab.nPhi + s.mc.nPhi + s.p.nPhi + a) =
    ⟨fun _ => 0, 0, fun _ => 0, 0, 0, s.c.val 0 i a 0⟩ := by
  unfold basis
  rw [if_neg (by omega), if_neg (by omega), if_neg (by omega), Nat.add_sub_cancel_left]

theorem basis_cases (P : Nat → Fields K → Prop)
    (h1 : ∀ a, a < s.mp.tab.nPhi → P a
      ⟨fun d => s.mp.tab.val 0 i a d, divOf s s.mp.tab i a, fun _ => 0, 0, 0, 0⟩)
    (h2 : ∀ a, s.mp.tab.nPhi ≤ a → a < s.mp.tab.nPhi + s.mc.nPhi → P a
      ⟨fun _ => 0, 0, fun d => s.mc.val 0 i (a - s.mp.tab.nPhi) d, divOf s s.mc i (a - s.mp.tab.nPhi), 0, 0⟩)
    (h3 : ∀ a, s.mp.tab.nPhi + s.mc.nPhi ≤ a → a < s.mp.tab.nPhi + s.mc.nPhi + s.p.nPhi → P a
      ⟨fun _ => 0, 0, fun _ => 0, 0, s.p.val 0 i (a - (s.mp.tab.nPhi + s.mc.nPhi)) 0, 0⟩)
    (h4 : ∀ a, s.mp.tab.nPhi + s.mc.nPhi + s.p.nPhi ≤ a → P a
      ⟨fun _ => 0, 0, fun _ => 0, 0, 0, s.c.val 0 i (a - (s.mp.tab.nPhi + s.mc.nPhi + s.p.nPhi)) 0⟩)
    (a : Nat) : P a (basis s i a) := by
  unfold basis
  split
  · exact h1 a ‹_›
  split
  · exact h2 a (by omega) ‹_›
  split
  · exact h3 a (by omega) ‹_›
  · exact h4 a (by omega)

variable (alpha : Nat → R)

theorem stateR_mp (d : Nat) : ∑ j ∈ Finset.range s.mp.tab.nPhi, alpha (0 + j) * algebraMap K R (s.mp.tab.val 0 i j d) =
    (stateR s alpha i).mp d := by
  refine comb_block (by unfold size; omega) alpha (fun j hj => ?_) (fun b hb => ?_)
  · rw [Nat.zero_add, basis_mp s i hj]
  · revert hb
    exact basis_cases s i (fun b f => b < 0 ∨ 0 + s.mp.tab.nPhi ≤ b → f.mp d = 0) (fun a h1 h2 => by omega)
      (fun _ _ _ _ => rfl) (fun _ _ _ _ => rfl) (fun _ _ _ => rfl) b

theorem stateR_divMp : ∑ j ∈ Finset.range s.mp.tab.nPhi, alpha (0 + j) * algebraMap K R (divOf s s.mp.tab i j) =
    (stateR s alpha i).divMp := by
  refine comb_block (by unfold size; omega) alpha (fun j hj => ?_) (fun b hb => ?_)
  · rw [Nat.zero_add, basis_mp s i hj]
  · revert hb
    exact basis_cases s i (fun b f => b < 0 ∨ 0 + s.mp.tab.nPhi ≤ b → f.divMp = 0) (fun a h1 h2 => by omega)
      (fun _ _ _ _ => rfl) (fun _ _ _ _ => rfl) (fun _ _ _ => rfl) b

theorem stateR_mc (d : Nat) : ∑ j ∈ Finset.range s.mc.nPhi, alpha (s.mp.tab.nPhi + j) *
    algebraMap K R (s.mc.val 0 i j d) = (stateR s alpha i).mc d := by
  refine comb_block (by unfold size; omega) alpha (fun j hj => ?_) (fun b hb => ?_)
  · rw [basis_mc s i hj]
  · revert hb
    exact basis_cases s i (fun b f => b < s.mp.tab.nPhi ∨ s.mp.tab.nPhi + s.mc.nPhi ≤ b → f.mc d = 0)
      (fun _ _ _ => rfl) (fun a h1 h2 h3 => by omega) (fun _ _ _ _ => rfl) (fun _ _ _ => rfl) b

theorem stateR_divMc : ∑ j ∈ Finset.range s.mc.nPhi, alpha (s.mp.tab.nPhi + j) *
    algebraMap K R (divOf s s.mc i j) = (stateR s alpha i).divMc := by
  refine comb_block (by unfold size; omega) alpha (fun j hj => ?_) (fun b hb => ?_)
  · rw [basis_mc s i hj]
  · revert hb
    exact basis_cases s i (fun b f => b < s.mp.tab.nPhi ∨ s.mp.tab.nPhi + s.mc.nPhi ≤ b → f.divMc = 0)
      (fun _ _ _ => rfl) (fun a h1 h2 h3 => by omega) (fun _ _ _ _ => rfl) (fun _ _ _ => rfl) b

theorem stateR_p : ∑ j ∈ Finset.range s.p.nPhi, alpha (s.mp.tab.nPhi + s.mc.nPhi + j) *
    algebraMap K R (s.p.val 0 i j 0) = (stateR s alpha i).p := by
  refine comb_block (by unfold size; omega) alpha (fun j hj => ?_) (fun b hb => ?_)
  · rw [basis_p s i hj]
  · revert hb
    exact basis_cases s i (fun b f => b < s.mp.tab.nPhi + s.mc.nPhi ∨ s.mp.tab.nPhi + s.mc.nPhi + s.p.nPhi ≤ b → f.p = 0)
      (fun _ _ _ => rfl) (fun _ _ _ _ => rfl) (fun a h1 h2 h3 => by omega) (fun _ _ _ => rfl) b

theorem stateR_c : ∑ j ∈ Finset.range s.c.nPhi, alpha (s.mp.tab.nPhi + s.mc.nPhi + s.p.nPhi + j) *
    algebraMap K R (s.c.val 0 i j 0) = (stateR s alpha i).c := by
  have := comb_block (R := R) (N := size s) (off := s.mp.tab.nPhi + s.mc.nPhi + s.p.nPhi) (n := s.c.nPhi)
    (G := fun b => if b < size s then (basis s i b).c else 0) (g := fun j => s.c.val 0 i j 0)
    (by unfold size; omega) alpha (fun j hj => by
      rw [if_pos (by unfold size; omega), basis_c s i]) (fun b hb => by
      split
      · rename_i hs
        unfold size at hs
        revert hb hs
        exact basis_cases s i (fun b f => (b < s.mp.tab.nPhi + s.mc.nPhi + s.p.nPhi ∨
          s.mp.tab.nPhi + s.mc.nPhi + s.p.nPhi + s.c.nPhi ≤ b) → b < s.mp.tab.nPhi + s.mc.nPhi + s.p.nPhi + s.c.nPhi →
            f.c = 0)
          (fun _ _ _ _ => rfl) (fun _ _ _ _ _ => rfl) (fun _ _ _ _ _ => rfl) (fun a h1 h2 h3 => by omega) b
      · rfl)
  rw [this]
  exact Finset.sum_congr rfl fun b hb => by dsimp only; rw [if_pos (Finset.mem_range.1 hb)]

end

/-- The equations without the sources, with fields in the algebra -/
def weakR (dim : Nat) (co : Coeffs K) (dt : K) (w w0 : Fields R) (z : Fields K) : R :=
  (∑ d ∈ Finset.range dim, w.mp d * algebraMap K R (1 / co.kappa) * algebraMap K R (z.mp d) -
    w.p * algebraMap K R z.divMp) +
  (∑ d ∈ Finset.range dim, w.mc d * algebraMap K R (1 / co.delta) * algebraMap K R (z.mc d) -
    w.c * algebraMap K R z.divMc) +
  ((w.p - w0.p) * algebraMap K R (1 / dt) + w.divMp) * algebraMap K R z.p +
  ((w.c - w0.c) * algebraMap K R (1 / dt) + w.divMc + (1 + algebraMap K R co.eta * w.c * w.c)) * algebraMap K R z.c

theorem divergences_ok {t : Tab K} {dim n i : Nat} {det : K} (h : n = t.nPhi) :
    divergences t dim n i det = .ok (t.divergence dim i det) := by
  unfold divergences
  rw [if_neg (by omega), h]
  rfl

theorem integrand_spec {s : Spaces K X} (h : Shapes s) (co : Coeffs K) (dt : K) (alpha : Nat → R) (old : Nat → K)
    (i : Nat) : ∃ v, integrand s co dt alpha old i = .ok v ∧ v.n = size s ∧ ∀ a < size s, v.val a =
      weakR s.mp.dim co dt (stateR s alpha i) (stateR s (fun b => algebraMap K R (old b)) i) (basis s i a) := by
  have n1 : s.nMp = s.mp.tab.nPhi := by unfold Spaces.nMp; rw [h.mpOne, Nat.mul_one]
  have n2 : s.nMc = s.mc.nPhi := by unfold Spaces.nMc; rw [h.mcOne, Nat.mul_one]
  have n3 : s.nP = s.p.nPhi := by unfold Spaces.nP; rw [h.pOne, Nat.mul_one]
  have n4 : s.nC = s.c.nPhi := by unfold Spaces.nC; rw [h.cOne, Nat.mul_one]
  have d1 : min s.mp.dim s.mp.tab.nVal = s.mp.dim := Nat.min_eq_left h.mpValues
  have d2 : min s.mp.dim s.mc.nVal = s.mp.dim := Nat.min_eq_left h.mcValues
  have d3 : min s.mp.dim s.p.nVal = 1 := by rw [h.pScalar]; exact Nat.min_eq_right h.dim
  have d4 : min s.mp.dim s.c.nVal = 1 := by rw [h.cScalar]; exact Nat.min_eq_right h.dim
  have d5 : min s.mp.tab.nDer s.mp.dim = s.mp.dim := Nat.min_eq_right h.mpDer
  have d6 : min s.mc.nDer s.mp.dim = s.mp.dim := Nat.min_eq_right h.mcDer
  unfold integrand
  dsimp only
  rw [divergences_ok n1, divergences_ok n2]
  simp only [Res.bind_ok, n1, n2, n3, n4]
  simp only [matmul, Arr.sub, Cosserat.add, rowOf, Arr.lift, Arr.transpose, Arr.scale, Tab.values, Tab.divergence,
    d1, d2, d3, d4, d5, d6, Res.bind_ok, ne_eq, not_true, or_self, if_false, Finset.sum_range_one, Nat.zero_add]
  refine ⟨_, rfl, by simp only [Spaces.nDof, n1, n2, n3, n4, size], ?_⟩
  intro a ha
  dsimp only
  have e1 := stateR_mp s i alpha
  have e2 := stateR_divMp s i alpha
  have e3 := stateR_mc s i alpha
  have e4 := stateR_divMc s i alpha
  have e5 := stateR_p s i alpha
  have e6 := stateR_c s i alpha
  have e7 := stateR_p s i fun b => algebraMap K R (old b)
  have e8 := stateR_c s i fun b => algebraMap K R (old b)
  simp only [Nat.zero_add, divOf] at e1 e2 e3 e4 e5 e6 e7 e8
  simp only [e1, e2, e3, e4, e5, e6, e7, e8]
  split
  · rw [basis_mp s i ‹_›]
    simp only [weakR, divOf, map_zero, mul_zero, Finset.sum_const_zero, sub_zero, add_zero]
  split
  · obtain ⟨j, rfl⟩ := Nat.exists_eq_add_of_le (Nat.le_of_not_lt ‹¬ a < s.mp.tab.nPhi›)
    rw [basis_mc s i (by omega)]
    simp only [weakR, divOf, map_zero, mul_zero, Finset.sum_const_zero, sub_zero, add_zero, zero_add,
      Nat.add_sub_cancel_left]
  split
  · obtain ⟨j, rfl⟩ := Nat.exists_eq_add_of_le (Nat.le_of_not_lt ‹¬ a < s.mp.tab.nPhi + s.mc.nPhi›)
    rw [basis_p s i (by omega)]
    simp only [weakR, map_zero, mul_zero, Finset.sum_const_zero, sub_zero, add_zero, zero_add,
      Nat.add_sub_cancel_left]
    ring
  · obtain ⟨j, rfl⟩ := Nat.exists_eq_add_of_le (Nat.le_of_not_lt ‹¬ a < s.mp.tab.nPhi + s.mc.nPhi + s.p.nPhi›)
    rw [basis_c s i]
    simp only [weakR, map_zero, mul_zero, Finset.sum_const_zero, sub_zero, add_zero, zero_add,
      Nat.add_sub_cancel_left]
    ring

/-- A slice of consecutive entries -/
theorem subAt_slice {n b m : Nat} (h : b + m ≤ n) (r : Vec R) (g : Nat → R) :
    ∃ r', r.subAt (sliceIdx n b (b + m) 1) ⟨m, g⟩ = .ok r' ∧ r'.n = r.n ∧
      ∀ a, r'.val a = r.val a - if b ≤ a ∧ a < b + m then g (a - b) else 0 := by
  rw [sliceIdx_contig h]
  unfold Vec.subAt
  rw [if_neg (by simp)]
  refine ⟨_, rfl, rfl, ?_⟩
  intro a
  simp only [List.mem_range'_1]
  split
  · rename_i hb
    obtain ⟨j, rfl⟩ := Nat.exists_eq_add_of_le hb.1
    have : j < m := by omega
    have e := idxOf_range' (c := b) (m := m) (step := 1) (by omega) this
    rw [Nat.one_mul] at e
    rw [e, Nat.add_sub_cancel_left]
  · rw [sub_zero]

theorem form_spec {s : Spaces K X} (h : Shapes s) (rhsF rhsR : X → K → Nat → Nat → K) (co : X → Nat → Coeffs K) (dt : K)
    (alpha : Nat → R) (old : Nat → K) (t : K) : ∃ r, form s rhsF rhsR co dt alpha old t = .ok r ∧ r.n = size s ∧
      ∀ a < size s, r.val a = ∑ i ∈ Finset.range s.mp.nPts, algebraMap K R (s.mp.det i * s.mp.weights i) *
        (weakR s.mp.dim (co s.mp.x i) dt (stateR s alpha i) (stateR s (fun b => algebraMap K R (old b)) i) (basis s i a) -
          algebraMap K R (rhsF s.mp.x t 0 i * (basis s i a).p + rhsR s.mp.x t 0 i * (basis s i a).c)) := by
  have n1 : s.nMp = s.mp.tab.nPhi := by unfold Spaces.nMp; rw [h.mpOne, Nat.mul_one]
  have n2 : s.nMc = s.mc.nPhi := by unfold Spaces.nMc; rw [h.mcOne, Nat.mul_one]
  have n3 : s.nP = s.p.nPhi := by unfold Spaces.nP; rw [h.pOne, Nat.mul_one]
  have n4 : s.nC = s.c.nPhi := by unfold Spaces.nC; rw [h.cOne, Nat.mul_one]
  have nn : s.nDof = size s := by unfold Spaces.nDof size; rw [n1, n2, n3, n4]
  obtain ⟨r1, a1, a2, a3⟩ := subAt_slice (n := size s) (b := s.mp.tab.nPhi + s.mc.nPhi) (m := s.p.nPhi)
    (by unfold size; omega) (Vec.zeros (size s) : Vec R) (fun a => algebraMap K R
      (∑ i ∈ Finset.range s.mp.nPts, s.mp.det i * s.mp.weights i * s.p.val 0 i a 0 * rhsF s.mp.x t 0 i))
  obtain ⟨r2, b1, b2, b3⟩ := subAt_slice (n := size s) (b := s.mp.tab.nPhi + s.mc.nPhi + s.p.nPhi) (m := s.c.nPhi)
    (by unfold size; omega) r1 (fun a => algebraMap K R
      (∑ i ∈ Finset.range s.mp.nPts, s.mp.det i * s.mp.weights i * s.c.val 0 i a 0 * rhsR s.mp.x t 0 i))
  obtain ⟨r, c1, c2, c3⟩ := foldlM_addScaled (size s) (fun i => integrand s (co s.mp.x i) dt alpha old i)
    (fun i => algebraMap K R (s.mp.det i * s.mp.weights i)) _ (List.range s.mp.nPts)
    (fun i _ => integrand_spec h (co s.mp.x i) dt alpha old i) r2 (b2.trans a2)
  refine ⟨r, ?_, c2, ?_⟩
  · unfold form
    dsimp only
    simp only [h.pOne, h.cOne, List.range_one, List.foldlM_cons, List.foldlM_nil, n1, n2, n3, n4, nn, Nat.zero_add]
    rw [a1]
    simp only [Res.bind_ok, Res.pure_eq]
    rw [b1]
    simp only [Res.bind_ok]
    exact c1
  · intro a ha
    rw [c3 a ha, b3 a, a3 a, sum_map_range]
    simp only [mul_sub, Finset.sum_sub_distrib]
    have hz : (Vec.zeros (size s) : Vec R).val a = 0 := rfl
    rw [hz]
    have key : (if s.mp.tab.nPhi + s.mc.nPhi ≤ a ∧ a < s.mp.tab.nPhi + s.mc.nPhi + s.p.nPhi then algebraMap K R
          (∑ i ∈ Finset.range s.mp.nPts, s.mp.det i * s.mp.weights i *
            s.p.val 0 i (a - (s.mp.tab.nPhi + s.mc.nPhi)) 0 * rhsF s.mp.x t 0 i) else 0) +
        (if s.mp.tab.nPhi + s.mc.nPhi + s.p.nPhi ≤ a ∧ a < s.mp.tab.nPhi + s.mc.nPhi + s.p.nPhi + s.c.nPhi then
          algebraMap K R (∑ i ∈ Finset.range s.mp.nPts, s.mp.det i * s.mp.weights i *
            s.c.val 0 i (a - (s.mp.tab.nPhi + s.mc.nPhi + s.p.nPhi)) 0 * rhsR s.mp.x t 0 i) else 0) =
        ∑ i ∈ Finset.range s.mp.nPts, algebraMap K R (s.mp.det i * s.mp.weights i) *
          algebraMap K R (rhsF s.mp.x t 0 i * (basis s i a).p + rhsR s.mp.x t 0 i * (basis s i a).c) := by
      simp only [← map_mul, ← map_sum]
      unfold size at ha
      rcases Nat.lt_or_ge a (s.mp.tab.nPhi + s.mc.nPhi) with h1 | h1
      · rw [if_neg (by omega), if_neg (by omega), add_zero, ← map_zero (algebraMap K R)]
        congr 1
        symm
        refine Finset.sum_eq_zero fun i _ => ?_
        have hb : (basis s i a).p = 0 ∧ (basis s i a).c = 0 := by
          revert h1
          exact basis_cases s i (fun b f => b < s.mp.tab.nPhi + s.mc.nPhi → f.p = 0 ∧ f.c = 0)
            (fun _ _ _ => ⟨rfl, rfl⟩) (fun _ _ _ _ => ⟨rfl, rfl⟩) (fun _ _ _ _ => by omega) (fun _ _ _ => by omega) a
        rw [hb.1, hb.2, mul_zero, mul_zero, add_zero, mul_zero]
      · obtain ⟨j, rfl⟩ := Nat.exists_eq_add_of_le h1
        rcases Nat.lt_or_ge j s.p.nPhi with h2 | h2
        · rw [if_pos (by omega), if_neg (by omega), add_zero]
          congr 1
          refine Finset.sum_congr rfl fun i _ => ?_
          rw [basis_p s i h2, Nat.add_sub_cancel_left]
          ring
        · obtain ⟨j, rfl⟩ := Nat.exists_eq_add_of_le h2
          rw [if_neg (by omega), if_pos (by omega), zero_add]
          congr 1
          refine Finset.sum_congr rfl fun i _ => ?_
          rw [← Nat.add_assoc, basis_c s i, Nat.add_sub_cancel_left]
          ring
    rw [← key]
    ring

/-! ### Dual numbers -/

theorem comb_self (N : Nat) (alpha G : Nat → K) : comb N alpha G = ∑ b ∈ Finset.range N, alpha b * G b := rfl

theorem comb_fst (N : Nat) (alpha G : Nat → K) :
    (comb N (adVar alpha) G).fst = ∑ b ∈ Finset.range N, alpha b * G b := by
  unfold comb
  rw [TrivSqZeroExt.fst_sum, TrivSqZeroExt.algebraMap_eq_inl]
  simp [adVar]

theorem comb_snd (N : Nat) (alpha G : Nat → K) {j : Nat} (hj : j < N) : (comb N (adVar alpha) G).snd j = G j := by
  unfold comb
  rw [TrivSqZeroExt.snd_sum, TrivSqZeroExt.algebraMap_eq_inl]
  simp only [Finset.sum_apply]
  rw [Finset.sum_eq_single j]
  · simp [adVar]
  · intro b _ hb
    simp [adVar, Ne.symm hb]
  · intro h
    exact absurd (Finset.mem_range.2 hj) h

theorem comb_const (N : Nat) (old G : Nat → K) :
    comb N (fun b => algebraMap K (Dual K) (old b)) G = TrivSqZeroExt.inl (∑ b ∈ Finset.range N, old b * G b) := by
  unfold comb
  simp only [← map_mul, ← map_sum]
  rfl

theorem am_fst (x : K) : (algebraMap K (Dual K) x).fst = x := rfl
theorem am_snd (x : K) : (algebraMap K (Dual K) x).snd = 0 := rfl

theorem weakR_fst (s : Spaces K X) (co : Coeffs K) (dt : K) (alpha old : Nat → K) (i : Nat) (f r : K) (z : Fields K) :
    (weakR s.mp.dim co dt (stateR s (adVar alpha) i) (stateR s (fun b => algebraMap K (Dual K) (old b)) i) z -
      algebraMap K (Dual K) (f * z.p + r * z.c)).fst =
      weak s.mp.dim co dt f r (state s alpha i) (state s old i) z := by
  unfold weakR weak
  simp only [stateR, state, comb_const, TrivSqZeroExt.fst_add, TrivSqZeroExt.fst_sub, TrivSqZeroExt.fst_sum,
    TrivSqZeroExt.fst_mul, TrivSqZeroExt.fst_one, TrivSqZeroExt.fst_inl, comb_fst, am_fst]
  simp only [mul_one_div]
  ring

theorem weakR_snd (s : Spaces K X) (co : Coeffs K) (dt : K) (alpha old : Nat → K) (i : Nat) (x : K) (z : Fields K)
    {b : Nat} (hb : b < size s) :
    (weakR s.mp.dim co dt (stateR s (adVar alpha) i) (stateR s (fun b => algebraMap K (Dual K) (old b)) i) z -
      algebraMap K (Dual K) x).snd b =
      weakDer s.mp.dim co dt (state s alpha i) (basis s i b) z := by
  unfold weakR weakDer
  simp only [stateR, state, comb_const, TrivSqZeroExt.snd_add, TrivSqZeroExt.snd_sub, TrivSqZeroExt.snd_sum,
    TrivSqZeroExt.snd_mul, TrivSqZeroExt.snd_one, TrivSqZeroExt.snd_inl, TrivSqZeroExt.fst_add, TrivSqZeroExt.fst_sub,
    TrivSqZeroExt.fst_mul, TrivSqZeroExt.fst_one, TrivSqZeroExt.fst_inl, comb_fst, am_fst, am_snd,
    Pi.add_apply, Pi.sub_apply, Finset.sum_apply, Pi.smul_apply, smul_zero, zero_add, add_zero, sub_zero,
    MulOpposite.smul_eq_mul_unop, MulOpposite.unop_op, smul_eq_mul, comb_snd _ _ _ hb, Pi.zero_apply]
  simp only [div_eq_mul_inv, one_mul]
  ring_nf
  simp only [mul_comm co.kappa⁻¹, mul_comm co.delta⁻¹]
  ring

end Verif.Transport
