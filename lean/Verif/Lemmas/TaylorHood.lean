/-
Helper lemmas for C74.
-/
import Verif.Spec.TaylorHood
import Verif.Lemmas.Elasticity
import Verif.Lemmas.Cosserat

namespace Verif.TaylorHood
open Assembly L2Form Laplace Elasticity

variable {K X R : Type} [Field K] [CommRing R] [Algebra K R]

theorem addIdentity_ok {a : Arr R} {m : Nat} (h : a.rows = m) (c : R) :
    addIdentity a m c = .ok ⟨a.rows, a.cols, fun k l => a.val k l + c * if k = l then 1 else 0⟩ := by
  unfold addIdentity
  rw [if_pos h.symm]

theorem addIdentity_mk {n m k : Nat} {f : Nat → Nat → R} (h : n = m) (c : R) :
    addIdentity ⟨n, k, f⟩ m c = .ok ⟨n, k, fun a b => f a b + c * if a = b then 1 else 0⟩ :=
  addIdentity_ok (a := ⟨n, k, f⟩) h c

/-- The total stress computed by the code, for numbers. -/
def totalStress (mu lam : K) (g : Nat → Nat → K) (p : K) (k l : Nat) : K :=
  stressOf 2 mu lam g k l + (- (1 / 2) * ∑ q ∈ Finset.range 2, stressOf 2 mu lam g q q) *
    (if k = l then 1 else 0) + p * if k = l then 1 else 0

theorem totalStress_row [CharZero K] (mu lam : K) (g : Nat → Nat → K) (p : K) (v : Nat → K) {c : Nat}
    (hc : c < 2) :
    ∑ l ∈ Finset.range 2, v l * totalStress mu lam g p c l =
      2 * mu * contract 2 (deviator fun k l => if c = k then v l else 0) (deviator g) +
        p * tr 2 (fun k l => if c = k then v l else 0) := by
  have h2 : (2 : K) ≠ 0 := two_ne_zero
  interval_cases c <;>
  · simp [contract, deviator, sym, tr, totalStress, stressOf, Finset.sum_range_succ]
    field_simp
    ring

/-- The shapes fit: a plane cell. -/
structure Fits (u : PElem K X) : Prop where
  dim : u.dim = 2
  der : u.tab.nDer = 2

theorem gradOf_low {u : PElem K X} {i a : Nat} (h : a < u.tab.nPhi * 2) :
    gradOf u i a = basisGrad 2 u i a := by
  funext k l
  unfold gradOf
  rw [if_pos h]

theorem gradOf_high {u : PElem K X} {i a : Nat} (h : ¬ a < u.tab.nPhi * 2) :
    gradOf u i a = fun _ _ => 0 := by
  funext k l
  unfold gradOf
  rw [if_neg h]

theorem pressureOf_low {u : PElem K X} {p : Tab K} {i a : Nat} (h : a < u.tab.nPhi * 2) :
    pressureOf u p i a = 0 := if_pos h

theorem pressureOf_high {u : PElem K X} {p : Tab K} {i a : Nat} (h : ¬ a < u.tab.nPhi * 2) :
    pressureOf u p i a = p.val 0 i (a - u.tab.nPhi * 2) 0 := if_neg h

theorem deviator_zero (k l : Nat) : deviator (fun _ _ => (0 : K)) k l = 0 := by
  simp [deviator, sym, tr]

theorem contract_dev_zero (h : Nat → Nat → K) :
    contract 2 (deviator fun _ _ => 0) h = 0 :=
  Finset.sum_eq_zero fun _ _ => Finset.sum_eq_zero fun _ _ => by rw [deviator_zero, zero_mul]

theorem tr_zero : tr 2 (fun _ _ => (0 : K)) = 0 := by simp [tr]

theorem integrand_spec [CharZero K] {u : PElem K X} (h : Fits u) (p : Tab K) (mu lam : K)
    (alpha : Nat → R) (i : Nat) :
    ∃ v, integrand u p 2 mu lam alpha i = .ok v ∧ v.n = dofs u p ∧
      ∀ a < dofs u p, v.val a = ∑ b ∈ Finset.range (dofs u p),
        algebraMap K R (mixedPower mu lam (gradOf u i a) (pressureOf u p i a) (gradOf u i b)
          (pressureOf u p i b)) * alpha b := by
  have hcomp : gradComps u = 2 := by unfold gradComps; rw [if_pos h.dim]
  obtain ⟨g, hg, g1, g2, g3⟩ := gradients_spec (h.der.trans h.dim.symm) i
  rw [hcomp] at g2
  obtain ⟨gu, hgu, u1, u2, u3⟩ := fieldGradient_spec
    (total := u.tab.nPhi * 2 + p.nPhi) (b := 0)
    (nPhi := u.tab.nPhi) (comps := 2) (m := 2) (by omega) le_rfl g1 alpha
  obtain ⟨ph, hph, p1, p2, p3⟩ := fieldGradient_spec
    (total := u.tab.nPhi * 2 + p.nPhi) (b := u.tab.nPhi * 2)
    (nPhi := p.nPhi) (comps := 1) (m := 1) (by omega) le_rfl
    (g := ⟨p.nPhi, 1, fun a _ => p.val 0 i a 0⟩) rfl alpha
  rw [Nat.mul_one] at hph
  have hG : ∀ k < 2, ∀ l < 2, gu.val k l = ∑ b ∈ Finset.range (dofs u p),
      alpha b * algebraMap K R (gradOf u i b k l) := by
    intro k hk l _
    rw [u3 k hk l, dofs, Finset.sum_range_add]
    have z : ∑ b ∈ Finset.range p.nPhi, alpha (u.tab.nPhi * 2 + b) *
        algebraMap K R (gradOf u i (u.tab.nPhi * 2 + b) k l) = 0 :=
      Finset.sum_eq_zero fun b _ => by
        rw [gradOf_high (by omega), map_zero, mul_zero]
    rw [z, add_zero]
    refine Finset.sum_congr rfl fun b hb => ?_
    rw [Nat.zero_add, gradOf_low (Finset.mem_range.1 hb), g3, basisGrad]
  have hP : ph.val 0 0 = ∑ b ∈ Finset.range (dofs u p),
      alpha b * algebraMap K R (pressureOf u p i b) := by
    rw [p3 0 (by decide) 0, dofs, Finset.sum_range_add, Nat.mul_one]
    have z : ∑ b ∈ Finset.range (u.tab.nPhi * 2), alpha b *
        algebraMap K R (pressureOf u p i b) = 0 :=
      Finset.sum_eq_zero fun b hb => by
        rw [pressureOf, if_pos (Finset.mem_range.1 hb), map_zero, mul_zero]
    rw [z, zero_add]
    refine Finset.sum_congr rfl fun b _ => ?_
    rw [if_pos (Nat.mod_one b), Nat.div_one, pressureOf, if_neg (by omega), Nat.add_sub_cancel_left]
  obtain ⟨s, hs, s1, s2, s3⟩ := stress_spec (m := 2) (N := dofs u p) u1 (u2.trans g2) mu lam alpha
    (fun b => gradOf u i b) hG
  have hif : ∀ q : Prop, ∀ [Decidable q], algebraMap K R (if q then 1 else 0) = if q then 1 else 0 := by
    intro q _; split <;> simp
  have htr : trace s = ∑ b ∈ Finset.range (dofs u p), alpha b *
      algebraMap K R (∑ q ∈ Finset.range 2, stressOf 2 mu lam (gradOf u i b) q q) := by
    simp only [trace, s1, map_sum', Finset.mul_sum]
    rw [Finset.sum_comm]
    refine Finset.sum_congr rfl fun q hq => ?_
    rw [s3 q (Finset.mem_range.1 hq) q (Finset.mem_range.1 hq)]
  have hdiv : trace gu = ∑ b ∈ Finset.range (dofs u p), alpha b *
      algebraMap K R (tr 2 (gradOf u i b)) := by
    simp only [trace, u1, tr, map_sum', Finset.mul_sum]
    rw [Finset.sum_comm]
    refine Finset.sum_congr rfl fun q hq => ?_
    rw [hG q (Finset.mem_range.1 hq) q (Finset.mem_range.1 hq)]
  unfold integrand
  dsimp only
  rw [hg]
  simp only [Res.bind_ok]
  rw [if_neg (not_not_intro h.dim)]
  simp only [Res.pure_eq, hgu, hph, hs, Res.bind_ok]
  rw [addIdentity_ok s1]
  simp only [Res.bind_ok]
  rw [addIdentity_mk s1]
  simp only [Res.bind_ok]
  rw [matmul_ok (by simp [Arr.lift, Arr.transpose, g2, s2, u2])]
  simp only [Res.bind_ok]
  rw [matmul_ok (by simp [Arr.lift, Arr.transpose, p2])]
  simp only [Res.bind_ok, Arr.lift, Arr.transpose, g1, s1]
  rw [if_neg (by simp)]
  refine ⟨_, rfl, rfl, ?_⟩
  intro a ha
  dsimp only
  by_cases hlow : a < u.tab.nPhi * 2
  · rw [if_pos hlow]
    obtain ⟨_, hc⟩ := index_lt hlow
    have hT : ∀ l < 2, s.val (a % 2) l + algebraMap K R (- (1 / 2)) * trace s *
        (if a % 2 = l then 1 else 0) + ph.val 0 0 * (if a % 2 = l then 1 else 0) =
        ∑ b ∈ Finset.range (dofs u p), alpha b * algebraMap K R
          (totalStress mu lam (gradOf u i b) (pressureOf u p i b) (a % 2) l) := by
      intro l hl
      rw [s3 _ hc l hl, htr, hP, Finset.mul_sum, Finset.sum_mul, Finset.sum_mul,
        ← Finset.sum_add_distrib, ← Finset.sum_add_distrib]
      refine Finset.sum_congr rfl fun b _ => ?_
      simp only [totalStress, map_add, map_mul, hif]
      ring
    have hk : ∀ l ∈ Finset.range g.cols, algebraMap K R (g.val (a / 2) l) *
        (s.val (a % 2) l + algebraMap K R (- (1 / 2)) * trace s *
        (if a % 2 = l then 1 else 0) + ph.val 0 0 * (if a % 2 = l then 1 else 0)) =
        ∑ b ∈ Finset.range (dofs u p), alpha b * algebraMap K R
          (gradAt u i (a / 2) l *
            totalStress mu lam (gradOf u i b) (pressureOf u p i b) (a % 2) l) := by
      intro l hl
      rw [hT l (by rw [← g2]; exact Finset.mem_range.1 hl), Finset.mul_sum]
      refine Finset.sum_congr rfl fun b _ => ?_
      rw [g3, map_mul]
      ring
    rw [Finset.sum_congr rfl hk, Finset.sum_comm]
    refine Finset.sum_congr rfl fun b _ => ?_
    rw [← Finset.mul_sum, ← map_sum', g2, totalStress_row _ _ _ _ _ hc, ← basisGrad_eq, mul_comm,
      mixedPower, gradOf_low hlow, pressureOf_low hlow]
    congr 2
    ring
  · rw [if_neg hlow, hdiv, Finset.sum_range_one, hP, Finset.mul_sum, Finset.mul_sum, Finset.mul_sum,
      ← Finset.sum_sub_distrib]
    refine Finset.sum_congr rfl fun b _ => ?_
    rw [mixedPower, gradOf_high hlow, contract_dev_zero, tr_zero, pressureOf_high hlow]
    have e : 2 * mu * 0 + pressureOf u p i b * 0 +
        p.val 0 i (a - u.tab.nPhi * 2) 0 * tr 2 (gradOf u i b) -
        p.val 0 i (a - u.tab.nPhi * 2) 0 * pressureOf u p i b / (lam + mu) =
        p.val 0 i (a - u.tab.nPhi * 2) 0 * tr 2 (gradOf u i b) -
          1 / (lam + mu) * (p.val 0 i (a - u.tab.nPhi * 2) 0 * pressureOf u p i b) := by ring
    rw [e]
    simp only [map_sub, map_mul]
    ring

theorem form_spec [CharZero K] {u : PElem K X} (h : Fits u) (p : Tab K) (rhs : X → Nat → Nat → K)
    (mu lam : X → Nat → K) (alpha : Nat → R) :
    ∃ r, form u p 2 rhs mu lam alpha = .ok r ∧ r.n = dofs u p ∧
      ∀ a < dofs u p, r.val a = ∑ b ∈ Finset.range (dofs u p),
          algebraMap K R (mixedMatrix u p mu lam a b) * alpha b +
        algebraMap K R (mixedLoad u rhs a) := by
  have l1 := loads_adds (R := R) (total := u.tab.nPhi * 2 + p.nPhi) (b := 0)
    (nPhi := u.tab.nPhi) (comps := 2) (by omega)
    (fun c a => algebraMap K R (∑ i ∈ Finset.range u.nPts,
      u.det i * u.weights i * u.tab.val 0 i a 0 * rhs u.x c i))
    (Vec.zeros (u.tab.nPhi * 2 + p.nPhi))
  simp only [Nat.add_zero] at l1
  obtain ⟨r1, e1, d1⟩ := Cosserat.named l1
  have n1 : r1.n = dofs u p := by rw [d1]; rfl
  unfold form
  dsimp only
  rw [e1]
  simp only [Res.bind_ok]
  obtain ⟨r, hr, hn, hv⟩ := quadrature_affine (R := R) (dofs u p) (dofs u p)
    u.nPts (fun i => u.det i * u.weights i)
    (fun i => integrand u p 2 (mu u.x i) (lam u.x i) alpha i) _ (fun _ _ => 0) alpha
    (fun i _ => by
      obtain ⟨v, h1, h2, h3⟩ := integrand_spec h p (mu u.x i) (lam u.x i) alpha i
      exact ⟨v, h1, h2, fun a ha => by rw [h3 a ha, map_zero, add_zero]⟩)
    r1 n1
  refine ⟨r, hr, hn, ?_⟩
  intro a ha
  rw [hv a ha, d1]
  simp only [mul_zero, Finset.sum_const_zero, map_zero, add_zero]
  rw [add_comm]
  congr 1
  simp only [Vec.zeros, zero_add, Nat.zero_le, true_and, Nat.sub_zero]
  unfold mixedLoad bodyLoad
  split
  · rfl
  · rw [map_zero]

theorem integrand_error {u : PElem K X} (hd : u.tab.nDer = u.dim) (p : Tab K) {comps : Nat}
    (hc : u.dim ≠ 2 ∨ comps ≠ 2) (hp : 0 < u.tab.nPhi) (mu lam : K) (alpha : Nat → R) (i : Nat) :
    integrand u p comps mu lam alpha i =
      .error (if u.dim = 2 then .valueError else .assertionError) := by
  obtain ⟨g, hg, g1, g2, g3⟩ := gradients_spec hd i
  unfold integrand
  dsimp only
  rw [hg]
  simp only [Res.bind_ok]
  by_cases hdim : u.dim = 2
  swap
  · rw [if_pos hdim, if_neg hdim]; rfl
  rw [if_neg (not_not_intro hdim), if_pos hdim]
  simp only [Res.pure_eq, Res.bind_ok]
  have hcomp : gradComps u = 2 := by unfold gradComps; rw [if_pos hdim]
  rw [hcomp] at g2
  rcases fieldGradient_total (u.tab.nPhi * comps + p.nPhi) 0 (u.tab.nPhi * comps) comps
    2 g alpha with e | ⟨gu, e, u1, u2⟩
  · rw [e]; rfl
  rw [e]
  simp only [Res.bind_ok]
  rcases fieldGradient_total (u.tab.nPhi * comps + p.nPhi) (u.tab.nPhi * comps) p.nPhi 1
    1 (⟨p.nPhi, 1, fun a _ => p.val 0 i a 0⟩ : Arr K) alpha with e | ⟨ph, e, p1, p2⟩
  · rw [e]; rfl
  rw [e]
  simp only [Res.bind_ok]
  rcases stress_total 2 mu lam gu with e | ⟨s, e, s1, s2⟩
  · rw [e]; rfl
  rw [u1] at s1
  rw [e]
  simp only [Res.bind_ok]
  rw [addIdentity_ok s1]
  simp only [Res.bind_ok]
  rw [addIdentity_mk s1]
  simp only [Res.bind_ok]
  rw [matmul_ok (by simp [Arr.lift, Arr.transpose, g2, s2, u2])]
  simp only [Res.bind_ok]
  rw [matmul_ok (by simp [Arr.lift, Arr.transpose, p2])]
  simp only [Res.bind_ok, Arr.lift, Arr.transpose, g1, s1]
  rw [if_pos]
  · rfl
  · intro hne
    have := Nat.eq_of_mul_eq_mul_left hp hne
    omega

theorem form_error {u : PElem K X} (hd : u.tab.nDer = u.dim) (p : Tab K) {comps : Nat}
    (hc : u.dim ≠ 2 ∨ comps ≠ 2) (hp : 0 < u.tab.nPhi) (hn : 0 < u.nPts) (rhs : X → Nat → Nat → K)
    (mu lam : X → Nat → K) (alpha : Nat → R) :
    form u p comps rhs mu lam alpha =
      .error (if u.dim = 2 then .valueError else .assertionError) := by
  have l1 := loads_adds (R := R) (total := u.tab.nPhi * comps + p.nPhi) (b := 0)
    (nPhi := u.tab.nPhi) (comps := comps) (by omega)
    (fun c a => algebraMap K R (∑ i ∈ Finset.range u.nPts,
      u.det i * u.weights i * u.tab.val 0 i a 0 * rhs u.x c i))
    (Vec.zeros (u.tab.nPhi * comps + p.nPhi))
  simp only [Nat.add_zero] at l1
  obtain ⟨r1, e1, d1⟩ := Cosserat.named l1
  unfold form
  dsimp only
  rw [e1]
  simp only [Res.bind_ok]
  obtain ⟨m, hm⟩ := Nat.exists_eq_succ_of_ne_zero (Nat.pos_iff_ne_zero.1 hn)
  rw [hm, List.range_succ_eq_map, List.foldlM_cons, integrand_error hd p hc hp]
  rfl

theorem gradOf_sum (u : PElem K X) (p : Tab K) (v : Nat → K) (i : Nat) {k : Nat} (hk : k < 2)
    (l : Nat) :
    ∑ b ∈ Finset.range (dofs u p), v b * gradOf u i b k l = fieldGrad 2 u v i k l := by
  rw [dofs, Finset.sum_range_add]
  have z : ∑ b ∈ Finset.range p.nPhi, v (u.tab.nPhi * 2 + b) *
      gradOf u i (u.tab.nPhi * 2 + b) k l = 0 :=
    Finset.sum_eq_zero fun b _ => by rw [gradOf_high (by omega), mul_zero]
  rw [z, add_zero, fieldGrad_eq u v i hk]
  · refine Finset.sum_congr rfl fun b hb => ?_
    rw [gradOf_low (Finset.mem_range.1 hb)]

theorem pressureOf_sum (u : PElem K X) (p : Tab K) (v : Nat → K) (i : Nat) :
    ∑ b ∈ Finset.range (dofs u p), v b * pressureOf u p i b = fieldPressure u p v i := by
  rw [dofs, Finset.sum_range_add]
  have z : ∑ b ∈ Finset.range (u.tab.nPhi * 2), v b * pressureOf u p i b = 0 :=
    Finset.sum_eq_zero fun b hb => by rw [pressureOf, if_pos (Finset.mem_range.1 hb), mul_zero]
  rw [z, zero_add, fieldPressure]
  refine Finset.sum_congr rfl fun b _ => ?_
  rw [pressureOf, if_neg (by omega), Nat.add_sub_cancel_left]

/-- The form is linear in its second argument. -/
theorem mixedPower_eq [CharZero K] (mu lam : K) (g : Nat → Nat → K) (p : K) (h : Nat → Nat → K)
    (q : K) : mixedPower mu lam g p h q =
      ∑ k ∈ Finset.range 2, ∑ l ∈ Finset.range 2,
        (2 * mu * deviator g k l + if k = l then p else 0) * h k l +
      (tr 2 g - p / (lam + mu)) * q := by
  have h2 : (2 : K) ≠ 0 := two_ne_zero
  simp only [mixedPower, contract, deviator, sym, tr, Finset.sum_range_succ, Finset.sum_range_zero,
    zero_add, if_true, one_ne_zero, zero_ne_one, if_false, div_eq_mul_inv (p * q),
    div_eq_mul_inv p]
  field_simp
  ring

theorem mixedPower_comm (mu lam : K) (g : Nat → Nat → K) (p : K) (h : Nat → Nat → K) (q : K) :
    mixedPower mu lam g p h q = mixedPower mu lam h q g p := by
  simp only [mixedPower, contract, Finset.sum_range_succ, Finset.sum_range_zero]
  ring

theorem mixedPower_sum [CharZero K] (mu lam : K) (g : Nat → Nat → K) (p : K) (u : PElem K X)
    (t : Tab K) (v : Nat → K) (i : Nat) :
    mixedPower mu lam g p (fieldGrad 2 u v i) (fieldPressure u t v i) =
      ∑ b ∈ Finset.range (dofs u t),
        v b * mixedPower mu lam g p (gradOf u i b) (pressureOf u t i b) := by
  simp only [mixedPower_eq, ← pressureOf_sum]
  simp only [Finset.sum_range_succ (n := 1), Finset.sum_range_succ (n := 0), Finset.sum_range_zero,
    ← gradOf_sum u t v i (show 0 < 2 by decide), ← gradOf_sum u t v i (show 1 < 2 by decide)]
  simp only [zero_add, Finset.mul_sum, ← Finset.sum_add_distrib]
  refine Finset.sum_congr rfl fun b _ => ?_
  ring

/-- The matrix applied to a field. -/
theorem mixedMatrix_mul [CharZero K] (u : PElem K X) (t : Tab K) (mu lam : X → Nat → K) (v : Nat → K)
    (a : Nat) :
    ∑ b ∈ Finset.range (dofs u t), mixedMatrix u t mu lam a b * v b =
      ∑ i ∈ Finset.range u.nPts, u.det i * u.weights i *
        mixedPower (mu u.x i) (lam u.x i) (gradOf u i a) (pressureOf u t i a) (fieldGrad 2 u v i)
          (fieldPressure u t v i) := by
  simp only [mixedPower_sum, mixedMatrix, Finset.sum_mul, Finset.mul_sum]
  rw [Finset.sum_comm]
  refine Finset.sum_congr rfl fun i _ => Finset.sum_congr rfl fun q _ => ?_
  ring

/-- The bilinear form of the matrix. -/
theorem mixedMatrix_form [CharZero K] (u : PElem K X) (t : Tab K) (mu lam : X → Nat → K)
    (w v : Nat → K) :
    ∑ a ∈ Finset.range (dofs u t), w a * ∑ b ∈ Finset.range (dofs u t),
        mixedMatrix u t mu lam a b * v b =
      ∑ i ∈ Finset.range u.nPts, u.det i * u.weights i *
        mixedPower (mu u.x i) (lam u.x i) (fieldGrad 2 u w i) (fieldPressure u t w i)
          (fieldGrad 2 u v i) (fieldPressure u t v i) := by
  simp only [mixedMatrix_mul, Finset.mul_sum]
  rw [Finset.sum_comm]
  refine Finset.sum_congr rfl fun i _ => ?_
  rw [mixedPower_comm, mixedPower_sum, Finset.mul_sum]
  refine Finset.sum_congr rfl fun a _ => ?_
  rw [mixedPower_comm]
  ring

end Verif.TaylorHood
