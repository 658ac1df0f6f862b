/-
Property theorems C122: the forms of the problem of Oden (examples/oden_problem).
-/
import Verif.Spec.Oden
import Verif.Props.Laplace

namespace Verif.Oden
open Assembly L2Form Laplace

variable {K X R : Type} [Field K] [CommRing R] [Algebra K R]

theorem add_ok {a b : Arr R} (h : a.rows = b.rows) (h' : a.cols = b.cols) :
    add a b = .ok ⟨a.rows, a.cols, fun i j => a.val i j + b.val i j⟩ := by
  unfold add
  rw [if_neg (by simp [h, h'])]

/-- The integrand, in every point -/
def pointVal (q : Elem K X) (u : Tab K) (alpha : Nat → R) (i a : Nat) : R :=
  if a < q.tab.nPhi then
    ∑ j ∈ Finset.range q.tab.nPhi, alpha j * algebraMap K R
      (∑ d ∈ Finset.range q.dim, q.tab.val 0 i j d * q.tab.val 0 i a d) -
    ∑ j ∈ Finset.range u.nPhi, alpha (q.tab.nPhi + j) * algebraMap K R (u.val 0 i j 0 * divAt q i a)
  else
    ∑ j ∈ Finset.range q.tab.nPhi, alpha j * algebraMap K R (u.val 0 i (a - q.tab.nPhi) 0 * divAt q i j) +
    ∑ j ∈ Finset.range u.nPhi, alpha (q.tab.nPhi + j) *
      algebraMap K R (u.val 0 i j 0 * u.val 0 i (a - q.tab.nPhi) 0)

theorem integrand_spec {q : Elem K X} {u : Tab K} (h : MixedShapes q u) (alpha : Nat → R) (i : Nat) :
    ∃ v, integrand q u q.tab.nPhi u.nPhi alpha i = .ok v ∧ v.n = q.tab.nPhi + u.nPhi ∧
      ∀ a < q.tab.nPhi + u.nPhi, v.val a = pointVal q u alpha i a := by
  have hd : min q.dim q.tab.nVal = q.dim := Nat.min_eq_left h.values
  have hd' : min q.tab.nDer q.dim = q.dim := Nat.min_eq_right h.derivatives
  have hp : min q.dim u.nVal = 1 := by rw [h.scalar]; exact Nat.min_eq_right h.dim
  unfold integrand
  dsimp only
  rw [matmul_ok (by simp [rowOf, Arr.lift, Tab.values])]
  simp only [Res.bind_ok]
  rw [matmul_ok (by simp [rowOf, Arr.lift, Tab.values])]
  simp only [Res.bind_ok]
  rw [matmul_ok (by simp [rowOf, Arr.lift, Arr.transpose, Tab.divergence])]
  simp only [Res.bind_ok]
  rw [matmul_ok (by simp [Arr.lift, Arr.transpose, Tab.values])]
  simp only [Res.bind_ok]
  rw [matmul_ok (by simp [Arr.lift, Tab.values, Tab.divergence, hp])]
  simp only [Res.bind_ok]
  rw [sub_ok (by simp [rowOf]) (by simp [Arr.lift, Arr.transpose, Tab.values, Tab.divergence])]
  simp only [Res.bind_ok]
  rw [matmul_ok (by simp [Arr.lift, Arr.transpose, Tab.values, Tab.divergence, hp])]
  simp only [Res.bind_ok]
  rw [matmul_ok (by simp [Arr.lift, Arr.transpose, Tab.values])]
  simp only [Res.bind_ok]
  rw [add_ok (by simp [rowOf]) (by simp [Arr.lift, Arr.transpose, Tab.values])]
  simp only [Res.bind_ok]
  rw [if_neg (by simp [Arr.lift, Arr.transpose, Tab.values])]
  refine ⟨_, rfl, rfl, ?_⟩
  intro a ha
  dsimp only [pointVal]
  split
  · simp only [Arr.transpose, Arr.lift, Tab.values, rowOf, Tab.divergence, hd, hd', hp, Finset.sum_range_one]
    congr 1
    · simp only [Finset.sum_mul, map_mul, map_sum']
      rw [Finset.sum_comm]
      refine Finset.sum_congr rfl fun j _ => ?_
      rw [Finset.mul_sum]
      refine Finset.sum_congr rfl fun d _ => ?_
      rw [Nat.zero_add]
      ring
    · rw [Finset.sum_mul]
      refine Finset.sum_congr rfl fun j _ => ?_
      rw [map_mul, divAt]
      ring
  · simp only [Arr.transpose, Arr.lift, Tab.values, rowOf, Tab.divergence, hd, hd', hp, Finset.sum_range_one]
    congr 1
    · rw [Finset.sum_mul]
      refine Finset.sum_congr rfl fun j _ => ?_
      rw [map_mul, divAt, Nat.zero_add]
      ring
    · rw [Finset.sum_mul]
      refine Finset.sum_congr rfl fun j _ => ?_
      rw [map_mul]
      ring

theorem matrix_val (q : Elem K X) (u : Tab K) (alpha : Nat → R) (a : Nat) :
    ∑ i ∈ Finset.range q.nPts, algebraMap K R (q.det i * q.weights i) * pointVal q u alpha i a =
      ∑ b ∈ Finset.range (q.tab.nPhi + u.nPhi), algebraMap K R (matrix q u a b) * alpha b := by
  rw [sum_split]
  by_cases hlt : a < q.tab.nPhi
  · have e1 : ∀ j ∈ Finset.range q.tab.nPhi, algebraMap K R (matrix q u a j) * alpha j =
        ∑ i ∈ Finset.range q.nPts, algebraMap K R (q.det i * q.weights i) * (alpha j * algebraMap K R
          (∑ d ∈ Finset.range q.dim, q.tab.val 0 i j d * q.tab.val 0 i a d)) := by
      intro j hj
      rw [matrix, if_pos hlt, if_pos (Finset.mem_range.1 hj), fluxMass, map_sum', Finset.sum_mul]
      refine Finset.sum_congr rfl fun i _ => ?_
      rw [map_mul, div_one, one_mul]
      ring
    have e2 : ∀ j ∈ Finset.range u.nPhi, algebraMap K R (matrix q u a (q.tab.nPhi + j)) * alpha (q.tab.nPhi + j) =
        - ∑ i ∈ Finset.range q.nPts, algebraMap K R (q.det i * q.weights i) * (alpha (q.tab.nPhi + j) *
          algebraMap K R (u.val 0 i j 0 * divAt q i a)) := by
      intro j _
      rw [matrix, if_pos hlt, if_neg (by omega), Nat.add_sub_cancel_left, divPair, map_neg, map_sum', neg_mul,
        Finset.sum_mul]
      congr 1
      refine Finset.sum_congr rfl fun i _ => ?_
      rw [map_mul]
      ring
    rw [Finset.sum_congr rfl e1, Finset.sum_congr rfl e2, Finset.sum_neg_distrib, Finset.sum_comm,
      Finset.sum_comm (s := Finset.range u.nPhi), ← sub_eq_add_neg, ← Finset.sum_sub_distrib]
    refine Finset.sum_congr rfl fun i _ => ?_
    rw [pointVal, if_pos hlt, mul_sub, Finset.mul_sum, Finset.mul_sum]
  · have e1 : ∀ j ∈ Finset.range q.tab.nPhi, algebraMap K R (matrix q u a j) * alpha j =
        ∑ i ∈ Finset.range q.nPts, algebraMap K R (q.det i * q.weights i) * (alpha j *
          algebraMap K R (u.val 0 i (a - q.tab.nPhi) 0 * divAt q i j)) := by
      intro j hj
      rw [matrix, if_neg hlt, if_pos (Finset.mem_range.1 hj), divPair, map_sum', Finset.sum_mul]
      refine Finset.sum_congr rfl fun i _ => ?_
      rw [map_mul]
      ring
    have e2 : ∀ j ∈ Finset.range u.nPhi, algebraMap K R (matrix q u a (q.tab.nPhi + j)) * alpha (q.tab.nPhi + j) =
        ∑ i ∈ Finset.range q.nPts, algebraMap K R (q.det i * q.weights i) * (alpha (q.tab.nPhi + j) *
          algebraMap K R (u.val 0 i j 0 * u.val 0 i (a - q.tab.nPhi) 0)) := by
      intro j _
      rw [matrix, if_neg hlt, if_neg (by omega), Nat.add_sub_cancel_left, mass, map_sum', Finset.sum_mul]
      refine Finset.sum_congr rfl fun i _ => ?_
      rw [map_mul]
      ring
    rw [Finset.sum_congr rfl e1, Finset.sum_congr rfl e2, Finset.sum_comm,
      Finset.sum_comm (s := Finset.range u.nPhi), ← Finset.sum_add_distrib]
    refine Finset.sum_congr rfl fun i _ => ?_
    rw [pointVal, if_neg hlt, mul_add, Finset.mul_sum, Finset.mul_sum]

theorem form_spec {q : Elem K X} {u : Tab K} (h : MixedShapes q u) (rhs : X → Nat → Nat → K) (alpha : Nat → R) :
    ∃ r, form q u 1 1 rhs alpha = .ok r ∧ r.n = q.tab.nPhi + u.nPhi ∧ ∀ a < q.tab.nPhi + u.nPhi, r.val a =
      ∑ b ∈ Finset.range (q.tab.nPhi + u.nPhi), algebraMap K R (matrix q u a b) * alpha b -
        algebraMap K R (mixedSource q u rhs a) := by
  obtain ⟨r0, hr0, hn0, ha0⟩ := subAt_block (R := R) (q.tab.nPhi + u.nPhi) q.tab.nPhi u.nPhi (by omega)
    (fun a => algebraMap K R
      (∑ i ∈ Finset.range q.nPts, q.det i * q.weights i * u.val 0 i a 0 * rhs q.x 0 i))
  obtain ⟨r, hr, hn, hval⟩ := foldlM_addScaled (q.tab.nPhi + u.nPhi)
    (fun i => integrand q u q.tab.nPhi u.nPhi alpha i)
    (fun i => algebraMap K R (q.det i * q.weights i)) _ (List.range q.nPts)
    (fun i _ => integrand_spec h alpha i) r0 hn0
  refine ⟨r, ?_, hn, ?_⟩
  · unfold form
    dsimp only
    simp only [List.range_one, List.foldlM_cons, List.foldlM_nil, Nat.mul_one, Nat.zero_add]
    rw [hr0]
    simp only [Res.bind_ok, Res.pure_eq]
    rw [hr]
    rfl
  · intro a ha
    rw [hval a ha, ha0 a ha, sum_map_range, matrix_val]
    by_cases hlt : a < q.tab.nPhi
    · rw [if_neg (by omega), mixedSource, if_pos hlt, map_zero]
      ring
    · rw [if_pos ⟨by omega, ha⟩, mixedSource, if_neg hlt, source]
      ring

theorem evaluateDual_eq {spaces : Dict String (FSpace (Elem K X))} {fs : Data K X} {iel : Nat} {q u : Elem K X}
    {qComp uComp : Nat} {rhs : X → Nat → Nat → K} (h : Input spaces fs iel q u qComp uComp rhs) (alpha : Nat → K) :
    evaluateDual (some spaces) (some fs) iel alpha = (form q u.tab qComp uComp rhs (adVar alpha)).map valDer := by
  obtain ⟨qs, h1, h2, h3⟩ := h.flux
  obtain ⟨us, h4, h5, h6⟩ := h.scalar
  unfold evaluateDual
  simp only [h1, h4, h.rhs, entry, Res.bind_ok, getIdx_of h2, getIdx_of h5, h3, h6]
  cases form q u.tab qComp uComp rhs (adVar alpha) <;> rfl

/-- C122: `OdenDualWeakForm.evaluate_form` returns the residual of the mixed form of `-Δu + u = f` in `alpha` and its
matrix. -/
theorem C122_system {spaces : Dict String (FSpace (Elem K X))} {fs : Data K X} {iel : Nat} {q u : Elem K X}
    {rhs : X → Nat → Nat → K} (h : Input spaces fs iel q u 1 1 rhs) (hs : MixedShapes q u.tab) (alpha : Nat → K) :
    ∃ r j, evaluateDual (some spaces) (some fs) iel alpha = .ok (r, j) ∧
      r.n = q.tab.nPhi + u.tab.nPhi ∧ j.n = q.tab.nPhi + u.tab.nPhi ∧
      (∀ a < r.n, r.val a = residual q u.tab rhs alpha a) ∧
      ∀ a < j.n, ∀ b < j.n, j.val a b = matrix q u.tab a b := by
  obtain ⟨r, hr, hn, hv⟩ := form_spec hs rhs (adVar alpha)
  refine ⟨(valDer r).1, (valDer r).2, ?_, hn, hn, ?_, ?_⟩
  · rw [evaluateDual_eq h, hr]; rfl
  · intro a ha
    show (r.val a).fst = _
    rw [hv a (hn ▸ ha), fst_affine]
    rfl
  · intro a ha b hb
    show (r.val a).snd b = _
    rw [hv a (hn ▸ ha), snd_affine _ _ _ _ _ (hn ▸ hb)]

theorem matrix_eq (q : Elem K X) (u : Tab K) (a b : Nat) : matrix q u a b = mixedMatrix q u (fun _ _ => 1) a b +
    if a < q.tab.nPhi ∨ b < q.tab.nPhi then 0 else mass q u (a - q.tab.nPhi) (b - q.tab.nPhi) := by
  unfold matrix mixedMatrix
  by_cases ha : a < q.tab.nPhi <;> by_cases hb : b < q.tab.nPhi <;> simp [ha, hb]

/-- C122: the quadratic form of the matrix is `∫ |q_h|² + u_h²`; it is not negative for non-negative weights and
determinants. -/
theorem C122_energy {K X : Type} [Field K] [LinearOrder K] [IsStrictOrderedRing K] (q : Elem K X) (u : Tab K)
    (v : Nat → K) :
    (∑ a ∈ Finset.range (q.tab.nPhi + u.nPhi), ∑ b ∈ Finset.range (q.tab.nPhi + u.nPhi), v a * matrix q u a b * v b =
      ∑ i ∈ Finset.range q.nPts, q.det i * q.weights i *
        (∑ d ∈ Finset.range q.dim, fluxAt q v i d ^ 2 + scalarAt q u v i ^ 2)) ∧
    ((∀ i < q.nPts, 0 ≤ q.det i * q.weights i) →
      0 ≤ ∑ a ∈ Finset.range (q.tab.nPhi + u.nPhi), ∑ b ∈ Finset.range (q.tab.nPhi + u.nPhi),
        v a * matrix q u a b * v b) := by
  have key : ∑ a ∈ Finset.range (q.tab.nPhi + u.nPhi), ∑ b ∈ Finset.range (q.tab.nPhi + u.nPhi),
      v a * matrix q u a b * v b = ∑ i ∈ Finset.range q.nPts, q.det i * q.weights i *
        (∑ d ∈ Finset.range q.dim, fluxAt q v i d ^ 2 + scalarAt q u v i ^ 2) := by
    simp_rw [matrix_eq, mul_add, add_mul, Finset.sum_add_distrib]
    rw [(C65_energy q u (fun _ _ => 1) v).1]
    congr 1
    · refine Finset.sum_congr rfl fun i _ => ?_
      rw [div_one, one_mul]
    · rw [sum_split]
      have z1 : ∑ a ∈ Finset.range q.tab.nPhi, ∑ b ∈ Finset.range (q.tab.nPhi + u.nPhi), v a *
          (if a < q.tab.nPhi ∨ b < q.tab.nPhi then 0 else mass q u (a - q.tab.nPhi) (b - q.tab.nPhi)) * v b = 0 := by
        refine Finset.sum_eq_zero fun a ha => Finset.sum_eq_zero fun b _ => ?_
        rw [if_pos (.inl (Finset.mem_range.1 ha))]
        ring
      rw [z1, zero_add]
      have z2 : ∀ a ∈ Finset.range u.nPhi, ∑ b ∈ Finset.range (q.tab.nPhi + u.nPhi), v (q.tab.nPhi + a) *
          (if q.tab.nPhi + a < q.tab.nPhi ∨ b < q.tab.nPhi then 0
            else mass q u (q.tab.nPhi + a - q.tab.nPhi) (b - q.tab.nPhi)) * v b =
          ∑ b ∈ Finset.range u.nPhi, ∑ i ∈ Finset.range q.nPts, q.det i * q.weights i *
            ((v (q.tab.nPhi + a) * u.val 0 i a 0) * (v (q.tab.nPhi + b) * u.val 0 i b 0)) := by
        intro a _
        rw [sum_split]
        have z3 : ∑ b ∈ Finset.range q.tab.nPhi, v (q.tab.nPhi + a) *
          (if q.tab.nPhi + a < q.tab.nPhi ∨ b < q.tab.nPhi then 0
            else mass q u (q.tab.nPhi + a - q.tab.nPhi) (b - q.tab.nPhi)) * v b = 0 := by
          refine Finset.sum_eq_zero fun b hb => ?_
          rw [if_pos (.inr (Finset.mem_range.1 hb))]
          ring
        rw [z3, zero_add]
        refine Finset.sum_congr rfl fun b _ => ?_
        rw [if_neg (by omega), Nat.add_sub_cancel_left, Nat.add_sub_cancel_left, mass, Finset.mul_sum, Finset.sum_mul]
        refine Finset.sum_congr rfl fun i _ => ?_
        ring
      rw [Finset.sum_congr rfl z2]
      simp_rw [Finset.sum_comm (s := Finset.range u.nPhi) (t := Finset.range q.nPts)]
      refine Finset.sum_congr rfl fun i _ => ?_
      rw [scalarAt, pow_two, Finset.sum_mul_sum, Finset.mul_sum]
      refine Finset.sum_congr rfl fun a _ => ?_
      rw [Finset.mul_sum]
  refine ⟨key, ?_⟩
  intro h
  rw [key]
  refine Finset.sum_nonneg fun i hi => mul_nonneg (h i (Finset.mem_range.1 hi)) ?_
  exact add_nonneg (Finset.sum_nonneg fun d _ => sq_nonneg _) (sq_nonneg _)

/-- C122: the residual vanishes for one field at most: two solutions have the same flux and the same scalar in every
quadrature point. -/
theorem C122_unique {K X : Type} [Field K] [LinearOrder K] [IsStrictOrderedRing K] {q : Elem K X} {u : Tab K}
    (hw : ∀ i < q.nPts, 0 < q.det i * q.weights i) {rhs : X → Nat → Nat → K} {v w : Nat → K}
    (hv : ∀ a < q.tab.nPhi + u.nPhi, residual q u rhs v a = 0)
    (hw' : ∀ a < q.tab.nPhi + u.nPhi, residual q u rhs w a = 0) :
    ∀ i < q.nPts, (∀ d < q.dim, fluxAt q v i d = fluxAt q w i d) ∧ scalarAt q u v i = scalarAt q u w i := by
  have hz : ∀ a ∈ Finset.range (q.tab.nPhi + u.nPhi), ∑ b ∈ Finset.range (q.tab.nPhi + u.nPhi),
      (v a - w a) * matrix q u a b * (v b - w b) = 0 := by
    intro a ha
    have h1 := hv a (Finset.mem_range.1 ha)
    have h2 := hw' a (Finset.mem_range.1 ha)
    unfold residual at h1 h2
    have e : ∑ b ∈ Finset.range (q.tab.nPhi + u.nPhi), (v a - w a) * matrix q u a b * (v b - w b) =
        (v a - w a) * (∑ b ∈ Finset.range (q.tab.nPhi + u.nPhi), matrix q u a b * v b -
          ∑ b ∈ Finset.range (q.tab.nPhi + u.nPhi), matrix q u a b * w b) := by
      rw [← Finset.sum_sub_distrib, Finset.mul_sum]
      exact Finset.sum_congr rfl fun b _ => by ring
    rw [e, sub_eq_zero.1 h1, sub_eq_zero.1 h2, sub_self, mul_zero]
  have hE := (C122_energy q u fun a => v a - w a).1
  rw [Finset.sum_eq_zero hz] at hE
  have hnn : ∀ i ∈ Finset.range q.nPts, 0 ≤ q.det i * q.weights i *
      (∑ d ∈ Finset.range q.dim, fluxAt q (fun a => v a - w a) i d ^ 2 + scalarAt q u (fun a => v a - w a) i ^ 2) :=
    fun i hi => mul_nonneg (hw i (Finset.mem_range.1 hi)).le
      (add_nonneg (Finset.sum_nonneg fun d _ => sq_nonneg _) (sq_nonneg _))
  intro i hi
  have h0 := (Finset.sum_eq_zero_iff_of_nonneg hnn).1 hE.symm i (Finset.mem_range.2 hi)
  have h0 := (mul_eq_zero.1 h0).resolve_left (hw i hi).ne'
  obtain ⟨h3, h4⟩ := (add_eq_zero_iff_of_nonneg (Finset.sum_nonneg fun d _ => sq_nonneg _) (sq_nonneg _)).1 h0
  refine ⟨?_, ?_⟩
  · intro d hd
    have := (Finset.sum_eq_zero_iff_of_nonneg fun d _ => sq_nonneg _).1 h3 d (Finset.mem_range.2 hd)
    have := pow_eq_zero_iff (two_ne_zero) |>.1 this
    unfold fluxAt at this ⊢
    simp only [sub_mul, Finset.sum_sub_distrib] at this
    exact sub_eq_zero.1 this
  · have := pow_eq_zero_iff (two_ne_zero) |>.1 h4
    unfold scalarAt at this ⊢
    simp only [sub_mul, Finset.sum_sub_distrib] at this
    exact sub_eq_zero.1 this

theorem integrand_error {q : Elem K X} {u : Tab K} {nQ nU : Nat} (h : nQ ≠ q.tab.nPhi ∨ nU ≠ u.nPhi)
    (alpha : Nat → R) (i : Nat) : integrand q u nQ nU alpha i = .error .valueError := by
  unfold integrand
  dsimp only
  by_cases hq : nQ = q.tab.nPhi
  · rw [matmul_ok (by simp [rowOf, Arr.lift, Tab.values, hq])]
    simp only [Res.bind_ok]
    rw [matmul_error (by simpa [rowOf, Arr.lift, Tab.values] using h.resolve_left (not_not_intro hq))]
    rfl
  · rw [matmul_error (by simpa [rowOf, Arr.lift, Tab.values] using hq)]
    rfl

/-- C122: several components are refused with a `ValueError`. -/
theorem C122_components {spaces : Dict String (FSpace (Elem K X))} {fs : Data K X} {iel : Nat} {q u : Elem K X}
    {qComp uComp : Nat} {rhs : X → Nat → Nat → K} (h : Input spaces fs iel q u qComp uComp rhs) (hn : 0 < q.nPts)
    (hu : 0 < uComp) (hc : q.tab.nPhi * qComp ≠ q.tab.nPhi ∨ u.tab.nPhi * uComp ≠ u.tab.nPhi) (alpha : Nat → K) :
    evaluateDual (some spaces) (some fs) iel alpha = .error .valueError := by
  rw [evaluateDual_eq h]
  have : form q u.tab qComp uComp rhs (adVar alpha) = .error .valueError := by
    unfold form
    dsimp only
    obtain ⟨m, hm⟩ : ∃ m, uComp = m + 1 := ⟨uComp - 1, by omega⟩
    obtain ⟨n, hn'⟩ : ∃ n, q.nPts = n + 1 := ⟨q.nPts - 1, by omega⟩
    rw [hm, List.range_succ_eq_map, List.foldlM_cons, ← hm]
    generalize hz : (Vec.zeros _ : Vec (Dual K)).subAt _ _ = r0
    cases r0 with
    | error e => rw [subAt_error hz]; rfl
    | ok r0 =>
      simp only [Res.bind_ok]
      rw [hn', List.range_succ_eq_map, List.foldlM_cons, integrand_error hc]
      rfl
  rw [this]
  rfl

/-- C122: without space or functions the forms raise a `ValueError`, without the source a `KeyError`; the function
`kappa` has no effect. -/
theorem C122_errors (spaces : Dict String (FSpace (Elem K X))) (fs : Data K X) (iel : Nat) (alpha : Nat → K) :
    evaluateDual none (some fs) iel alpha = .error .valueError ∧
    evaluateDual (some spaces) none iel alpha = .error .valueError ∧
    (∀ qs us, spaces.getItem "q" = .ok qs → spaces.getItem "u" = .ok us → fs.rhs = none →
      evaluateDual (some spaces) (some fs) iel alpha = .error .keyError) ∧
    (∀ kappa, evaluateDual (some spaces) (some { fs with kappa := kappa }) iel alpha =
      evaluateDual (some spaces) (some fs) iel alpha) ∧
    evaluatePrimal (E := Elem K X) none (some fs) iel = .error .valueError ∧
    evaluatePrimal (K := K) (X := X) (some spaces) none iel = .error .valueError ∧
    evaluatePrimal (K := K) (X := X) (E := Elem K X) none none iel = .error .valueError := by
  refine ⟨rfl, rfl, ?_, fun _ => rfl, rfl, rfl, rfl⟩
  intro qs us h1 h2 h3
  unfold evaluateDual
  simp only [h1, h2, Res.bind_ok, h3]
  rfl

/-- C122: the boundary form is the integral of the prescribed values times the normal flux, with a matrix zero. -/
theorem C122_boundary {nPts nPhi qComp dim : Nat} (weights det : Nat → K) {trace : Tab K} {dofs : List Nat}
    (normal : Nat → K) (uD : Nat → Nat → K) (hd : ∀ d ∈ dofs, d < trace.nPhi) (hl : dofs.length = nPhi)
    (hv : dim ≤ trace.nVal) :
    ∃ r j, dualBoundary nPts nPhi qComp dim weights det trace dofs normal uD = .ok (r, j) ∧
      r.n = nPhi * qComp ∧ j.n = nPhi * qComp ∧ (∀ a b, j.val a b = 0) ∧
      ∀ a d, dofs[a]? = some d → ∀ c < qComp, r.val (a * qComp + c) =
        ∑ i ∈ Finset.range nPts, det i * weights i * uD i c * ∑ k ∈ Finset.range dim, trace.val 0 i d k * normal k :=
  C65_boundary weights det normal uD hd hl hv

/-- C122, disagreement: the primal form and its Dirichlet form read a name that is not defined and never return. -/
theorem C122_primal_violated {E : Type} :
    (∀ (space : Option (Dict String (FSpace E))) (functions : Option (Data K X)) (iel : Nat),
      ∃ e, (evaluatePrimal space functions iel : Res (Vec K × Mat K)) = .error e) ∧
    (∀ (spaces : Dict String (FSpace E)) (fs : Data K X) (iel : Nat) (us : FSpace E) (el : E),
      spaces.getItem "u" = .ok us → us.elements[iel]? = some el → fs.rhs.isSome → fs.kappa.isSome →
      (evaluatePrimal (some spaces) (some fs) iel : Res (Vec K × Mat K)) = .error .nameError) ∧
    ∀ (Q F : Type) (quad : List Q) (spaces : Dict String (FSpace E)) (fs : Dict String F) (iel : Nat) (us : FSpace E)
      (el : E) (f : F), fs.getItem "u" = .ok f → spaces.getItem "u" = .ok us → us.elements[iel]? = some el →
      (primalBoundary quad spaces fs iel : Res (Vec K × Mat K)) =
        .error (if quad.length = 2 then .nameError else .valueError) := by
  refine ⟨?_, ?_, ?_⟩
  · intro space functions iel
    unfold evaluatePrimal
    split
    · rename_i spaces fs
      cases spaces.getItem "u" with
      | error e => exact ⟨e, rfl⟩
      | ok us =>
        cases entry fs.rhs with
        | error e => exact ⟨e, rfl⟩
        | ok _ =>
          cases entry fs.kappa with
          | error e => exact ⟨e, rfl⟩
          | ok _ =>
            simp only [Res.bind_ok]
            cases getIdx us.elements iel with
            | error e => exact ⟨e, rfl⟩
            | ok _ => exact ⟨_, rfl⟩
    · exact ⟨_, rfl⟩
  · intro spaces fs iel us el h1 h2 h3 h4
    obtain ⟨r, hr⟩ := Option.isSome_iff_exists.1 h3
    obtain ⟨k, hk⟩ := Option.isSome_iff_exists.1 h4
    unfold evaluatePrimal
    simp only [h1, hr, hk, entry, Res.bind_ok, getIdx_of h2]
  · intro Q F quad spaces fs iel us el f h1 h2 h3
    unfold primalBoundary
    simp only [h1, h2, Res.bind_ok, getIdx_of h3]
    match quad with
    | [] => rfl
    | [_] => rfl
    | [_, _] => rfl
    | _ :: _ :: _ :: _ => rw [if_neg (by simp)]; rfl

theorem interval_input' : Input [("q", ⟨1, [interval]⟩), ("u", ⟨1, [interval]⟩)] ⟨some fun _ _ _ => 3, none⟩ 0 interval
    interval 1 1 (fun _ _ _ => 3) :=
  ⟨⟨_, rfl, rfl, rfl⟩, ⟨_, rfl, rfl, rfl⟩, rfl⟩

/-- One flux and one scalar, both one with the divergence one: `q - u = -1` and `q + u - 3 = 0` in `(1, 2)`. -/
example : ∃ r j, evaluateDual (some [("q", ⟨1, [interval]⟩), ("u", ⟨1, [interval]⟩)])
    (some ⟨some fun _ _ _ => 3, none⟩) 0 (fun a => a + 1) = .ok (r, j) ∧ (r.val 0, r.val 1) = (-1, 0) ∧
    (j.val 0 0, j.val 0 1, j.val 1 0, j.val 1 1) = (1, -1, 1, 1) := by
  obtain ⟨r, j, h, hr, hj, hv, hm⟩ := C122_system interval_input' interval_shapes (fun a => a + 1)
  refine ⟨r, j, h, ?_, ?_⟩
  · rw [hv 0 (by rw [hr]; decide), hv 1 (by rw [hr]; decide)]
    decide +kernel
  · rw [hm 0 (by rw [hj]; decide) 0 (by rw [hj]; decide), hm 0 (by rw [hj]; decide) 1 (by rw [hj]; decide),
      hm 1 (by rw [hj]; decide) 0 (by rw [hj]; decide), hm 1 (by rw [hj]; decide) 1 (by rw [hj]; decide)]
    decide +kernel

#print axioms C122_system
#print axioms C122_energy
#print axioms C122_unique
#print axioms C122_components
#print axioms C122_errors
#print axioms C122_boundary
#print axioms C122_primal_violated

end Verif.Oden
