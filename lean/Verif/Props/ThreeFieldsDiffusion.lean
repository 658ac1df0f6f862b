/-
Property theorems C129: the diffusion form of the geothermal examples
(examples/geothermal_flow/ThreeFieldsAdvectionDiffusionWeakForm.py:11-133).
-/
import Verif.Lemmas.ThreeFieldsDiffusion
import Mathlib.Tactic.NormNum
import Mathlib.Tactic.Linarith
import Mathlib.Tactic.Positivity
import Mathlib.Algebra.Order.BigOperators.Ring.Finset
import Mathlib.LinearAlgebra.Matrix.Determinant.Basic

namespace Verif.ThreeFields.Diffusion
open Assembly L2Form Laplace

variable {K X Q : Type} [Field K] {quad : List Q}

/-- The look-ups succeed. -/
structure Input (spaces : Dict String (FSpace (Elem K X))) (fs : Data K X) (iel : Nat) (s : Spaces K X)
    (rhs : X → Nat → Nat → K) (kappa : X → Nat → K) : Prop where
  q : ∃ us, spaces.getItem "q" = .ok us ∧ us.elements[iel]? = some s.q ∧ us.nComp = s.qComp
  m : ∃ us e, spaces.getItem "m" = .ok us ∧ us.elements[iel]? = some e ∧ e.tab = s.m ∧ us.nComp = s.mComp
  u : ∃ us e, spaces.getItem "u" = .ok us ∧ us.elements[iel]? = some e ∧ e.tab = s.u ∧ us.nComp = s.uComp
  rhs : fs.rhs = some rhs
  kappa : fs.kappa = some kappa
  velocity : fs.velocity ≠ none

/-- No division by zero in the quadrature points -/
structure Regular (s : Spaces K X) (kappa : X → Nat → K) : Prop where
  det : ∀ i < s.q.nPts, s.q.det i ≠ 0
  kappa : ∀ i < s.q.nPts, kappa s.q.x i ≠ 0

theorem evaluateForm_eq {spaces : Dict String (FSpace (Elem K X))} {fs : Data K X} {iel : Nat} {s : Spaces K X}
    {rhs : X → Nat → Nat → K} {kappa : X → Nat → K} (h : Input spaces fs iel s rhs kappa) (alpha : Nat → K)
    (old : Vec K) (t : K) (hq : quad.length = 2) :
    evaluateForm (some spaces) (some fs) quad iel alpha old t = (form s rhs kappa (adVar alpha) old).map valDer := by
  obtain ⟨us, h1, h2, h3⟩ := h.q
  obtain ⟨vs, e2, h4, h5, h6, h7⟩ := h.m
  obtain ⟨ps, e3, h8, h9, h10, h11⟩ := h.u
  obtain ⟨v, hv⟩ := Option.ne_none_iff_exists'.1 h.velocity
  have e : ∃ p, unpackTwo quad = .ok p := by
    match quad, hq with
    | [a, b], _ => exact ⟨(a, b), rfl⟩
  obtain ⟨p, e⟩ := e
  unfold evaluateForm
  simp only [h1, h4, h8, h.rhs, h.kappa, hv, e, entry, Res.bind_ok, getIdx_of h2,
    getIdx_of h5, getIdx_of h9, h3, h6, h7, h10, h11]
  cases form s rhs kappa (adVar alpha) old <;> rfl

/-- C129: `evaluate_form` returns the residual of the mixed form and its matrix, whatever the last time step `old`, the
time and the velocity are. -/
theorem C129_system {spaces : Dict String (FSpace (Elem K X))} {fs : Data K X} {iel : Nat} {s : Spaces K X}
    {rhs : X → Nat → Nat → K} {kappa : X → Nat → K} (h : Input spaces fs iel s rhs kappa) (hs : Shapes s)
    (_hr : Regular s kappa) (alpha : Nat → K) {old : Vec K} (ho : size s ≤ old.n) (t : K)
    (hq : quad.length = 2) :
    ∃ r j, evaluateForm (some spaces) (some fs) quad iel alpha old t = .ok (r, j) ∧ r.n = size s ∧ j.n = size s ∧
      (∀ a < size s, r.val a = residual s rhs kappa alpha a) ∧
      ∀ a < size s, ∀ b < size s, j.val a b = matrix s kappa a b := by
  obtain ⟨r, h1, h2, h3⟩ := form_spec hs rhs kappa (adVar alpha) ho
  refine ⟨(valDer r).1, (valDer r).2, ?_, h2, h2, ?_, ?_⟩
  · rw [evaluateForm_eq h _ _ _ hq, h1]
    rfl
  · intro a ha
    show (r.val a).fst = _
    rw [h3 a ha, TrivSqZeroExt.fst_sum]
    refine Finset.sum_congr rfl fun i _ => ?_
    rw [TrivSqZeroExt.fst_mul, weakR_fst, Transport.am_fst]
  · intro a ha b hb
    show (r.val a).snd b = _
    rw [h3 a ha, TrivSqZeroExt.snd_sum, Finset.sum_apply]
    refine Finset.sum_congr rfl fun i _ => ?_
    rw [TrivSqZeroExt.snd_mul, Transport.am_fst, Transport.am_snd, smul_zero, add_zero, Pi.smul_apply,
      weakR_snd _ _ _ _ _ _ hb, smul_eq_mul]

/-- C129: there is no time derivative and no velocity in the form: two calls which differ in the last time step, the time
and the velocity only return the same. -/
theorem C129_steady {spaces : Dict String (FSpace (Elem K X))} {fs gs : Data K X} {iel : Nat} {s : Spaces K X}
    {rhs : X → Nat → Nat → K} {kappa : X → Nat → K} (h : Input spaces fs iel s rhs kappa)
    (h' : Input spaces gs iel s rhs kappa) (alpha : Nat → K) {old old' : Vec K} (ho : old.n = old'.n) (t t' : K)
    (hq : quad.length = 2) :
    evaluateForm (some spaces) (some fs) quad iel alpha old t = evaluateForm (some spaces) (some gs) quad iel alpha old' t' := by
  rw [evaluateForm_eq h _ _ _ hq, evaluateForm_eq h' _ _ _ hq]
  have : ∀ (k : K) (i : Nat), integrand s k (adVar alpha) old i = integrand s k (adVar alpha) old' i := by
    intro k i
    have key : ∀ (A B : Arr (Dual K)) (k : Res (Vec (Dual K))), (matmul A B >>= fun _ => k) =
        if A.cols ≠ B.rows then .error .valueError else k := by
      intro A B k
      unfold matmul
      split <;> rfl
    unfold integrand
    dsimp only
    simp only [key, rowOf, Arr.lift, ho]
  unfold form
  simp only [this]

/-- The sum over the degrees of freedom of the form of the basis functions is the form of the fields. -/
theorem weak_sum (s : Spaces K X) (kappa f : K) (alpha : Nat → K) (i : Nat) (z : Fields K) :
    weak s.q.dim kappa f (state s alpha i) z =
      ∑ b ∈ Finset.range (size s), weak s.q.dim kappa 0 (basis s i b) z * alpha b - f * z.u := by
  have hx : ∑ d ∈ Finset.range s.q.dim, (state s alpha i).q d / kappa * z.q d =
      ∑ b ∈ Finset.range (size s), (∑ d ∈ Finset.range s.q.dim, (basis s i b).q d / kappa * z.q d) * alpha b := by
    simp only [state, Finset.sum_div, Finset.sum_mul]
    rw [Finset.sum_comm]
    exact Finset.sum_congr rfl fun b _ => Finset.sum_congr rfl fun d _ => by ring
  unfold weak
  rw [hx]
  simp only [state]
  have : ∀ A B C D : K, A - B + (C + D - f) * z.u = A - B + C * z.u + D * z.u - f * z.u := fun A B C D => by ring
  rw [this]
  simp only [Finset.sum_mul, ← Finset.sum_add_distrib, ← Finset.sum_sub_distrib]
  congr 1
  refine Finset.sum_congr rfl fun b _ => ?_
  simp only [← Finset.sum_mul]
  ring

/-- C129: the residual is the matrix applied to the degrees of freedom, minus the source. -/
theorem C129_affine (s : Spaces K X) (rhs : X → Nat → Nat → K) (kappa : X → Nat → K) (alpha : Nat → K) (a : Nat) :
    residual s rhs kappa alpha a = ∑ b ∈ Finset.range (size s), matrix s kappa a b * alpha b -
      ∑ i ∈ Finset.range s.q.nPts, s.q.det i * s.q.weights i * (rhs s.q.x 0 i * (basis s i a).u) := by
  unfold residual matrix
  simp only [Finset.sum_mul]
  rw [Finset.sum_comm, ← Finset.sum_sub_distrib]
  refine Finset.sum_congr rfl fun i _ => ?_
  rw [weak_sum, mul_sub, Finset.mul_sum]
  congr 1
  exact Finset.sum_congr rfl fun b _ => by ring

/-- C129: the coupling of `q` and `u` is skew: what `u` gives to the law of `q` is minus what `q` gives to the balance. -/
theorem C129_skew (s : Spaces K X) (kappa : X → Nat → K) {a b : Nat} (ha : a < s.q.tab.nPhi)
    (hb : b < s.u.nPhi) :
    matrix s kappa a (s.q.tab.nPhi + s.m.nPhi + b) = - matrix s kappa (s.q.tab.nPhi + s.m.nPhi + b) a ∧
    matrix s kappa (s.q.tab.nPhi + s.m.nPhi + b) a = ∑ i ∈ Finset.range s.q.nPts,
      s.q.det i * s.q.weights i * (divOf s s.q.tab i a * s.u.val 0 i b 0) := by
  have _ := hb
  constructor
  · unfold matrix
    rw [← Finset.sum_neg_distrib]
    refine Finset.sum_congr rfl fun i _ => ?_
    rw [basis_q s i ha, basis_u]
    simp only [weak, mul_zero, zero_div, zero_mul, Finset.sum_const_zero]
    ring
  · unfold matrix
    refine Finset.sum_congr rfl fun i _ => ?_
    rw [basis_q s i ha, basis_u]
    simp [weak]

/-- C129, the property fails: the form has no equation for the advective flux: residual and row of every test function of
`m` are zero. -/
theorem C129_row_violated (s : Spaces K X) (rhs : X → Nat → Nat → K) (kappa : X → Nat → K) (alpha : Nat → K) {a : Nat}
    (ha : a < s.m.nPhi) :
    residual s rhs kappa alpha (s.q.tab.nPhi + a) = 0 ∧ ∀ b, matrix s kappa (s.q.tab.nPhi + a) b = 0 := by
  constructor
  · refine Finset.sum_eq_zero fun i _ => ?_
    rw [basis_m s i ha]
    simp [weak]
  · intro b
    refine Finset.sum_eq_zero fun i _ => ?_
    rw [basis_m s i ha]
    simp [weak]

/-- C129: so the matrix of the form alone is singular as soon as there is an advective flux. -/
theorem C129_singular_violated (s : Spaces K X) (kappa : X → Nat → K) (hm : 0 < s.m.nPhi) :
    (Matrix.of fun a b : Fin (size s) => matrix s kappa a b).det = 0 := by
  refine Matrix.det_eq_zero_of_row_eq_zero ⟨s.q.tab.nPhi, by unfold size; omega⟩ fun b => ?_
  exact (C129_row_violated s (fun _ _ _ => 0) kappa (fun _ => 0) hm).2 b

/-- C129: if the residual vanishes and the scalars contain the constants, what flows out of the element by diffusion and by
advection is what the source gives. -/
theorem C129_mass {s : Spaces K X} {rhs : X → Nat → Nat → K} {kappa : X → Nat → K} {alpha : Nat → K}
    (h0 : ∀ a < size s, residual s rhs kappa alpha a = 0)
    {one : Nat → K} (h1 : ∀ i < s.q.nPts, ∑ a ∈ Finset.range s.u.nPhi, one a * s.u.val 0 i a 0 = 1) :
    ∑ i ∈ Finset.range s.q.nPts, s.q.det i * s.q.weights i * ((state s alpha i).divQ + (state s alpha i).divM) =
    ∑ i ∈ Finset.range s.q.nPts, s.q.det i * s.q.weights i * rhs s.q.x 0 i := by
  rw [← sub_eq_zero, ← Finset.sum_sub_distrib]
  have : ∑ a ∈ Finset.range s.u.nPhi, one a * residual s rhs kappa alpha (s.q.tab.nPhi + s.m.nPhi + a) = 0 :=
    Finset.sum_eq_zero fun a ha => by
      rw [h0 _ (by have := Finset.mem_range.1 ha; unfold size; omega), mul_zero]
  rw [← this]
  unfold residual
  simp only [Finset.mul_sum]
  rw [Finset.sum_comm]
  refine Finset.sum_congr rfl fun i hi => ?_
  have e : ∀ a ∈ Finset.range s.u.nPhi, one a * (s.q.det i * s.q.weights i *
      weak s.q.dim (kappa s.q.x i) (rhs s.q.x 0 i) (state s alpha i)
        (basis s i (s.q.tab.nPhi + s.m.nPhi + a))) =
      (s.q.det i * s.q.weights i * ((state s alpha i).divQ + (state s alpha i).divM -
        rhs s.q.x 0 i)) * (one a * s.u.val 0 i a 0) := by
    intro a _
    rw [basis_u s i]
    simp only [weak, mul_zero, Finset.sum_const_zero]
    ring
  rw [Finset.sum_congr rfl e, ← Finset.mul_sum, h1 i (Finset.mem_range.1 hi)]
  ring

/-- C129: the energy of the form: the work of the diffusive flux, which is not negative, and the scalar times the divergence
of the advective flux. -/
theorem C129_energy {K : Type} [Field K] [LinearOrder K] [IsStrictOrderedRing K] (s : Spaces K X) (kappa : X → Nat → K)
    (alpha : Nat → K) :
    ∑ a ∈ Finset.range (size s), alpha a * ∑ b ∈ Finset.range (size s), matrix s kappa a b * alpha b =
      ∑ i ∈ Finset.range s.q.nPts, s.q.det i * s.q.weights i *
        (∑ d ∈ Finset.range s.q.dim, (state s alpha i).q d ^ 2 / kappa s.q.x i +
          (state s alpha i).u * (state s alpha i).divM) ∧
    ((∀ i < s.q.nPts, 0 ≤ s.q.det i * s.q.weights i) → (∀ i < s.q.nPts, 0 < kappa s.q.x i) →
      (∀ i < s.q.nPts, (state s alpha i).divM = 0) →
      0 ≤ ∑ a ∈ Finset.range (size s), alpha a * ∑ b ∈ Finset.range (size s), matrix s kappa a b * alpha b) := by
  have e : ∑ a ∈ Finset.range (size s), alpha a * ∑ b ∈ Finset.range (size s), matrix s kappa a b * alpha b =
      ∑ i ∈ Finset.range s.q.nPts, s.q.det i * s.q.weights i *
        (∑ d ∈ Finset.range s.q.dim, (state s alpha i).q d ^ 2 / kappa s.q.x i +
          (state s alpha i).u * (state s alpha i).divM) := by
    have e1 : ∀ a, ∑ b ∈ Finset.range (size s), matrix s kappa a b * alpha b =
        ∑ i ∈ Finset.range s.q.nPts, s.q.det i * s.q.weights i *
          weak s.q.dim (kappa s.q.x i) 0 (state s alpha i) (basis s i a) := by
      intro a
      have h := C129_affine s (fun _ _ _ => 0) kappa alpha a
      simp only [zero_mul, mul_zero, Finset.sum_const_zero, sub_zero] at h
      rw [← h]
      rfl
    simp only [e1, Finset.mul_sum]
    rw [Finset.sum_comm]
    refine Finset.sum_congr rfl fun i _ => ?_
    have hx : ∑ a ∈ Finset.range (size s), alpha a * ∑ d ∈ Finset.range s.q.dim,
        (state s alpha i).q d / kappa s.q.x i * (basis s i a).q d =
        ∑ d ∈ Finset.range s.q.dim, (state s alpha i).q d ^ 2 / kappa s.q.x i := by
      simp only [Finset.mul_sum]
      rw [Finset.sum_comm]
      refine Finset.sum_congr rfl fun d _ => ?_
      have : (state s alpha i).q d ^ 2 / kappa s.q.x i = (state s alpha i).q d / kappa s.q.x i *
          ∑ a ∈ Finset.range (size s), alpha a * (basis s i a).q d := by
        show _ = (state s alpha i).q d / kappa s.q.x i * (state s alpha i).q d
        ring
      rw [this, Finset.mul_sum]
      exact Finset.sum_congr rfl fun a _ => by ring
    have hd : ∑ a ∈ Finset.range (size s), alpha a * (basis s i a).divQ = (state s alpha i).divQ := rfl
    have hu : ∑ a ∈ Finset.range (size s), alpha a * (basis s i a).u = (state s alpha i).u := rfl
    calc _ = s.q.det i * s.q.weights i * (∑ a ∈ Finset.range (size s), (alpha a * ∑ d ∈ Finset.range s.q.dim,
            (state s alpha i).q d / kappa s.q.x i * (basis s i a).q d -
            (state s alpha i).u * (alpha a * (basis s i a).divQ) +
            ((state s alpha i).divQ + (state s alpha i).divM) * (alpha a * (basis s i a).u))) := by
          rw [Finset.mul_sum]
          refine Finset.sum_congr rfl fun a _ => ?_
          unfold weak
          ring
      _ = _ := by
          rw [Finset.sum_add_distrib, Finset.sum_sub_distrib, hx, ← Finset.mul_sum, ← Finset.mul_sum, hd, hu]
          ring
  refine ⟨e, fun hw hk hm => ?_⟩
  rw [e]
  refine Finset.sum_nonneg fun i hi => mul_nonneg (hw i (Finset.mem_range.1 hi)) ?_
  rw [hm i (Finset.mem_range.1 hi), mul_zero, add_zero]
  exact Finset.sum_nonneg fun d _ => div_nonneg (sq_nonneg _) (hk i (Finset.mem_range.1 hi)).le

/-- C129: with several components of a flux the form raises an `IndexError`; if the vector of the last time step is too short
for the degrees of freedom of `u`, a `ValueError`. -/
theorem C129_components {R : Type} [CommRing R] [Algebra K R] {s : Spaces K X} (hn : 0 < s.q.nPts) (hu : s.uComp = 1)
    (rhs : X → Nat → Nat → K) (kappa : X → Nat → K) (alpha : Nat → R) (old : Vec K) :
    (s.q.tab.nPhi < s.nQ ∨ (s.nQ ≤ s.q.tab.nPhi ∧ s.m.nPhi < s.nM) →
      form s rhs kappa alpha old = .error .indexError) ∧
    (s.qComp = 1 → s.mComp = 1 → old.n < size s → 0 < s.u.nPhi → form s rhs kappa alpha old = .error .valueError) := by
  have n3 : s.nU = s.u.nPhi := by unfold Spaces.nU; rw [hu, Nat.mul_one]
  have first : ∀ e, integrand s (kappa s.q.x 0) alpha old 0 = .error e → form s rhs kappa alpha old = .error e := by
    intro e hi
    obtain ⟨r1, a1, -⟩ := Transport.subAt_slice (n := s.nDof) (b := s.nQ + s.nM) (m := s.u.nPhi)
      (by unfold Spaces.nDof; omega) (Vec.zeros s.nDof : Vec R) (fun a => algebraMap K R
        (∑ i ∈ Finset.range s.q.nPts, s.q.det i * s.q.weights i * s.u.val 0 i a 0 * rhs s.q.x 0 i))
    unfold form
    dsimp only
    simp only [hu, List.range_one, List.foldlM_cons, List.foldlM_nil, n3, Nat.zero_add]
    rw [a1]
    simp only [Res.bind_ok, Res.pure_eq]
    obtain ⟨m, hm⟩ : ∃ m, s.q.nPts = m + 1 := ⟨s.q.nPts - 1, by omega⟩
    rw [hm, List.range_succ_eq_map, List.foldlM_cons, hi]
    rfl
  refine ⟨fun h => first _ ?_, fun h1 h2 ho hp => first _ ?_⟩
  · unfold integrand divergences
    dsimp only
    rcases h with h | ⟨h, h'⟩
    · rw [if_pos h]
      rfl
    · rw [if_neg (by omega)]
      simp only [Res.bind_ok]
      rw [if_pos h']
      rfl
  · have n1 : s.nQ = s.q.tab.nPhi := by unfold Spaces.nQ; rw [h1, Nat.mul_one]
    have n2 : s.nM = s.m.nPhi := by unfold Spaces.nM; rw [h2, Nat.mul_one]
    have n4 : ¬ min s.nDof old.n - (s.q.tab.nPhi + s.m.nPhi) = s.u.nPhi := by
      unfold size at ho
      unfold Spaces.nDof
      rw [n1, n2, n3]
      omega
    unfold integrand divergences
    dsimp only
    rw [if_neg (by omega), if_neg (by omega)]
    simp only [Res.bind_ok, n1, n2, n3]
    simp only [matmul, rowOf, Arr.lift, Tab.values, Res.bind_ok, ne_eq, not_true, if_false, n4, not_false_iff, if_true]
    rfl

/-- C129, the property fails on every product space of the library: its `quadrature` is a list of four, and unpacking it into
two names raises a `ValueError`. -/
theorem C129_raises_violated {spaces : Dict String (FSpace (Elem K X))} {fs : Data K X} {iel : Nat} {s : Spaces K X}
    {rhs : X → Nat → Nat → K} {kappa : X → Nat → K} (h : Input spaces fs iel s rhs kappa) (hq : quad.length = 4)
    (alpha : Nat → K) (old : Vec K) (t : K) :
    evaluateForm (some spaces) (some fs) quad iel alpha old t = .error .valueError := by
  obtain ⟨us, h1, h2, h3⟩ := h.q
  obtain ⟨vs, e2, h4, h5, h6, h7⟩ := h.m
  obtain ⟨ps, e3, h8, h9, h10, h11⟩ := h.u
  obtain ⟨v, hv⟩ := Option.ne_none_iff_exists'.1 h.velocity
  have e : unpackTwo quad = .error .valueError := by
    match quad, hq with
    | [a, b, c, d], _ => rfl
  unfold evaluateForm
  simp only [h1, h4, h8, h.rhs, h.kappa, hv, e, entry, Res.bind_ok, getIdx_of h2, getIdx_of h5, getIdx_of h9]
  rfl

/-- C129: without space or functions `evaluate_form` raises a `ValueError`, without one of the functions (also the velocity,
which is not used) a `KeyError`, beyond the elements an `IndexError`. -/
theorem C129_errors {spaces : Dict String (FSpace (Elem K X))} {fs : Data K X} (iel : Nat) (alpha : Nat → K) (old : Vec K)
    (t : K) :
    evaluateForm none (some fs) quad iel alpha old t = .error .valueError ∧
    evaluateForm (some spaces) (none : Option (Data K X)) quad iel alpha old t = .error .valueError ∧
    (∀ qs ms us, spaces.getItem "q" = .ok qs → spaces.getItem "m" = .ok ms → spaces.getItem "u" = .ok us →
      (fs.rhs = none ∨ fs.kappa = none ∨ fs.velocity = none →
        evaluateForm (some spaces) (some fs) quad iel alpha old t = .error .keyError) ∧
      (fs.rhs ≠ none → fs.kappa ≠ none → fs.velocity ≠ none → qs.elements.length ≤ iel →
        evaluateForm (some spaces) (some fs) quad iel alpha old t = .error .indexError)) := by
  refine ⟨rfl, rfl, ?_⟩
  intro qs ms us h1 h2 h3
  constructor
  · intro h
    unfold evaluateForm
    simp only [h1, h2, h3, Res.bind_ok]
    rcases fs with ⟨a, b, c⟩
    cases a
    · rfl
    cases b
    · rfl
    cases c
    · rfl
    simp at h
  · intro ha hb hc hl
    obtain ⟨a, ha⟩ := Option.ne_none_iff_exists'.1 ha
    obtain ⟨b, hb⟩ := Option.ne_none_iff_exists'.1 hb
    obtain ⟨c, hc⟩ := Option.ne_none_iff_exists'.1 hc
    unfold evaluateForm
    simp only [h1, h2, h3, ha, hb, hc, entry, Res.bind_ok]
    unfold getIdx
    rw [List.getElem?_eq_none hl]
    rfl

/-- C129: where the flux has fewer functions than the cell has dimensions, the divergence of the code leaves layers out: with
one function with the derivatives 1 and 1 in the plane it is 1 and not 2. -/
theorem C129_layers_violated : ∃ t : Tab ℚ, t.nPhi = 1 ∧ t.nDer = 2 ∧ t.nVal = 2 ∧
    (∑ k ∈ Finset.range 2, t.val (k + 1) 0 0 k) / 1 = 2 ∧
    ∃ r, divergences t 2 1 0 1 = .ok r ∧ r.val 0 0 = 1 :=
  ⟨⟨2, 1, 2, fun _ _ _ _ => 1⟩, rfl, rfl, rfl, by norm_num [Finset.sum_range_succ], _, rfl, by
    simp⟩

namespace Example

def flux : Tab ℚ := ⟨1, 1, 1, fun k _ _ _ => if k = 0 then 2 else 3⟩
def const : Tab ℚ := ⟨1, 1, 1, fun k _ _ _ => if k = 0 then 1 else 0⟩
def elem : Elem ℚ Unit := ⟨1, 1, fun _ => 1, fun _ => 1, flux, ()⟩
def spaces : Spaces ℚ Unit := ⟨elem, flux, const, 1, 1, 1⟩
def dict : Dict String (FSpace (Elem ℚ Unit)) :=
  [("q", ⟨1, [elem]⟩), ("m", ⟨1, [elem]⟩), ("u", ⟨1, [{ elem with tab := const }]⟩)]
def data : Data ℚ Unit := ⟨some fun _ _ _ => 7, some fun _ _ => 2, some fun _ _ => 1⟩

theorem input : Input dict data 0 spaces (fun _ _ _ => 7) (fun _ _ => 2) :=
  ⟨⟨_, rfl, rfl, rfl⟩, ⟨_, _, rfl, rfl, rfl, rfl⟩, ⟨_, _, rfl, rfl, rfl, rfl⟩, rfl, rfl, by simp [data]⟩

theorem shapes : Shapes spaces := by
  constructor <;> simp [spaces, elem, flux, const]

theorem regular : Regular spaces (fun _ _ => (2 : ℚ)) := by
  constructor <;> simp [spaces, elem]

/-- `q = 5`, `m = 4`, `u = 3`: the law `2 · 5 / 2 · 2 - 3 · 3`, no equation for `m`, and the balance `15 + 12 - 7`. -/
example : ∃ r j, evaluateForm (some dict) (some data) [(), ()] 0 (fun b => if b = 0 then 5 else if b = 1 then 4 else 3)
      ⟨3, fun _ => 9⟩ 0 = .ok (r, j) ∧
    r.val 0 = 1 ∧ r.val 1 = 0 ∧ r.val 2 = 20 ∧ j.val 0 0 = 2 ∧ j.val 0 2 = -3 ∧ j.val 2 0 = 3 ∧ j.val 2 1 = 3 := by
  obtain ⟨r, j, h1, h2, h3, h4, h5⟩ := C129_system input shapes regular
    (fun b => if b = 0 then 5 else if b = 1 then 4 else 3) (old := ⟨3, fun _ => 9⟩) (by decide) 0
    (quad := [(), ()]) rfl
  have hs : size spaces = 3 := rfl
  rw [hs] at h4 h5
  refine ⟨r, j, h1, ?_, ?_, ?_, ?_, ?_, ?_, ?_⟩
  · rw [h4 0 (by omega)]
    norm_num [residual, weak, state, size, basis, spaces, elem, flux, const, divOf, Finset.sum_range_succ]
  · rw [h4 1 (by omega)]
    norm_num [residual, weak, state, size, basis, spaces, elem, flux, const, divOf, Finset.sum_range_succ]
  · rw [h4 2 (by omega)]
    norm_num [residual, weak, state, size, basis, spaces, elem, flux, const, divOf, Finset.sum_range_succ]
  · rw [h5 0 (by omega) 0 (by omega)]
    norm_num [matrix, weak, size, basis, spaces, elem, flux, const, divOf, Finset.sum_range_succ]
  · rw [h5 0 (by omega) 2 (by omega)]
    norm_num [matrix, weak, size, basis, spaces, elem, flux, const, divOf, Finset.sum_range_succ]
  · rw [h5 2 (by omega) 0 (by omega)]
    norm_num [matrix, weak, size, basis, spaces, elem, flux, const, divOf, Finset.sum_range_succ]
  · rw [h5 2 (by omega) 1 (by omega)]
    norm_num [matrix, weak, size, basis, spaces, elem, flux, const, divOf, Finset.sum_range_succ]

example : evaluateForm (some dict) (some data) [(), (), (), ()] 0 (fun _ => 1) ⟨3, fun _ => 9⟩ 0 = .error .valueError :=
  C129_raises_violated input rfl _ _ _

/-- The energy theorem applies with `m = 0`. -/
example : 0 ≤ ∑ a ∈ Finset.range (size spaces), (fun b => if b = 0 then (5 : ℚ) else 0) a *
    ∑ b ∈ Finset.range (size spaces), matrix spaces (fun _ _ => 2) a b * (fun b => if b = 0 then (5 : ℚ) else 0) b :=
  (C129_energy spaces (fun _ _ => 2) _).2 (fun _ _ => by simp [spaces, elem]) (fun _ _ => by norm_num) (fun i _ => by
    simp [state, size, basis, spaces, elem, flux, const])

end Example

#print axioms C129_system
#print axioms C129_steady
#print axioms C129_affine
#print axioms C129_skew
#print axioms C129_row_violated
#print axioms C129_singular_violated
#print axioms C129_mass
#print axioms C129_energy
#print axioms C129_components
#print axioms C129_raises_violated
#print axioms C129_errors
#print axioms C129_layers_violated

end Verif.ThreeFields.Diffusion
