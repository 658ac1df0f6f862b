/-
Property theorems C120: one time step of diffusion and reaction in mixed form
(examples/parabolic_diffusive_problem/SundusWeakForm.py).
-/
import Verif.Lemmas.Transport
import Mathlib.Analysis.Calculus.Deriv.Mul
import Mathlib.Analysis.Calculus.Deriv.Pow
import Mathlib.Analysis.Calculus.Deriv.Add
import Mathlib.Tactic.NormNum
import Mathlib.Tactic.FieldSimp

namespace Verif.Transport
open Assembly L2Form Laplace

variable {K X : Type} [Field K]

/-- The look-ups succeed. -/
structure Input (spaces : Dict String (FSpace (Elem K X))) (fs : Data K X) (iel : Nat) (s : Spaces K X)
    (rhsF rhsR : X → K → Nat → Nat → K) (co : X → Nat → Coeffs K) (dt : K) : Prop where
  mp : ∃ us, spaces.getItem "mp" = .ok us ∧ us.elements[iel]? = some s.mp ∧ us.nComp = s.mpComp
  mc : ∃ us e, spaces.getItem "mc" = .ok us ∧ us.elements[iel]? = some e ∧ e.tab = s.mc ∧ us.nComp = s.mcComp
  p : ∃ us e, spaces.getItem "p" = .ok us ∧ us.elements[iel]? = some e ∧ e.tab = s.p ∧ us.nComp = s.pComp
  c : ∃ us e, spaces.getItem "c" = .ok us ∧ us.elements[iel]? = some e ∧ e.tab = s.c ∧ us.nComp = s.cComp
  rhsF : fs.rhsF = some rhsF
  rhsR : fs.rhsR = some rhsR
  kappa : fs.kappa = some fun x i => (co x i).kappa
  delta : fs.delta = some fun x i => (co x i).delta
  eta : fs.eta = some fun x i => (co x i).eta
  dt : fs.dt = some dt

/-- No division by zero in the quadrature points -/
structure Regular (s : Spaces K X) (co : X → Nat → Coeffs K) (dt : K) : Prop where
  det : ∀ i < s.mp.nPts, s.mp.det i ≠ 0
  kappa : ∀ i < s.mp.nPts, (co s.mp.x i).kappa ≠ 0
  delta : ∀ i < s.mp.nPts, (co s.mp.x i).delta ≠ 0
  dt : dt ≠ 0

theorem evaluateForm_eq {spaces : Dict String (FSpace (Elem K X))} {fs : Data K X} {iel : Nat} {s : Spaces K X}
    {rhsF rhsR : X → K → Nat → Nat → K} {co : X → Nat → Coeffs K} {dt : K}
    (h : Input spaces fs iel s rhsF rhsR co dt) (alpha old : Nat → K) (t : K) :
    evaluateForm (some spaces) (some fs) iel alpha old t =
      (form s rhsF rhsR co dt (adVar alpha) old t).map valDer := by
  obtain ⟨us, h1, h2, h3⟩ := h.mp
  obtain ⟨vs, e2, h4, h5, h6, h7⟩ := h.mc
  obtain ⟨ps, e3, h8, h9, h10, h11⟩ := h.p
  obtain ⟨cs, e4, h12, h13, h14, h15⟩ := h.c
  unfold evaluateForm
  simp only [h1, h4, h8, h12, h.rhsF, h.rhsR, h.kappa, h.delta, h.eta, h.dt, entry, Res.bind_ok, getIdx_of h2,
    getIdx_of h5, getIdx_of h9, getIdx_of h13, h3, h6, h7, h10, h11, h14, h15]
  cases form s rhsF rhsR co dt (adVar alpha) old t <;> rfl

/-- C120: `evaluate_form` returns the residual of the implicit Euler step and its Jacobian. -/
theorem C120_system {spaces : Dict String (FSpace (Elem K X))} {fs : Data K X} {iel : Nat} {s : Spaces K X}
    {rhsF rhsR : X → K → Nat → Nat → K} {co : X → Nat → Coeffs K} {dt : K}
    (h : Input spaces fs iel s rhsF rhsR co dt) (hs : Shapes s) (_hr : Regular s co dt) (alpha old : Nat → K) (t : K) :
    ∃ r j, evaluateForm (some spaces) (some fs) iel alpha old t = .ok (r, j) ∧ r.n = size s ∧ j.n = size s ∧
      (∀ a < size s, r.val a = residual s rhsF rhsR co dt alpha old t a) ∧
      ∀ a < size s, ∀ b < size s, j.val a b = jacobian s co dt alpha a b := by
  obtain ⟨r, h1, h2, h3⟩ := form_spec hs rhsF rhsR co dt (adVar alpha) old t
  refine ⟨(valDer r).1, (valDer r).2, ?_, h2, h2, ?_, ?_⟩
  · rw [evaluateForm_eq h, h1]
    rfl
  · intro a ha
    show (r.val a).fst = _
    rw [h3 a ha, TrivSqZeroExt.fst_sum]
    refine Finset.sum_congr rfl fun i _ => ?_
    rw [TrivSqZeroExt.fst_mul, weakR_fst, am_fst]
  · intro a ha b hb
    show (r.val a).snd b = _
    rw [h3 a ha, TrivSqZeroExt.snd_sum, Finset.sum_apply]
    refine Finset.sum_congr rfl fun i _ => ?_
    rw [TrivSqZeroExt.snd_mul, am_fst, am_snd, smul_zero, add_zero, Pi.smul_apply, weakR_snd _ _ _ _ _ _ _ _ hb,
      smul_eq_mul]

theorem weak_add (dim : Nat) (co : Coeffs K) (dt f r : K) (s : Spaces K X) (alpha step : Nat → K) (i : Nat)
    (w0 z : Fields K) :
    weak dim co dt f r (state s (fun b => alpha b + step b) i) w0 z =
      weak dim co dt f r (state s alpha i) w0 z +
        ∑ b ∈ Finset.range (size s), weakDer dim co dt (state s alpha i) (basis s i b) z * step b +
        co.eta * (state s step i).c ^ 2 * z.c := by
  have hsum : ∑ b ∈ Finset.range (size s), weakDer dim co dt (state s alpha i) (basis s i b) z * step b =
      (∑ d ∈ Finset.range dim, (state s step i).mp d / co.kappa * z.mp d - (state s step i).p * z.divMp) +
      (∑ d ∈ Finset.range dim, (state s step i).mc d / co.delta * z.mc d - (state s step i).c * z.divMc) +
      ((state s step i).p / dt + (state s step i).divMp) * z.p +
      ((state s step i).c / dt + (state s step i).divMc + 2 * co.eta * (state s alpha i).c * (state s step i).c) * z.c := by
    generalize state s alpha i = w
    have hx : ∀ (g : Nat → Nat → K) (k : K) (y : Nat → K),
        ∑ d ∈ Finset.range dim, (∑ b ∈ Finset.range (size s), step b * g b d) / k * y d =
        ∑ b ∈ Finset.range (size s), (∑ d ∈ Finset.range dim, g b d / k * y d) * step b := by
      intro g k y
      simp only [Finset.sum_div, Finset.sum_mul]
      rw [Finset.sum_comm]
      exact Finset.sum_congr rfl fun b _ => Finset.sum_congr rfl fun d _ => by ring
    conv_rhs => simp only [state, hx (fun b d => (basis s i b).mp d), hx (fun b d => (basis s i b).mc d)]
    simp only [Finset.sum_mul, Finset.sum_div, Finset.mul_sum, ← Finset.sum_add_distrib, ← Finset.sum_sub_distrib]
    refine Finset.sum_congr rfl fun b _ => ?_
    simp only [weakDer, ← Finset.sum_mul]
    ring
  rw [hsum]
  have ha : ∀ g : Nat → K, ∑ b ∈ Finset.range (size s), (alpha b + step b) * g b =
      ∑ b ∈ Finset.range (size s), alpha b * g b + ∑ b ∈ Finset.range (size s), step b * g b := by
    intro g
    rw [← Finset.sum_add_distrib]
    exact Finset.sum_congr rfl fun b _ => add_mul _ _ _
  simp only [weak, state, ha]
  simp only [add_div, add_mul, Finset.sum_add_distrib]
  ring

/-- C120: how the residual changes under a step of the degrees of freedom: the Jacobian applied to the step, and the
reaction of the step. -/
theorem C120_expansion (s : Spaces K X) (rhsF rhsR : X → K → Nat → Nat → K) (co : X → Nat → Coeffs K) (dt : K)
    (alpha step old : Nat → K) (t : K) (a : Nat) :
    residual s rhsF rhsR co dt (fun b => alpha b + step b) old t a =
      residual s rhsF rhsR co dt alpha old t a +
      ∑ b ∈ Finset.range (size s), jacobian s co dt alpha a b * step b +
      ∑ i ∈ Finset.range s.mp.nPts, s.mp.det i * s.mp.weights i *
        ((co s.mp.x i).eta * (state s step i).c ^ 2 * (basis s i a).c) := by
  unfold residual jacobian
  simp only [Finset.sum_mul]
  rw [Finset.sum_comm, ← Finset.sum_add_distrib, ← Finset.sum_add_distrib]
  refine Finset.sum_congr rfl fun i _ => ?_
  rw [weak_add]
  simp only [mul_assoc, ← Finset.mul_sum]
  ring

/-- C120: a Newton step of the linear solver leaves the reaction of the step as residual; without reaction it solves
the time step. -/
theorem C120_newton {s : Spaces K X} {rhsF rhsR : X → K → Nat → Nat → K} {co : X → Nat → Coeffs K} {dt : K}
    {alpha step old : Nat → K} {t : K} {a : Nat}
    (h : ∑ b ∈ Finset.range (size s), jacobian s co dt alpha a b * step b = - residual s rhsF rhsR co dt alpha old t a) :
    residual s rhsF rhsR co dt (fun b => alpha b + step b) old t a =
      ∑ i ∈ Finset.range s.mp.nPts, s.mp.det i * s.mp.weights i *
        ((co s.mp.x i).eta * (state s step i).c ^ 2 * (basis s i a).c) ∧
    ((∀ i < s.mp.nPts, (co s.mp.x i).eta = 0) →
      residual s rhsF rhsR co dt (fun b => alpha b + step b) old t a = 0) := by
  have e := C120_expansion s rhsF rhsR co dt alpha step old t a
  rw [h, add_neg_cancel, zero_add] at e
  refine ⟨e, fun h0 => ?_⟩
  rw [e]
  refine Finset.sum_eq_zero fun i hi => ?_
  rw [h0 i (Finset.mem_range.1 hi)]
  ring

/-- C120: over the reals the Jacobian is the derivative of the residual. -/
theorem C120_derivative {X : Type} (s : Spaces ℝ X) (rhsF rhsR : X → ℝ → Nat → Nat → ℝ) (co : X → Nat → Coeffs ℝ) (dt : ℝ)
    (alpha step old : Nat → ℝ) (t : ℝ) (a : Nat) :
    HasDerivAt (fun h => residual s rhsF rhsR co dt (fun b => alpha b + h * step b) old t a)
      (∑ b ∈ Finset.range (size s), jacobian s co dt alpha a b * step b) 0 := by
  have e : (fun h => residual s rhsF rhsR co dt (fun b => alpha b + h * step b) old t a) = fun h =>
      residual s rhsF rhsR co dt alpha old t a +
      h * (∑ b ∈ Finset.range (size s), jacobian s co dt alpha a b * step b) +
      h ^ 2 * ∑ i ∈ Finset.range s.mp.nPts, s.mp.det i * s.mp.weights i *
        ((co s.mp.x i).eta * (state s step i).c ^ 2 * (basis s i a).c) := by
    funext h
    rw [C120_expansion s rhsF rhsR co dt alpha (fun b => h * step b) old t a, Finset.mul_sum, Finset.mul_sum]
    congr 1
    · congr 1
      exact Finset.sum_congr rfl fun b _ => by ring
    · refine Finset.sum_congr rfl fun i _ => ?_
      have : (state s (fun b => h * step b) i).c = h * (state s step i).c := by
        simp only [state, Finset.mul_sum, mul_assoc]
      rw [this]
      ring
  rw [e]
  have h1 := ((hasDerivAt_id (0 : ℝ)).mul_const
    (∑ b ∈ Finset.range (size s), jacobian s co dt alpha a b * step b)).const_add
      (residual s rhsF rhsR co dt alpha old t a)
  have h2 := (hasDerivAt_pow 2 (0 : ℝ)).mul_const (∑ i ∈ Finset.range s.mp.nPts, s.mp.det i * s.mp.weights i *
        ((co s.mp.x i).eta * (state s step i).c ^ 2 * (basis s i a).c))
  exact (h1.add h2).congr_deriv (by simp)

/-- C120: if the residual vanishes and the pressures contain the constants, the mass of the element is balanced: what is
stored in the time step and what flows out is what the source gives. -/
theorem C120_mass {s : Spaces K X} {rhsF rhsR : X → K → Nat → Nat → K} {co : X → Nat → Coeffs K} {dt : K}
    {alpha old : Nat → K} {t : K} (h0 : ∀ a < size s, residual s rhsF rhsR co dt alpha old t a = 0)
    {one : Nat → K} (h1 : ∀ i < s.mp.nPts, ∑ a ∈ Finset.range s.p.nPhi, one a * s.p.val 0 i a 0 = 1) :
    ∑ i ∈ Finset.range s.mp.nPts, s.mp.det i * s.mp.weights i *
      (((state s alpha i).p - (state s old i).p) / dt + (state s alpha i).divMp) =
    ∑ i ∈ Finset.range s.mp.nPts, s.mp.det i * s.mp.weights i * rhsF s.mp.x t 0 i := by
  rw [← sub_eq_zero, ← Finset.sum_sub_distrib]
  have : ∑ a ∈ Finset.range s.p.nPhi, one a * residual s rhsF rhsR co dt alpha old t (s.mp.tab.nPhi + s.mc.nPhi + a) = 0 :=
    Finset.sum_eq_zero fun a ha => by
      rw [h0 _ (by have := Finset.mem_range.1 ha; unfold size; omega), mul_zero]
  rw [← this]
  unfold residual
  simp only [Finset.mul_sum]
  rw [Finset.sum_comm]
  refine Finset.sum_congr rfl fun i hi => ?_
  have e : ∀ a ∈ Finset.range s.p.nPhi, one a * (s.mp.det i * s.mp.weights i *
      weak s.mp.dim (co s.mp.x i) dt (rhsF s.mp.x t 0 i) (rhsR s.mp.x t 0 i) (state s alpha i) (state s old i)
        (basis s i (s.mp.tab.nPhi + s.mc.nPhi + a))) =
      (s.mp.det i * s.mp.weights i * (((state s alpha i).p - (state s old i).p) / dt + (state s alpha i).divMp -
        rhsF s.mp.x t 0 i)) * (one a * s.p.val 0 i a 0) := by
    intro a ha
    rw [basis_p s i (Finset.mem_range.1 ha)]
    simp only [weak, mul_zero, Finset.sum_const_zero]
    ring
  rw [Finset.sum_congr rfl e, ← Finset.mul_sum, h1 i (Finset.mem_range.1 hi)]
  ring

/-- C120: with several components of a flux the form raises an `IndexError`. -/
theorem C120_components {R : Type} [CommRing R] [Algebra K R] {s : Spaces K X} (hn : 0 < s.mp.nPts) (hp : s.pComp = 1)
    (hc : s.cComp = 1) (h : s.mp.tab.nPhi < s.nMp ∨ (s.nMp ≤ s.mp.tab.nPhi ∧ s.mc.nPhi < s.nMc))
    (rhsF rhsR : X → K → Nat → Nat → K) (co : X → Nat → Coeffs K) (dt : K) (alpha : Nat → R) (old : Nat → K) (t : K) :
    form s rhsF rhsR co dt alpha old t = .error .indexError := by
  have n3 : s.nP = s.p.nPhi := by unfold Spaces.nP; rw [hp, Nat.mul_one]
  have n4 : s.nC = s.c.nPhi := by unfold Spaces.nC; rw [hc, Nat.mul_one]
  have hi : integrand s (co s.mp.x 0) dt alpha old 0 = .error .indexError := by
    unfold integrand divergences
    dsimp only
    rcases h with h | ⟨h, h'⟩
    · rw [if_pos h]
      rfl
    · rw [if_neg (by omega)]
      simp only [Res.bind_ok]
      rw [if_pos h']
      rfl
  obtain ⟨r1, a1, -⟩ := subAt_slice (n := s.nDof) (b := s.nMp + s.nMc) (m := s.p.nPhi)
    (by unfold Spaces.nDof; omega) (Vec.zeros s.nDof : Vec R) (fun a => algebraMap K R
      (∑ i ∈ Finset.range s.mp.nPts, s.mp.det i * s.mp.weights i * s.p.val 0 i a 0 * rhsF s.mp.x t 0 i))
  obtain ⟨r2, b1, -⟩ := subAt_slice (n := s.nDof) (b := s.nMp + s.nMc + s.p.nPhi) (m := s.c.nPhi)
    (by unfold Spaces.nDof; omega) r1 (fun a => algebraMap K R
      (∑ i ∈ Finset.range s.mp.nPts, s.mp.det i * s.mp.weights i * s.c.val 0 i a 0 * rhsR s.mp.x t 0 i))
  unfold form
  dsimp only
  simp only [hp, hc, List.range_one, List.foldlM_cons, List.foldlM_nil, n3, n4, Nat.zero_add]
  rw [a1]
  simp only [Res.bind_ok, Res.pure_eq]
  rw [b1]
  simp only [Res.bind_ok]
  obtain ⟨m, hm⟩ : ∃ m, s.mp.nPts = m + 1 := ⟨s.mp.nPts - 1, by omega⟩
  rw [hm, List.range_succ_eq_map, List.foldlM_cons, hi]
  rfl

/-- C120: without space or functions `evaluate_form` raises a `ValueError`, without one of the functions a
`KeyError`. -/
theorem C120_errors {spaces : Dict String (FSpace (Elem K X))} {fs : Data K X} (iel : Nat) (alpha old : Nat → K) (t : K) :
    evaluateForm none (some fs) iel alpha old t = .error .valueError ∧
    evaluateForm (some spaces) (none : Option (Data K X)) iel alpha old t = .error .valueError ∧
    (∀ us vs ps cs, spaces.getItem "mp" = .ok us → spaces.getItem "mc" = .ok vs → spaces.getItem "p" = .ok ps →
      spaces.getItem "c" = .ok cs →
      fs.rhsF = none ∨ fs.rhsR = none ∨ fs.kappa = none ∨ fs.delta = none ∨ fs.eta = none ∨ fs.dt = none →
        evaluateForm (some spaces) (some fs) iel alpha old t = .error .keyError) := by
  refine ⟨rfl, rfl, ?_⟩
  intro us vs ps cs h1 h2 h3 h4 h
  unfold evaluateForm
  simp only [h1, h2, h3, h4, Res.bind_ok]
  rcases fs with ⟨a, b, c, d, e, f⟩
  cases a
  · rfl
  cases c
  · rfl
  cases b
  · rfl
  cases d
  · rfl
  cases e
  · rfl
  cases f
  · rfl
  simp at h

/-! ### The boundary term -/

theorem block_ok (nPts dim : Nat) (weights det normal : Nat → K) (f : Trace K) (c : Nat) :
    ∃ b, block nPts dim weights det normal f c = .ok b ∧ b.n = f.dofs.length ∧ ∀ a < f.dofs.length, b.val a =
      ∑ i ∈ Finset.range nPts, det i * weights i * f.data i c *
        ∑ d ∈ Finset.range (min dim f.tab.nVal), f.tab.val 0 i (f.dofs.getD a 0) d * normal d := by
  obtain ⟨b, h1, h2, h3⟩ := foldlM_addScaled' f.dofs.length (fun i => det i * weights i * f.data i c)
    (fun i a => ∑ d ∈ Finset.range (min dim f.tab.nVal), f.tab.val 0 i (f.dofs.getD a 0) d * normal d)
    (List.range nPts) (Vec.zeros f.dofs.length) rfl
  refine ⟨b, h1, h2, fun a ha => ?_⟩
  rw [h3 a ha, sum_map_range]
  show (0 : K) + _ = _
  rw [zero_add]

theorem addAt_slice {n b : Nat} (r v : Vec K) (h : b + v.n ≤ n) :
    ∃ r', r.addAt (sliceIdx n b (b + v.n) 1) v = .ok r' ∧ r'.n = r.n ∧
      ∀ a, r'.val a = r.val a + if b ≤ a ∧ a < b + v.n then v.val (a - b) else 0 := by
  rw [sliceIdx_contig h]
  unfold Vec.addAt
  rw [if_neg (by simp)]
  refine ⟨_, rfl, rfl, ?_⟩
  intro a
  simp only [List.mem_range'_1]
  split
  · rename_i hb
    obtain ⟨j, rfl⟩ := Nat.exists_eq_add_of_le hb.1
    have : j < v.n := by omega
    have e := idxOf_range' (c := b) (m := v.n) (step := 1) (by omega) this
    rw [Nat.one_mul] at e
    rw [e, Nat.add_sub_cancel_left]
  · rw [add_zero]

/-- C120: the boundary form is the integral of the boundary data times the normal fluxes of the facet's basis functions,
first of `mp`, then of `mc`; its matrix is zero. -/
theorem C120_boundary (nPts dim : Nat) (weights det normal : Nat → K) {mp mc : Trace K} (h1 : mp.comp = 1)
    (h2 : mc.comp = 1) (h3 : ∀ d ∈ mp.dofs, d < mp.tab.nPhi) (h4 : ∀ d ∈ mc.dofs, d < mc.tab.nPhi)
    (h5 : dim ≤ mp.tab.nVal) (h6 : dim ≤ mc.tab.nVal) :
    ∃ r, boundary nPts dim weights det normal mp mc = .ok (r, zeros2 (mp.dofs.length + mc.dofs.length)) ∧
      r.n = mp.dofs.length + mc.dofs.length ∧
      (∀ a d, mp.dofs[a]? = some d → r.val a = boundaryFlux nPts weights det mp.data
        (fun _ i => ∑ k ∈ Finset.range dim, mp.tab.val 0 i d k * normal k) 0 a) ∧
      ∀ a d, mc.dofs[a]? = some d → r.val (mp.dofs.length + a) = boundaryFlux nPts weights det mc.data
        (fun _ i => ∑ k ∈ Finset.range dim, mc.tab.val 0 i d k * normal k) 0 a := by
  obtain ⟨b1, e1, e2, e3⟩ := block_ok nPts dim weights det normal mp 0
  obtain ⟨b2, f1, f2, f3⟩ := block_ok nPts dim weights det normal mc 0
  obtain ⟨r1, g1, g2, g3⟩ := addAt_slice (n := mp.dofs.length + mc.dofs.length) (b := 0)
    (Vec.zeros (mp.dofs.length + mc.dofs.length)) b1 (by omega)
  obtain ⟨r2, k1, k2, k3⟩ := addAt_slice (n := mp.dofs.length + mc.dofs.length) (b := mp.dofs.length)
    r1 b2 (by omega)
  rw [e2, Nat.zero_add] at g1
  rw [f2] at k1
  refine ⟨r2, ?_, k2.trans g2, ?_, ?_⟩
  · unfold boundary
    have a1 : (mp.dofs.any fun d => decide (mp.tab.nPhi ≤ d)) = false := by
      rw [List.any_eq_false]
      intro d hd
      have := h3 d hd
      simpa using this
    have a2 : (mc.dofs.any fun d => decide (mc.tab.nPhi ≤ d)) = false := by
      rw [List.any_eq_false]
      intro d hd
      have := h4 d hd
      simpa using this
    rw [a1, a2]
    simp only [Bool.false_eq_true, if_false, h1, h2, List.range_one, List.foldlM_cons, List.foldlM_nil, Nat.mul_one,
      Nat.zero_add, e1, f1, Res.bind_ok, g1, k1, Res.pure_eq]
  · intro a d hd
    have hlt : a < mp.dofs.length := (List.getElem?_eq_some_iff.1 hd).1
    rw [k3, g3, if_pos (by omega), if_neg (by omega), add_zero, Nat.sub_zero, e3 a hlt]
    show (0 : K) + _ = _
    rw [zero_add, Nat.min_eq_left h5, List.getD_eq_getElem?_getD, hd, Option.getD_some]
    rfl
  · intro a d hd
    have hlt : a < mc.dofs.length := (List.getElem?_eq_some_iff.1 hd).1
    rw [k3, g3, if_neg (by omega), if_pos (by omega), add_zero, Nat.add_sub_cancel_left, f3 a hlt]
    show (0 : K) + _ = _
    rw [zero_add, Nat.min_eq_left h6, List.getD_eq_getElem?_getD, hd, Option.getD_some]
    rfl

/-- C120, disagreement: both slices of the boundary form have the step of `mp`, so that two components of `mp` with one
of `mc` raise a `ValueError` (two or more degrees of freedom on the facet). -/
theorem C120_boundary_violated (nPts dim : Nat) (weights det normal : Nat → K) {mp mc : Trace K} (h1 : mp.comp = 2)
    (h2 : mc.comp = 1) (h3 : ∀ d ∈ mp.dofs, d < mp.tab.nPhi) (h4 : ∀ d ∈ mc.dofs, d < mc.tab.nPhi)
    (h5 : 2 ≤ mc.dofs.length) :
    boundary nPts dim weights det normal mp mc = .error .valueError := by
  obtain ⟨b1, e1, e2, -⟩ := block_ok nPts dim weights det normal mp 0
  obtain ⟨b1', e1', e2', -⟩ := block_ok nPts dim weights det normal mp 1
  obtain ⟨b2, f1, f2, -⟩ := block_ok nPts dim weights det normal mc 0
  unfold boundary
  have a1 : (mp.dofs.any fun d => decide (mp.tab.nPhi ≤ d)) = false := by
    rw [List.any_eq_false]
    intro d hd
    have := h3 d hd
    simpa using this
  have a2 : (mc.dofs.any fun d => decide (mc.tab.nPhi ≤ d)) = false := by
    rw [List.any_eq_false]
    intro d hd
    have := h4 d hd
    simpa using this
  rw [a1, a2]
  have hl : ∀ c < 2, (sliceIdx (mp.dofs.length * 2 + mc.dofs.length) c (c + mp.dofs.length * 2) 2).length =
      mp.dofs.length := by
    intro c hc
    simp only [sliceIdx, List.length_range']
    omega
  have hl2 : (sliceIdx (mp.dofs.length * 2 + mc.dofs.length) (mp.dofs.length * 2)
      (mp.dofs.length * 2 + mc.dofs.length) 2).length ≠ b2.n := by
    simp only [sliceIdx, List.length_range', f2]
    omega
  have hr : List.range 2 = [0, 1] := rfl
  simp only [Bool.false_eq_true, if_false, h1, h2, hr, List.range_one, List.foldlM_cons, List.foldlM_nil, Nat.mul_one,
    Nat.zero_add, e1, e1', f1, Res.bind_ok, Vec.addAt, hl 0 two_pos, hl 1 one_lt_two, e2, e2', ne_eq, not_true, hl2,
    not_false_iff, if_true, Res.pure_eq]
  have hl0 := hl 0 two_pos
  rw [Nat.zero_add] at hl0
  simp only [hl0, not_true, if_false, Res.bind_ok]
  rfl

/-! ### A concrete case -/

namespace Example

/-- One point on a segment, one function per field: fluxes `x ↦ x` in the point `1`, constants for pressure and
concentration. -/
def flux : Tab ℝ := ⟨1, 1, 1, fun _ _ _ _ => 1⟩
def const : Tab ℝ := ⟨1, 1, 1, fun k _ _ _ => if k = 0 then 1 else 0⟩
def elem (t : Tab ℝ) : Elem ℝ Unit := ⟨1, 1, fun _ => 1, fun _ => 1, t, ()⟩
noncomputable def spaces : Spaces ℝ Unit := ⟨elem flux, flux, const, const, 1, 1, 1, 1⟩

noncomputable def dict : Dict String (FSpace (Elem ℝ Unit)) :=
  [("mp", ⟨1, [elem flux]⟩), ("mc", ⟨1, [elem flux]⟩), ("p", ⟨1, [elem const]⟩), ("c", ⟨1, [elem const]⟩)]

noncomputable def data : Data ℝ Unit :=
  ⟨some fun _ _ _ _ => 1, some fun _ _ _ _ => 2, some fun _ _ => 2, some fun _ _ => 4, some fun _ _ => 3, some (1 / 2)⟩

theorem input : Input dict data 0 spaces (fun _ _ _ _ => 1) (fun _ _ _ _ => 2) (fun _ _ => ⟨2, 4, 3⟩) (1 / 2) :=
  ⟨⟨_, rfl, rfl, rfl⟩, ⟨_, _, rfl, rfl, rfl, rfl⟩, ⟨_, _, rfl, rfl, rfl, rfl⟩, ⟨_, _, rfl, rfl, rfl, rfl⟩,
    rfl, rfl, rfl, rfl, rfl, rfl⟩

theorem shapes : Shapes spaces := by
  constructor <;> simp [spaces, elem, flux, const]

theorem regular : Regular spaces (fun _ _ => ⟨2, 4, 3⟩) (1 / 2 : ℝ) := by
  constructor <;> simp [spaces, elem]

/-- The concentration 5 after 1: the residual `(5 - 1) / (1/2) + 1 + 3 · 25 - 2` and the derivative `2 + 2 · 3 · 5`; the
flux sees the concentration with a minus sign. -/
example : ∃ r j, evaluateForm (some dict) (some data) 0 (fun b => if b = 3 then 5 else 0)
      (fun b => if b = 3 then 1 else 0) 0 = .ok (r, j) ∧
    r.val 3 = 82 ∧ r.val 1 = -5 ∧ r.val 2 = -1 ∧ j.val 3 3 = 32 ∧ j.val 1 1 = 1 / 4 ∧ j.val 1 3 = -1 ∧ j.val 3 1 = 1 := by
  obtain ⟨r, j, h1, h2, h3, h4, h5⟩ := C120_system input shapes regular (fun b => if b = 3 then 5 else 0)
    (fun b => if b = 3 then 1 else 0) 0
  have hs : size spaces = 4 := rfl
  rw [hs] at h4 h5
  refine ⟨r, j, h1, ?_, ?_, ?_, ?_, ?_, ?_, ?_⟩
  · rw [h4 3 (by omega)]
    norm_num [residual, weak, state, size, basis, spaces, elem, flux, const, divOf, Finset.sum_range_succ]
  · rw [h4 1 (by omega)]
    norm_num [residual, weak, state, size, basis, spaces, elem, flux, const, divOf, Finset.sum_range_succ]
  · rw [h4 2 (by omega)]
    norm_num [residual, weak, state, size, basis, spaces, elem, flux, const, divOf, Finset.sum_range_succ]
  · rw [h5 3 (by omega) 3 (by omega)]
    norm_num [jacobian, weakDer, state, size, basis, spaces, elem, flux, const, divOf, Finset.sum_range_succ]
  · rw [h5 1 (by omega) 1 (by omega)]
    norm_num [jacobian, weakDer, state, size, basis, spaces, elem, flux, const, divOf, Finset.sum_range_succ]
  · rw [h5 1 (by omega) 3 (by omega)]
    norm_num [jacobian, weakDer, state, size, basis, spaces, elem, flux, const, divOf, Finset.sum_range_succ]
  · rw [h5 3 (by omega) 1 (by omega)]
    norm_num [jacobian, weakDer, state, size, basis, spaces, elem, flux, const, divOf, Finset.sum_range_succ]

end Example

/-- C120: a degree of freedom of the facet outside the basis is an `IndexError` of the boundary form, in both fields. -/
theorem C120_boundary_rejects (nPts dim : Nat) (weights det normal : Nat → K) (mp mc : Trace K)
    (h : (∃ d ∈ mp.dofs, mp.tab.nPhi ≤ d) ∨ ∃ d ∈ mc.dofs, mc.tab.nPhi ≤ d) :
    boundary nPts dim weights det normal mp mc = .error .indexError := by
  have key : ∀ t : Trace K, ((t.dofs.any fun d => decide (t.tab.nPhi ≤ d)) = true) ↔ ∃ d ∈ t.dofs, t.tab.nPhi ≤ d := by
    intro t
    simp
  unfold boundary
  by_cases h1 : ∃ d ∈ mp.dofs, mp.tab.nPhi ≤ d
  · rw [if_pos ((key mp).2 h1)]
    rfl
  · rw [if_neg (fun h' => h1 ((key mp).1 h')), if_pos ((key mc).2 (h.resolve_left h1))]
    rfl

#print axioms C120_system
#print axioms C120_expansion
#print axioms C120_newton
#print axioms C120_derivative
#print axioms C120_mass
#print axioms C120_components
#print axioms C120_errors
#print axioms C120_boundary
#print axioms C120_boundary_violated

#print axioms C120_boundary_rejects

end Verif.Transport
