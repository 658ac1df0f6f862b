/-
Property theorems C65 and C66: the local systems of the mixed and of the primal Laplace problem
(src/weak_forms/laplace_dual_weak_form.py, src/weak_forms/laplace_primal_weak_form.py).
-/
import Verif.Lemmas.Laplace
import Mathlib.Tactic.IntervalCases
import Mathlib.Algebra.Order.Field.Basic
import Mathlib.Algebra.Order.BigOperators.Ring.Finset
import Mathlib.Data.Rat.Defs
import Mathlib.Algebra.Order.Ring.Rat
import Mathlib.Algebra.Field.Rat
import Mathlib.Tactic.NormNum
import Mathlib.Tactic.Positivity

namespace Verif.Laplace
open Assembly L2Form

variable {K X : Type} [Field K]

/-- The look-ups of the mixed form succeed. -/
structure MixedInput (spaces : Dict String (FSpace (Elem K X))) (fs : Data K X) (iel : Nat)
    (u p : Elem K X) (uComp pComp : Nat) (rhs : X → Nat → Nat → K) (kappa : X → Nat → K) : Prop where
  flux : ∃ us, spaces.getItem "u" = .ok us ∧ us.elements[iel]? = some u ∧ us.nComp = uComp
  pressure : ∃ ps, spaces.getItem "p" = .ok ps ∧ ps.elements[iel]? = some p ∧ ps.nComp = pComp
  rhs : fs.rhs = some rhs
  kappa : fs.kappa = some kappa

theorem evaluateMixed_eq {spaces : Dict String (FSpace (Elem K X))} {fs : Data K X} {iel : Nat}
    {u p : Elem K X} {uComp pComp : Nat} {rhs : X → Nat → Nat → K} {kappa : X → Nat → K}
    (h : MixedInput spaces fs iel u p uComp pComp rhs kappa) (alpha : Nat → K) :
    evaluateMixed (some spaces) (some fs) iel alpha =
      (mixedForm u p.tab uComp pComp rhs kappa (adVar fun _ => 0)).map valDer := by
  obtain ⟨us, h1, h2, h3⟩ := h.flux
  obtain ⟨ps, h4, h5, h6⟩ := h.pressure
  unfold evaluateMixed
  simp only [h1, h4, h.rhs, h.kappa, entry, Res.bind_ok, getIdx_of h2, getIdx_of h5, h3, h6]
  cases mixedForm u p.tab uComp pComp rhs kappa (adVar fun _ => (0 : K)) <;> rfl

/-! ### C65 -/

/-- C65: `evaluate_form` returns the matrix of the saddle point problem, and the residual in 0. -/
theorem C65_system {spaces : Dict String (FSpace (Elem K X))} {fs : Data K X} {iel : Nat}
    {u p : Elem K X} {rhs : X → Nat → Nat → K} {kappa : X → Nat → K}
    (h : MixedInput spaces fs iel u p 1 1 rhs kappa) (hs : MixedShapes u p.tab) (alpha : Nat → K) :
    ∃ r j, evaluateMixed (some spaces) (some fs) iel alpha = .ok (r, j) ∧
      r.n = u.tab.nPhi + p.tab.nPhi ∧ j.n = u.tab.nPhi + p.tab.nPhi ∧
      (∀ a < r.n, r.val a = mixedResidual u p.tab rhs kappa (fun _ => 0) a) ∧
      ∀ a < j.n, ∀ b < j.n, j.val a b = mixedMatrix u p.tab kappa a b := by
  obtain ⟨r, hr, hn, hv⟩ := mixedForm_spec hs rhs kappa (adVar fun _ => (0 : K))
  refine ⟨(valDer r).1, (valDer r).2, ?_, hn, hn, ?_, ?_⟩
  · rw [evaluateMixed_eq h, hr]; rfl
  · intro a ha
    have ha' : a < u.tab.nPhi + p.tab.nPhi := hn ▸ ha
    show (r.val a).fst = _
    rw [hv a ha', fst_affine]
    rfl
  · intro a ha b hb
    have ha' : a < u.tab.nPhi + p.tab.nPhi := hn ▸ ha
    have hb' : b < u.tab.nPhi + p.tab.nPhi := hn ▸ hb
    show (r.val a).snd b = _
    rw [hv a ha', snd_affine _ _ _ _ _ hb']

/-- C65: automatic differentiation in any `alpha` gives the residual in `alpha` and its derivative,
the same matrix everywhere. -/
theorem C65_derivative {u : Elem K X} {p : Tab K} (hs : MixedShapes u p)
    (rhs : X → Nat → Nat → K) (kappa : X → Nat → K) (alpha : Nat → K) :
    (∃ r, mixedForm u p 1 1 rhs kappa alpha = .ok r ∧ r.n = u.tab.nPhi + p.nPhi ∧
      ∀ a < r.n, r.val a = mixedResidual u p rhs kappa alpha a) ∧
    (∃ d, mixedForm u p 1 1 rhs kappa (adVar alpha) = .ok d ∧ d.n = u.tab.nPhi + p.nPhi ∧
      ∀ a < d.n, (d.val a).fst = mixedResidual u p rhs kappa alpha a ∧
        ∀ b < d.n, (d.val a).snd b = mixedMatrix u p kappa a b) ∧
    ∀ (step : Nat → K) (a : Nat), mixedResidual u p rhs kappa (fun b => alpha b + step b) a =
      mixedResidual u p rhs kappa alpha a +
        ∑ b ∈ Finset.range (u.tab.nPhi + p.nPhi), mixedMatrix u p kappa a b * step b := by
  refine ⟨?_, ?_, ?_⟩
  · obtain ⟨r, hr, hn, hv⟩ := mixedForm_spec hs rhs kappa alpha
    refine ⟨r, hr, hn, ?_⟩
    intro a ha
    rw [hv a (hn ▸ ha)]
    rfl
  · obtain ⟨r, hr, hn, hv⟩ := mixedForm_spec hs rhs kappa (adVar alpha)
    refine ⟨r, hr, hn, ?_⟩
    intro a ha
    have ha' : a < u.tab.nPhi + p.nPhi := hn ▸ ha
    refine ⟨?_, ?_⟩
    · rw [hv a ha', fst_affine]; rfl
    · intro b hb
      rw [hv a ha', snd_affine _ _ _ _ _ (hn ▸ hb)]
  · intro step a
    unfold mixedResidual
    rw [show ∑ b ∈ Finset.range (u.tab.nPhi + p.nPhi), mixedMatrix u p kappa a b * (alpha b + step b) =
      ∑ b ∈ Finset.range (u.tab.nPhi + p.nPhi), mixedMatrix u p kappa a b * alpha b +
      ∑ b ∈ Finset.range (u.tab.nPhi + p.nPhi), mixedMatrix u p kappa a b * step b by
        rw [← Finset.sum_add_distrib]
        exact Finset.sum_congr rfl fun b _ => mul_add _ _ _]
    ring

/-- C65: the flux block is symmetric, the coupling blocks are each other's negative transposes and
the pressure block is zero. -/
theorem C65_saddle (u : Elem K X) (p : Tab K) (kappa : X → Nat → K) :
    (∀ a < u.tab.nPhi, ∀ b < u.tab.nPhi,
      mixedMatrix u p kappa a b = mixedMatrix u p kappa b a) ∧
    (∀ a < u.tab.nPhi, ∀ b, mixedMatrix u p kappa a (u.tab.nPhi + b) =
      - mixedMatrix u p kappa (u.tab.nPhi + b) a) ∧
    ∀ a b, mixedMatrix u p kappa (u.tab.nPhi + a) (u.tab.nPhi + b) = 0 := by
  refine ⟨?_, ?_, ?_⟩
  · intro a ha b hb
    simp only [mixedMatrix, ha, hb, if_true, fluxMass]
    refine Finset.sum_congr rfl fun i _ => ?_
    rw [Finset.sum_congr rfl fun d _ => mul_comm _ _]
  · intro a ha b
    simp only [mixedMatrix, ha, if_true]
    rw [if_neg (by omega), if_neg (by omega), Nat.add_sub_cancel_left]
  · intro a b
    simp only [mixedMatrix]
    rw [if_neg (by omega), if_neg (by omega)]

/-- C65: the quadratic form of the matrix is the energy `∫ κ⁻¹ |u_h|²`; it is not negative for
positive coefficients and non-negative weights and determinants. -/
theorem C65_energy {K X : Type} [Field K] [LinearOrder K] [IsStrictOrderedRing K] (u : Elem K X)
    (p : Tab K) (kappa : X → Nat → K) (v : Nat → K) :
    (∑ a ∈ Finset.range (u.tab.nPhi + p.nPhi), ∑ b ∈ Finset.range (u.tab.nPhi + p.nPhi),
        v a * mixedMatrix u p kappa a b * v b =
      ∑ i ∈ Finset.range u.nPts, u.det i * u.weights i *
        (1 / kappa u.x i * ∑ d ∈ Finset.range u.dim, fluxAt u v i d ^ 2)) ∧
    ((∀ i < u.nPts, 0 ≤ u.det i * u.weights i ∧ 0 < kappa u.x i) →
      0 ≤ ∑ a ∈ Finset.range (u.tab.nPhi + p.nPhi), ∑ b ∈ Finset.range (u.tab.nPhi + p.nPhi),
        v a * mixedMatrix u p kappa a b * v b) := by
  obtain ⟨_, hanti, hzero⟩ := C65_saddle u p kappa
  have key : ∑ a ∈ Finset.range (u.tab.nPhi + p.nPhi), ∑ b ∈ Finset.range (u.tab.nPhi + p.nPhi),
        v a * mixedMatrix u p kappa a b * v b =
      ∑ i ∈ Finset.range u.nPts, u.det i * u.weights i *
        (1 / kappa u.x i * ∑ d ∈ Finset.range u.dim, fluxAt u v i d ^ 2) := by
    rw [sum_split]
    simp_rw [sum_split u.tab.nPhi p.nPhi (fun b => _ * mixedMatrix u p kappa _ b * v b)]
    rw [Finset.sum_add_distrib, Finset.sum_add_distrib]
    have h4 : ∑ a ∈ Finset.range p.nPhi, ∑ b ∈ Finset.range p.nPhi, v (u.tab.nPhi + a) *
        mixedMatrix u p kappa (u.tab.nPhi + a) (u.tab.nPhi + b) * v (u.tab.nPhi + b) = 0 := by
      refine Finset.sum_eq_zero fun a _ => Finset.sum_eq_zero fun b _ => ?_
      rw [hzero]; ring
    have h23 : ∑ a ∈ Finset.range u.tab.nPhi, ∑ b ∈ Finset.range p.nPhi, v a *
        mixedMatrix u p kappa a (u.tab.nPhi + b) * v (u.tab.nPhi + b) +
        ∑ a ∈ Finset.range p.nPhi, ∑ b ∈ Finset.range u.tab.nPhi, v (u.tab.nPhi + a) *
          mixedMatrix u p kappa (u.tab.nPhi + a) b * v b = 0 := by
      rw [Finset.sum_comm (s := Finset.range p.nPhi), ← Finset.sum_add_distrib]
      refine Finset.sum_eq_zero fun a ha => ?_
      rw [← Finset.sum_add_distrib]
      refine Finset.sum_eq_zero fun b _ => ?_
      rw [hanti a (Finset.mem_range.1 ha)]; ring
    have h1 : ∑ a ∈ Finset.range u.tab.nPhi, ∑ b ∈ Finset.range u.tab.nPhi,
        v a * mixedMatrix u p kappa a b * v b =
        ∑ i ∈ Finset.range u.nPts, u.det i * u.weights i *
          (1 / kappa u.x i * ∑ d ∈ Finset.range u.dim, fluxAt u v i d ^ 2) := by
      have e : ∀ a ∈ Finset.range u.tab.nPhi, ∀ b ∈ Finset.range u.tab.nPhi,
          v a * mixedMatrix u p kappa a b * v b = ∑ i ∈ Finset.range u.nPts,
            ∑ d ∈ Finset.range u.dim, u.det i * u.weights i * (1 / kappa u.x i) *
              (v a * u.tab.val 0 i a d) * (v b * u.tab.val 0 i b d) := by
        intro a ha b hb
        simp only [mixedMatrix, Finset.mem_range.1 ha, Finset.mem_range.1 hb, if_true, fluxMass]
        rw [Finset.mul_sum, Finset.sum_mul]
        refine Finset.sum_congr rfl fun i _ => ?_
        rw [Finset.mul_sum, Finset.mul_sum, Finset.mul_sum, Finset.sum_mul]
        refine Finset.sum_congr rfl fun d _ => ?_
        ring
      rw [Finset.sum_congr rfl fun a ha => Finset.sum_congr rfl fun b hb => e a ha b hb]
      simp_rw [Finset.sum_comm (s := Finset.range u.tab.nPhi) (t := Finset.range u.nPts)]
      refine Finset.sum_congr rfl fun i _ => ?_
      simp_rw [Finset.sum_comm (s := Finset.range u.tab.nPhi) (t := Finset.range u.dim)]
      rw [Finset.mul_sum, Finset.mul_sum]
      refine Finset.sum_congr rfl fun d _ => ?_
      rw [fluxAt, pow_two, Finset.sum_mul_sum, Finset.mul_sum, Finset.mul_sum]
      refine Finset.sum_congr rfl fun a _ => ?_
      rw [Finset.mul_sum, Finset.mul_sum]
      refine Finset.sum_congr rfl fun b _ => ?_
      ring
    rw [h1, h4, add_zero, add_assoc, h23, add_zero]
  refine ⟨key, ?_⟩
  intro h
  rw [key]
  refine Finset.sum_nonneg fun i hi => ?_
  obtain ⟨h1, h2⟩ := h i (Finset.mem_range.1 hi)
  have : 0 ≤ ∑ d ∈ Finset.range u.dim, fluxAt u v i d ^ 2 :=
    Finset.sum_nonneg fun d _ => sq_nonneg _
  positivity

/-- C65: more than one component in a field is refused. -/
theorem C65_components_refused {spaces : Dict String (FSpace (Elem K X))} {fs : Data K X}
    {iel : Nat} {u p : Elem K X} {uComp pComp : Nat} {rhs : X → Nat → Nat → K} {kappa : X → Nat → K}
    (h : MixedInput spaces fs iel u p uComp pComp rhs kappa) (hn : 0 < u.nPts)
    (hc : u.tab.nPhi * uComp ≠ u.tab.nPhi ∨ p.tab.nPhi * pComp ≠ p.tab.nPhi) (alpha : Nat → K) :
    evaluateMixed (some spaces) (some fs) iel alpha = .error .valueError := by
  rw [evaluateMixed_eq h, mixedForm_error hn hc]
  rfl

/-- C65: a missing space or missing functions are refused. -/
theorem C65_unset_refused (space : Option (Dict String (FSpace (Elem K X))))
    (functions : Option (Data K X)) (iel : Nat) (alpha : Nat → K)
    (h : space = none ∨ functions = none) :
    evaluateMixed space functions iel alpha = .error .valueError := by
  rcases h with rfl | rfl
  · rfl
  · cases space <;> rfl

/-- C65: functions without the source or the coefficient are refused with `KeyError`. -/
theorem C65_missing_data {spaces : Dict String (FSpace (Elem K X))} {us ps : FSpace (Elem K X)}
    (hu : spaces.getItem "u" = .ok us) (hp : spaces.getItem "p" = .ok ps) (fs : Data K X)
    (h : fs.rhs = none ∨ fs.kappa = none) (iel : Nat) (alpha : Nat → K) :
    evaluateMixed (some spaces) (some fs) iel alpha = .error .keyError := by
  unfold evaluateMixed
  simp only [hu, hp, Res.bind_ok]
  rcases h with h | h
  · rw [h]; rfl
  · rw [h]
    cases fs.rhs <;> rfl

/-- C65: the boundary term is `∫ p_D ψ · n` in the degrees of freedom of the facet, components
interleaved, and no matrix. -/
theorem C65_boundary {nPts nPhi uComp dim : Nat} (weights det : Nat → K) {trace : Tab K}
    {dofs : List Nat} (normal : Nat → K) (pD : Nat → Nat → K)
    (hd : ∀ d ∈ dofs, d < trace.nPhi) (hl : dofs.length = nPhi) (hv : dim ≤ trace.nVal) :
    ∃ r j, mixedBoundary nPts nPhi uComp dim weights det trace dofs normal pD = .ok (r, j) ∧
      r.n = nPhi * uComp ∧ j.n = nPhi * uComp ∧ (∀ a b, j.val a b = 0) ∧
      ∀ a d, dofs[a]? = some d → ∀ c < uComp, r.val (a * uComp + c) =
        boundaryFlux nPts weights det pD
          (fun _ i => ∑ k ∈ Finset.range dim, trace.val 0 i d k * normal k) c a := by
  obtain ⟨r, h1, h2, h3⟩ := mixedBoundary_spec (nPts := nPts) (uComp := uComp) weights det normal pD
    hd hl hv
  exact ⟨r, _, h1, h2, rfl, fun _ _ => rfl, h3⟩

/-- One flux function `ψ = 1` with divergence 1 and one pressure function `φ = 1` on an interval,
one point of weight 1. -/
def interval : Elem ℚ Unit :=
  ⟨1, 1, fun _ => 1, fun _ => 1, ⟨1, 1, 1, fun _ _ _ _ => 1⟩, ()⟩

theorem interval_shapes : MixedShapes interval interval.tab := ⟨by decide, by decide, by decide, rfl⟩

theorem interval_input : MixedInput [("u", ⟨1, [interval]⟩), ("p", ⟨1, [interval]⟩)]
    ⟨some fun _ _ _ => 3, some fun _ _ => 2⟩ 0 interval interval 1 1 (fun _ _ _ => 3)
    (fun _ _ => 2) :=
  ⟨⟨_, rfl, rfl, rfl⟩, ⟨_, rfl, rfl, rfl⟩, rfl, rfl⟩

example : ∃ r j, evaluateMixed (some [("u", ⟨1, [interval]⟩), ("p", ⟨1, [interval]⟩)])
    (some ⟨some fun _ _ _ => 3, some fun _ _ => 2⟩) 0 (fun _ => 0) = .ok (r, j) ∧
    (r.val 0, r.val 1) = (0, -3) ∧
    (j.val 0 0, j.val 0 1, j.val 1 0, j.val 1 1) = (1 / 2, -1, 1, 0) := by
  obtain ⟨r, j, h, hn, hm, hr, hj⟩ := C65_system interval_input interval_shapes (fun _ => 0)
  have hn' : r.n = 2 := hn
  have hm' : j.n = 2 := hm
  refine ⟨r, j, h, ?_, ?_⟩
  · rw [hr 0 (by omega), hr 1 (by omega)]
    simp [mixedResidual, mixedSource, source, interval]
  · rw [hj 0 (by omega) 0 (by omega), hj 0 (by omega) 1 (by omega), hj 1 (by omega) 0 (by omega),
      hj 1 (by omega) 1 (by omega)]
    simp [mixedMatrix, fluxMass, divPair, divAt, interval]

/-- C65 fails for the argument `alpha`: the result does not depend on it, so the residual is in
general not the one in `alpha`. -/
theorem C65_alpha_ignored_violated :
    (∀ (space : Option (Dict String (FSpace (Elem K X)))) (functions : Option (Data K X))
      (iel : Nat) (alpha beta : Nat → K), evaluateMixed space functions iel alpha =
        evaluateMixed space functions iel beta) ∧
    ∃ r j, evaluateMixed (some [("u", ⟨1, [interval]⟩), ("p", ⟨1, [interval]⟩)])
      (some ⟨some fun _ _ _ => 3, some fun _ _ => 2⟩) 0 (fun _ => 1) = .ok (r, j) ∧
      r.val 1 ≠ mixedResidual interval interval.tab (fun _ _ _ => 3) (fun _ _ => 2) (fun _ => 1) 1 := by
  refine ⟨fun _ _ _ _ _ => rfl, ?_⟩
  obtain ⟨r, j, h, hn, hm, hr, hj⟩ := C65_system interval_input interval_shapes (fun _ => 1)
  have hn' : r.n = 2 := hn
  refine ⟨r, j, h, ?_⟩
  rw [hr 1 (by omega)]
  simp [mixedResidual, mixedMatrix, mixedSource, source, divPair, divAt, interval]
  norm_num

example : ∃ r j, mixedBoundary 1 1 1 2 (fun _ => (1 : ℚ)) (fun _ => 2)
    ⟨2, 3, 2, fun _ _ a d => a + d⟩ [2] (fun d => d + 1) (fun _ _ => 5) = .ok (r, j) ∧
    r.n = 1 ∧ r.val 0 = 80 := by
  obtain ⟨r, j, h, hn, -, -, hr⟩ := C65_boundary (nPts := 1) (nPhi := 1) (uComp := 1) (dim := 2)
    (fun _ => (1 : ℚ)) (fun _ => 2) (trace := ⟨2, 3, 2, fun _ _ a d => a + d⟩) (dofs := [2])
    (fun d => d + 1) (fun _ _ => 5) (by decide) rfl (by decide)
  refine ⟨r, j, h, hn, ?_⟩
  have := hr 0 2 rfl 0 (by omega)
  rw [Nat.zero_mul, Nat.zero_add] at this
  rw [this]
  simp [boundaryFlux, Finset.sum_range_succ]
  norm_num

/-! ### C66 -/

/-- The quadrature of a product space is a list of four entries. -/
theorem spaceQuadrature_length {Q : Type} {rule : Nat → Q} {dims : List Nat} {l : List (Option Q)}
    (h : spaceQuadrature rule dims = .ok l) : l.length = 4 := by
  unfold spaceQuadrature at h
  obtain ⟨m, _, h⟩ := (Res.bind_eq_ok).1 h
  have key : ∀ (is : List Nat) (l0 l : List (Option Q)), is.foldlM (fun (l : List (Option Q)) d =>
      setItem l d (some (rule d))) l0 = .ok l → l.length = l0.length := by
    intro is
    induction is with
    | nil => intro l0 l h; cases h; rfl
    | cons i is ih =>
      intro l0 l h
      rw [List.foldlM_cons] at h
      obtain ⟨l1, h1, h2⟩ := (Res.bind_eq_ok).1 h
      unfold setItem at h1
      split at h1
      · cases h1
        rw [ih _ _ h2]; simp
      · cases h1
  exact key _ _ _ h

/-- C66: the quadrature list of a product space has a rule for every dimension up to the highest of
its fields, and none above; a space without fields raises `ValueError`, dimensions above three
raise `IndexError`. -/
theorem C66_quadrature {Q : Type} (rule : Nat → Q) (dims : List Nat) :
    (dims = [] → spaceQuadrature rule dims = .error .valueError) ∧
    ∀ m, npMax dims = .ok m →
      (m ≤ 3 → spaceQuadrature rule dims =
        .ok ((List.range 4).map fun d => if d ≤ m then some (rule d) else none)) ∧
      (3 < m → spaceQuadrature rule dims = .error .indexError) := by
  constructor
  · rintro rfl; rfl
  · intro m hm
    constructor
    · intro h3
      unfold spaceQuadrature
      rw [hm]
      interval_cases m <;> rfl
    · intro h3
      unfold spaceQuadrature
      rw [hm]
      simp only [Res.bind_ok]
      obtain ⟨k, rfl⟩ : ∃ k, m = k + 4 := ⟨m - 4, by omega⟩
      rw [show k + 4 + 1 = 5 + k by omega, List.range_add, List.foldlM_append]
      rfl

/-- C66 fails: on every product space `evaluate_form` raises, because it unpacks the list of four
quadratures into two variables. -/
theorem C66_raises_violated {Q : Type} {rule : Nat → Q} {dims : List Nat} {l : List (Option Q)}
    (h : spaceQuadrature rule dims = .ok l)
    (space : Option (Dict String (FSpace (Option Q → Option Q → PElem K X))))
    (functions : Option (Data K X)) (iel : Nat) (alpha : Nat → K) :
    ∃ e, evaluatePrimal l space functions iel alpha = .error e := by
  have hl := spaceQuadrature_length h
  have hu : unpackTwo l = .error .valueError := by
    match l, hl with
    | [a, b, c, d], _ => rfl
  cases space with
  | none => exact ⟨.valueError, rfl⟩
  | some spaces =>
    cases functions with
    | none => exact ⟨.valueError, rfl⟩
    | some fs =>
      unfold evaluatePrimal
      dsimp only
      cases spaces.getItem "p" with
      | error e => exact ⟨e, rfl⟩
      | ok ps =>
        cases hr : entry fs.rhs with
        | error e => exact ⟨e, by simp only [Res.bind_ok]; rfl⟩
        | ok rhs =>
          cases hk : entry fs.kappa with
          | error e => exact ⟨e, by simp only [Res.bind_ok]; rfl⟩
          | ok kappa =>
            cases he : getIdx ps.elements iel with
            | error e => exact ⟨e, by simp only [Res.bind_ok, he]; rfl⟩
            | ok el => exact ⟨.valueError, by simp only [Res.bind_ok, he, hu]; rfl⟩

example : spaceQuadrature (fun d => d) [2, 1] = .ok [some 0, some 1, some 2, none] := by
  decide +kernel

/-- C66: given the points and the weights themselves, `evaluate_form` returns the residual in
`alpha` and its derivative, the stiffness matrix, with gradients of `gradComps` components. -/
theorem C66_system_partial {Q : Type} (points weights : Q)
    {spaces : Dict String (FSpace (Q → Q → PElem K X))} {fs : Data K X} {iel : Nat}
    {ps : FSpace (Q → Q → PElem K X)} {f : Q → Q → PElem K X} {el : PElem K X}
    {rhs : X → Nat → Nat → K} {kappa : X → Nat → K}
    (hp : spaces.getItem "p" = .ok ps) (hc : ps.nComp = 1) (hf : ps.elements[iel]? = some f)
    (he : f points weights = el) (hrhs : fs.rhs = some rhs) (hkappa : fs.kappa = some kappa)
    (hd : el.tab.nDer = el.dim) (alpha : Nat → K) :
    ∃ r j, evaluatePrimal [points, weights] (some spaces) (some fs) iel alpha = .ok (r, j) ∧
      r.n = el.tab.nPhi ∧ j.n = el.tab.nPhi ∧
      (∀ a < r.n, r.val a = ∑ b ∈ Finset.range el.tab.nPhi,
        stiffness (gradComps el) el kappa b a * alpha b - primalSource el rhs a) ∧
      ∀ a < j.n, ∀ b < j.n, j.val a b = stiffness (gradComps el) el kappa b a := by
  subst he
  obtain ⟨r, hr, hn, hv⟩ := primalForm_spec hd rhs kappa (adVar alpha)
  refine ⟨(valDer r).1, (valDer r).2, ?_, hn, hn, ?_, ?_⟩
  · unfold evaluatePrimal
    simp only [hp, hrhs, hkappa, entry, Res.bind_ok, getIdx_of hf, unpackTwo, hc]
    rw [hr]; rfl
  · intro a ha
    show (r.val a).fst = _
    rw [hv a (hn ▸ ha), fst_affine]
  · intro a ha b hb
    show (r.val a).snd b = _
    rw [hv a (hn ▸ ha), snd_affine _ _ _ _ _ (hn ▸ hb)]

/-- C66: more than one component is refused. -/
theorem C66_components_refused {Q : Type} (points weights : Q)
    {spaces : Dict String (FSpace (Q → Q → PElem K X))} {fs : Data K X} {iel : Nat}
    {ps : FSpace (Q → Q → PElem K X)} {f : Q → Q → PElem K X} {el : PElem K X}
    {rhs : X → Nat → Nat → K} {kappa : X → Nat → K}
    (hp : spaces.getItem "p" = .ok ps) (hf : ps.elements[iel]? = some f)
    (he : f points weights = el) (hrhs : fs.rhs = some rhs) (hkappa : fs.kappa = some kappa)
    (hd : el.tab.nDer = el.dim) (hn : 0 < el.nPts) (hc : el.tab.nPhi * ps.nComp ≠ el.tab.nPhi)
    (alpha : Nat → K) :
    evaluatePrimal [points, weights] (some spaces) (some fs) iel alpha = .error .valueError := by
  subst he
  unfold evaluatePrimal
  simp only [hp, hrhs, hkappa, entry, Res.bind_ok, getIdx_of hf, unpackTwo]
  rw [primalForm_error hd hn hc]
  rfl

/-- C66: the stiffness matrix is symmetric, and positive semidefinite for positive coefficients and
non-negative weights and determinants. -/
theorem C66_symmetric {K X : Type} [Field K] [LinearOrder K] [IsStrictOrderedRing K] (comps : Nat)
    (el : PElem K X) (kappa : X → Nat → K) :
    (∀ a b, stiffness comps el kappa a b = stiffness comps el kappa b a) ∧
    ((∀ i < el.nPts, 0 ≤ el.det i * el.weights i ∧ 0 < kappa el.x i) → ∀ (n : Nat) (v : Nat → K),
      0 ≤ ∑ a ∈ Finset.range n, ∑ b ∈ Finset.range n, v a * stiffness comps el kappa a b * v b) := by
  refine ⟨?_, ?_⟩
  · intro a b
    refine Finset.sum_congr rfl fun i _ => ?_
    rw [Finset.sum_congr rfl fun d _ => mul_comm _ _]
  · intro h n v
    have key : ∑ a ∈ Finset.range n, ∑ b ∈ Finset.range n, v a * stiffness comps el kappa a b * v b =
        ∑ i ∈ Finset.range el.nPts, el.det i * el.weights i * (kappa el.x i *
          ∑ l ∈ Finset.range comps, (∑ a ∈ Finset.range n, v a * gradAt el i a l) ^ 2) := by
      have e : ∀ a b, v a * stiffness comps el kappa a b * v b = ∑ i ∈ Finset.range el.nPts,
            ∑ l ∈ Finset.range comps, el.det i * el.weights i * kappa el.x i *
              (v a * gradAt el i a l) * (v b * gradAt el i b l) := by
        intro a b
        rw [stiffness, Finset.mul_sum, Finset.sum_mul]
        refine Finset.sum_congr rfl fun i _ => ?_
        rw [Finset.mul_sum, Finset.mul_sum, Finset.mul_sum, Finset.sum_mul]
        refine Finset.sum_congr rfl fun d _ => ?_
        ring
      simp_rw [e]
      simp_rw [Finset.sum_comm (s := Finset.range n) (t := Finset.range el.nPts)]
      refine Finset.sum_congr rfl fun i _ => ?_
      simp_rw [Finset.sum_comm (s := Finset.range n) (t := Finset.range comps)]
      rw [Finset.mul_sum, Finset.mul_sum]
      refine Finset.sum_congr rfl fun d _ => ?_
      rw [pow_two, Finset.sum_mul_sum, Finset.mul_sum, Finset.mul_sum]
      refine Finset.sum_congr rfl fun a _ => ?_
      rw [Finset.mul_sum, Finset.mul_sum]
      refine Finset.sum_congr rfl fun b _ => ?_
      ring
    rw [key]
    refine Finset.sum_nonneg fun i hi => ?_
    obtain ⟨h1, h2⟩ := h i (Finset.mem_range.1 hi)
    have : 0 ≤ ∑ l ∈ Finset.range comps, (∑ a ∈ Finset.range n, v a * gradAt el i a l) ^ 2 :=
      Finset.sum_nonneg fun d _ => sq_nonneg _
    positivity

/-- C66: on cells that are not two-dimensional, and on two-dimensional cells in a plane of constant
third coordinate, the matrix is `∫ κ ∇φ_a · ∇φ_b` with the gradients in space. -/
theorem C66_flat_partial (el : PElem K X) (kappa : X → Nat → K)
    (h : el.dim = 2 → ∀ i < el.nPts, ∀ k < 2, el.inv i k 2 = 0) (a b : Nat) :
    stiffness (gradComps el) el kappa a b = stiffness 3 el kappa a b := by
  unfold gradComps
  split
  · rename_i hd
    refine Finset.sum_congr rfl fun i hi => ?_
    have e : gradAt el i a 2 = 0 := by
      unfold gradAt
      refine Finset.sum_eq_zero fun k hk => ?_
      rw [h hd i (Finset.mem_range.1 hi) k (by rw [← hd]; exact Finset.mem_range.1 hk), zero_mul]
    rw [Finset.sum_range_succ (n := 2), e, zero_mul, add_zero]
  · rfl

/-- The reference triangle mapped by `(ξ, η) ↦ (ξ, η, ξ)`, with the function `ξ`. -/
def tilted : PElem ℚ Unit :=
  ⟨2, 1, fun _ => 1, fun _ => 1,
    fun _ k l => if (k, l) = (0, 0) ∨ (k, l) = (0, 2) then 1 / 2 else if (k, l) = (1, 1) then 1 else 0,
    ⟨2, 1, 1, fun k _ _ _ => if k = 1 then 1 else 0⟩, ()⟩

/-- C66 fails on tilted triangles: the third component of the gradient is left out. -/
theorem C66_tilted_violated :
    stiffness (gradComps tilted) tilted (fun _ _ => 1) 0 0 = 1 / 4 ∧
    stiffness 3 tilted (fun _ _ => 1) 0 0 = 1 / 2 := by
  constructor
  · simp [stiffness, gradComps, tilted, gradAt, Finset.sum_range_succ]; norm_num
  · simp [stiffness, tilted, gradAt, Finset.sum_range_succ]; norm_num

example : ∃ r j, evaluatePrimal [(), ()] (some [("p", ⟨1, [fun _ _ => tilted]⟩)])
    (some ⟨some fun _ _ _ => (3 : ℚ), some fun _ _ => 1⟩) 0 (fun _ => 0) = .ok (r, j) ∧
    j.n = 1 ∧ j.val 0 0 = 1 / 4 := by
  obtain ⟨r, j, h, -, hn, -, hj⟩ := C66_system_partial (K := ℚ) (X := Unit) () ()
    (spaces := [("p", ⟨1, [fun _ _ => tilted]⟩)])
    (fs := ⟨some fun _ _ _ => (3 : ℚ), some fun _ _ => 1⟩) (iel := 0) rfl rfl rfl rfl rfl rfl rfl
    (fun _ => 0)
  have hn' : j.n = 1 := hn
  refine ⟨r, j, h, hn, ?_⟩
  rw [hj 0 (by omega) 0 (by omega)]
  exact C66_tilted_violated.1

example : evaluatePrimal [(), ()] (some [("p", ⟨2, [fun _ _ => tilted]⟩)])
    (some ⟨some fun _ _ _ => 1, some fun _ _ => 1⟩) 0 (fun _ => (0 : ℚ)) = .error .valueError :=
  C66_components_refused () () (ps := ⟨2, [fun _ _ => tilted]⟩) rfl rfl rfl rfl rfl rfl (by decide)
    (by decide) _

example : evaluateMixed (some [("u", ⟨1, [interval]⟩), ("p", ⟨1, [interval]⟩)])
    (some ⟨some fun _ _ _ => 1, none⟩) 0 (fun _ => (0 : ℚ)) = .error .keyError :=
  C65_missing_data rfl rfl _ (.inr rfl) _ _

#print axioms C65_system
#print axioms C65_derivative
#print axioms C65_saddle
#print axioms C65_energy
#print axioms C65_components_refused
#print axioms C65_unset_refused
#print axioms C65_missing_data
#print axioms C65_boundary
#print axioms C65_alpha_ignored_violated
#print axioms C66_quadrature
#print axioms C66_raises_violated
#print axioms C66_system_partial
#print axioms C66_components_refused
#print axioms C66_symmetric
#print axioms C66_flat_partial
#print axioms C66_tilted_violated

end Verif.Laplace
