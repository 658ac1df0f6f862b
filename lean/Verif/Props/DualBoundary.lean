/-
Property theorems C80: the boundary terms of the dual forms of elasticity
(src/weak_forms/lce_dual_weak_form.py, lce_scaled_dual_weak_form.py, le_dual_weak_form.py).
-/
import Verif.Lemmas.DualBoundary
import Mathlib.Algebra.Order.BigOperators.Group.Finset

namespace Verif.Dual
open Assembly L2Form Laplace Elasticity Cosserat

variable {K : Type} [Field K]

/-- C80: the Dirichlet term of the dual forms is natural.  It has no matrix, and its residual is
`-∫ u_D · σ_p n + θ_D · ω_p n`; the scaled form takes `l + 1e-16` times the second term. -/
theorem C80_dirichlet (scaled : Bool) {side : Side K} {s m : Trace K} (hs : TraceFits side s)
    (hm : TraceFits side m) {sComp : Nat} (hc : 0 < sComp) (mComp : Nat) {u t : Nat → Nat → K}
    {len : Option (Nat → K)} {gradLen : Option Unit} {l : Nat → K}
    (hl : scaled = true → len = some l ∧ gradLen.isSome) :
    ∃ r, lceDirichlet scaled side s m sComp mComp (some u) (some t) len gradLen =
        .ok (r, zeros2 (s.nPhi * sComp + m.nPhi * mComp)) ∧
      r.n = s.nPhi * sComp + m.nPhi * mComp ∧
      ∀ p, r.val p = - (boundaryWork side s 0 sComp u p +
        boundaryWork side m (s.nPhi * sComp) mComp
          (fun i c => t i c * if scaled then l i + 1 / 10 ^ 16 else 1) p) := by
  have e1 := fun total (hb : 0 + s.nPhi * sComp ≤ total) => naturalField_adds hs hb u
  have e2 := fun total (hb : s.nPhi * sComp + m.nPhi * mComp ≤ total) => naturalField_adds hm hb
    (fun i c => t i c * if scaled then l i + 1 / 10 ^ 16 else 1)
  have hd : secondDim side sComp = side.dim := if_neg (by omega)
  refine ⟨⟨s.nPhi * sComp + m.nPhi * mComp, fun p => 0 + - boundaryWork side s 0 sComp u p +
    - boundaryWork side m (s.nPhi * sComp) mComp
          (fun i c => t i c * if scaled then l i + 1 / 10 ^ 16 else 1) p⟩, ?_, rfl, ?_⟩
  · unfold lceDirichlet
    cases scaled
    · simp only [entry, Res.bind_ok, hd, Bool.false_eq_true, if_false, Res.pure_eq]
      rw [e1 _ (by omega)]
      simp only [Res.bind_ok]
      have e3 := e2 _ le_rfl
      simp only [Bool.false_eq_true, if_false] at e3
      rw [e3]
      rfl
    · obtain ⟨h1, h2⟩ := hl rfl
      obtain ⟨g, h2⟩ := Option.isSome_iff_exists.1 h2
      simp only [h1, h2, entry, Res.bind_ok, hd, if_true, Res.pure_eq]
      rw [e1 _ (by omega)]
      simp only [Res.bind_ok]
      have e3 := e2 _ le_rfl
      simp only [if_true] at e3
      rw [e3]
      rfl
  · intro p
    ring

/-- C80: likewise in elasticity without couples. -/
theorem C80_dirichlet_le {side : Side K} {s : Trace K} (hs : TraceFits side s) (sComp : Nat)
    (u : Nat → Nat → K) :
    ∃ r, leDirichlet side s sComp (some u) = .ok (r, zeros2 (s.nPhi * sComp)) ∧
      r.n = s.nPhi * sComp ∧ ∀ p, r.val p = - boundaryWork side s 0 sComp u p := by
  refine ⟨⟨s.nPhi * sComp, fun p => 0 + - boundaryWork side s 0 sComp u p⟩, ?_, rfl, ?_⟩
  · unfold leDirichlet
    simp only [entry, Res.bind_ok]
    rw [naturalField_adds hs (by omega) u]
    rfl
  · intro p
    ring

/-- `∑ c, (σ n)_c (τ n)_c` of the fields with the coefficients `v`. -/
def normalOf (side : Side K) (tr : Trace K) (b comps n : Nat) (v : Nat → K) (i c : Nat) : K :=
  ∑ q ∈ Finset.range n, v q * traction side tr b comps i q c

theorem boundaryMass_mul (side : Side K) (tr : Trace K) (b comps n : Nat) (v : Nat → K) (p : Nat) :
    ∑ q ∈ Finset.range n, boundaryMass side tr b comps p q * v q =
      boundaryWork side tr b comps (normalOf side tr b comps n v) p := by
  unfold boundaryMass boundaryWork normalOf
  simp only [Finset.sum_mul, Finset.mul_sum]
  rw [Finset.sum_comm]
  refine Finset.sum_congr rfl fun i _ => ?_
  rw [Finset.sum_comm]
  exact Finset.sum_congr rfl fun c _ => Finset.sum_congr rfl fun q _ => by ring

theorem boundaryWork_sub (side : Side K) (tr : Trace K) (b comps : Nat) (g h : Nat → Nat → K)
    (p : Nat) : boundaryWork side tr b comps (fun i c => g i c - h i c) p =
      boundaryWork side tr b comps g p - boundaryWork side tr b comps h p := by
  unfold boundaryWork
  rw [← Finset.sum_sub_distrib]
  refine Finset.sum_congr rfl fun i _ => ?_
  rw [← mul_sub, ← Finset.sum_sub_distrib]
  congr 1
  exact Finset.sum_congr rfl fun c _ => sub_mul _ _ _

/-- C80: the Neumann term of the form that is not scaled penalises `σ n - s_N` and `ω n - m_N`: with
the coefficients `α` the residual is `β ∫ (σ n - s_N) · σ_p n + (ω n - m_N) · ω_p n`. -/
theorem C80_neumann_partial {side : Side K} {s m : Trace K} (hs : TraceFits side s) (hm : TraceFits side m)
    {sComp : Nat} (hc : 0 < sComp) (mComp : Nat) (fs fm : Nat → Nat → K) :
    ∃ r j, lceNeumann side s m sComp mComp (some fs) (some fm) = .ok (r, j) ∧
      r.n = s.nPhi * sComp + m.nPhi * mComp ∧ j.n = s.nPhi * sComp + m.nPhi * mComp ∧
      (∀ p q, j.val p q = penalty K * (boundaryMass side s 0 sComp p q +
        boundaryMass side m (s.nPhi * sComp) mComp p q)) ∧
      ∀ (alpha : Nat → K) (p : Nat), ∑ q ∈ Finset.range j.n, j.val p q * alpha q + r.val p =
        penalty K * (boundaryWork side s 0 sComp
            (fun i c => normalOf side s 0 sComp j.n alpha i c - fs i c) p +
          boundaryWork side m (s.nPhi * sComp) mComp
            (fun i c => normalOf side m (s.nPhi * sComp) mComp j.n alpha i c - fm i c) p) := by
  obtain ⟨r1, j1, a1, a2, a3, a4, a5⟩ := essentialField_ok (total := s.nPhi * sComp + m.nPhi * mComp)
    (b := 0) (comps := sComp) hs (by omega) fs (Vec.zeros (s.nPhi * sComp + m.nPhi * mComp))
    (zeros2 (s.nPhi * sComp + m.nPhi * mComp))
  obtain ⟨r2, j2, b1, b2, b3, b4, b5⟩ := essentialField_ok (total := s.nPhi * sComp + m.nPhi * mComp)
    (b := s.nPhi * sComp) (comps := mComp) hm le_rfl fm r1 j1
  have hd : secondDim side sComp = side.dim := if_neg (by omega)
  have hj : ∀ p q, j2.val p q = penalty K * (boundaryMass side s 0 sComp p q +
      boundaryMass side m (s.nPhi * sComp) mComp p q) := by
    intro p q
    rw [b5, a5]
    simp only [zeros2]
    ring
  refine ⟨r2, j2, ?_, b2.trans a2, b3.trans a3, hj, ?_⟩
  · unfold lceNeumann
    simp only [entry, Res.bind_ok, hd]
    rw [a1]
    exact b1
  · intro alpha p
    rw [b4, a4]
    simp only [hj, Vec.zeros, boundaryWork_sub, ← boundaryMass_mul, mul_assoc, add_mul, ← Finset.mul_sum,
      Finset.sum_add_distrib]
    ring

/-- C80: the matrix of the Neumann term is symmetric and its quadratic form
`β ∫ |σ n|² + |ω n|²` is not negative. -/
theorem C80_neumann_energy {K : Type} [Field K] [LinearOrder K] [IsStrictOrderedRing K] (side : Side K)
    (tr : Trace K) (b comps : Nat) :
    (∀ p q, boundaryMass side tr b comps p q = boundaryMass side tr b comps q p) ∧
    (∀ n (v : Nat → K), ∑ p ∈ Finset.range n, ∑ q ∈ Finset.range n,
        v p * boundaryMass side tr b comps p q * v q =
      ∑ i ∈ Finset.range side.nPts, side.det i * side.weights i *
        ∑ c ∈ Finset.range comps, normalOf side tr b comps n v i c ^ 2) ∧
    ((∀ i < side.nPts, 0 ≤ side.det i * side.weights i) → ∀ n (v : Nat → K),
      0 ≤ ∑ p ∈ Finset.range n, ∑ q ∈ Finset.range n, v p * boundaryMass side tr b comps p q * v q) := by
  have energy : ∀ n (v : Nat → K), ∑ p ∈ Finset.range n, ∑ q ∈ Finset.range n,
        v p * boundaryMass side tr b comps p q * v q =
      ∑ i ∈ Finset.range side.nPts, side.det i * side.weights i *
        ∑ c ∈ Finset.range comps, normalOf side tr b comps n v i c ^ 2 := by
    intro n v
    have e : ∀ p, ∑ q ∈ Finset.range n, v p * boundaryMass side tr b comps p q * v q =
        v p * boundaryWork side tr b comps (normalOf side tr b comps n v) p := by
      intro p
      rw [← boundaryMass_mul, Finset.mul_sum]
      exact Finset.sum_congr rfl fun q _ => by ring
    simp only [e]
    unfold boundaryWork
    simp only [Finset.mul_sum]
    rw [Finset.sum_comm]
    refine Finset.sum_congr rfl fun i _ => ?_
    rw [Finset.sum_comm]
    refine Finset.sum_congr rfl fun c _ => ?_
    rw [pow_two]
    conv_rhs => rw [show normalOf side tr b comps n v i c = ∑ q ∈ Finset.range n,
      v q * traction side tr b comps i q c from rfl]
    rw [Finset.mul_sum, Finset.mul_sum]
    refine Finset.sum_congr rfl fun p _ => ?_
    rw [show normalOf side tr b comps n v i c = ∑ q ∈ Finset.range n,
      v q * traction side tr b comps i q c from rfl]
    ring
  refine ⟨fun p q => ?_, energy, fun h n v => ?_⟩
  · unfold boundaryMass
    refine Finset.sum_congr rfl fun i _ => ?_
    congr 1
    exact Finset.sum_congr rfl fun c _ => mul_comm _ _
  · rw [energy]
    exact Finset.sum_nonneg fun i hi => mul_nonneg (h i (Finset.mem_range.1 hi))
      (Finset.sum_nonneg fun c _ => sq_nonneg _)

theorem addScaled_error {r v : Vec K} (h : r.n ≠ v.n) (c : K) :
    Vec.addScaled r c v = .error .valueError := if_pos h

/-- What a stress refuses: a position outside the basis of the neighbour, functions with too few
components, or another number of positions than functions of the facet. -/
inductive Refused (side : Side K) (tr : Trace K) : Err → Prop
  | dofs (d : Nat) (h : d ∈ tr.dofs) (hd : tr.tab.nPhi ≤ d) : Refused side tr .indexError
  | val (h : ∀ d ∈ tr.dofs, d < tr.tab.nPhi) (hv : tr.tab.nVal < side.dim) : Refused side tr .valueError
  | length (h : ∀ d ∈ tr.dofs, d < tr.tab.nPhi) (hl : tr.dofs.length ≠ tr.nPhi) :
      Refused side tr .valueError

/-- C80: these are refused by all boundary terms, when the quadrature has a point and the stress has a
row. -/
theorem C80_refused {side : Side K} {s : Trace K} {e : Err} (h : Refused side s e)
    (hn : 0 < side.nPts) {sComp : Nat} (hc : 0 < sComp) (m : Trace K) (mComp : Nat)
    (u t : Nat → Nat → K) :
    leDirichlet side s sComp (some u) = .error e ∧
    lceDirichlet false side s m sComp mComp (some u) (some t) none none = .error e ∧
    (∀ l, lceDirichlet true side s m sComp mComp (some u) (some t) (some l) (some ()) = .error e) ∧
    lceNeumann side s m sComp mComp (some u) (some t) = .error e := by
  have hp : ∀ i, normalPart side.dim s side.normal i = .error e ∨
      (e = .valueError ∧ ∃ v : Vec K, normalPart side.dim s side.normal i = .ok v ∧ v.n ≠ s.nPhi) := by
    intro i
    unfold normalPart
    cases h with
    | dofs d h hd =>
      left
      rw [if_pos (by simp only [List.any_eq_true, decide_eq_true_eq]; exact ⟨d, h, hd⟩)]
    | val h hv =>
      left
      rw [if_neg (by simp only [List.any_eq_true, decide_eq_true_eq, not_exists, not_and, not_le]; exact h),
        if_pos hv]
    | length h hl =>
      rw [if_neg (by simp only [List.any_eq_true, decide_eq_true_eq, not_exists, not_and, not_le]; exact h)]
      by_cases hv : s.tab.nVal < side.dim
      · exact .inl (if_pos hv)
      · right
        rw [if_neg hv]
        exact ⟨rfl, _, rfl, hl⟩
  obtain ⟨k, hk⟩ : ∃ k, side.nPts = k + 1 := ⟨side.nPts - 1, by omega⟩
  obtain ⟨c, hc⟩ : ∃ c, sComp = c + 1 := ⟨sComp - 1, by omega⟩
  have h1 : ∀ g : Nat → K, loadBlock side side.dim s g = .error e := by
    intro g
    unfold loadBlock
    rw [hk, List.range_succ_eq_map, List.foldlM_cons]
    rcases hp 0 with h0 | ⟨rfl, v, h0, hv⟩
    · rw [h0]; rfl
    · rw [h0]
      simp only [Res.bind_ok]
      rw [addScaled_error (r := Vec.zeros s.nPhi) (Ne.symm hv)]
      rfl
  have h2 : ∀ g : Nat → K, penaltyBlock side side.dim s g = .error e := by
    intro g
    unfold penaltyBlock
    rw [hk, List.range_succ_eq_map, List.foldlM_cons]
    rcases hp 0 with h0 | ⟨rfl, v, h0, hv⟩
    · rw [h0]; rfl
    · rw [h0]
      simp only [Res.bind_ok]
      rw [addScaled_error (r := Vec.zeros s.nPhi) (Ne.symm hv)]
      rfl
  have h3 : ∀ (total : Nat) (g : Nat → Nat → K) r,
      naturalField total 0 sComp side side.dim s g r = .error e := by
    intro total g r
    unfold naturalField
    rw [hc, List.range_succ_eq_map, List.foldlM_cons, h1]
    rfl
  have h4 : ∀ (total : Nat) (g : Nat → Nat → K) st,
      essentialField total 0 sComp side side.dim s g st = .error e := by
    intro total g st
    unfold essentialField
    rw [hc, List.range_succ_eq_map, List.foldlM_cons, h2]
    rfl
  refine ⟨?_, ?_, fun l => ?_, ?_⟩
  · unfold leDirichlet
    simp only [entry, Res.bind_ok, h3]
    rfl
  · unfold lceDirichlet
    simp only [entry, Res.bind_ok, h3, Bool.false_eq_true, if_false, Res.pure_eq]
    rfl
  · unfold lceDirichlet
    simp only [entry, Res.bind_ok, h3, if_true, Res.pure_eq]
    rfl
  · unfold lceNeumann
    simp only [entry, Res.bind_ok, h4]
    rfl

/-- C80: missing data are refused with `KeyError`; the scaled form needs `l` and its gradient, which it
does not use. -/
theorem C80_unset_refused (side : Side K) (s m : Trace K) (sComp mComp : Nat)
    (f g : Option (Nat → Nat → K)) (len : Option (Nat → K)) (gradLen : Option Unit) :
    leDirichlet side s sComp none = .error .keyError ∧
    (∀ scaled, f = none ∨ g = none ∨ scaled = true ∧ (len = none ∨ gradLen = none) →
      lceDirichlet scaled side s m sComp mComp f g len gradLen = .error .keyError) ∧
    (f = none ∨ g = none → lceNeumann side s m sComp mComp f g = .error .keyError) := by
  refine ⟨rfl, ?_, ?_⟩
  · intro scaled h
    cases f <;> [rfl; skip]
    cases g <;> [rfl; skip]
    simp only [reduceCtorEq, false_or] at h
    obtain ⟨rfl, h⟩ := h
    cases len <;> [rfl; skip]
    cases gradLen <;> [rfl; skip]
    simp at h
  · intro h
    cases f <;> [rfl; skip]
    cases g <;> [rfl; skip]
    simp at h

/-- C80 fails for the Neumann terms beside the scaled form and beside elasticity without couples: they
read a mapping that nobody stores and call `evaluate_basis` with one argument of four, so that they
return for no data. -/
theorem C80_neumann_violated (sN mN : Option Unit) (stored : Bool) (rest : Res (Vec K × Mat K)) :
    (∀ v, oldNeumann sN mN stored rest ≠ .ok v) ∧
    (sN.isSome → mN.isSome → oldNeumann sN mN stored rest =
      .error (if stored then .typeError else .attributeError)) := by
  cases sN <;> cases mN <;> cases stored
  all_goals
    refine ⟨?_, ?_⟩
    · intro v h
      cases h
    · intro h h'
      first
      | rfl
      | (simp at h h'; done)

/-! ### Examples -/

/-- A facet with normal `(0, -1)` below the triangle, where two functions of the neighbour have a
normal part. -/
def bottom : Side ℚ := ⟨1, 2, 1, fun _ => 1, fun _ => 2, fun d => if d = 1 then -1 else 0⟩

/-- Functions one and two of three. -/
def bottomTrace : Trace ℚ := ⟨2, ⟨2, 3, 2, fun _ _ a d => (a : ℚ) + d⟩, [1, 2]⟩

theorem bottom_fits : TraceFits bottom bottomTrace :=
  ⟨by decide, rfl, le_rfl⟩

example : ∃ r, lceDirichlet true bottom bottomTrace bottomTrace 2 1 (some fun _ c => if c = 0 then 5 else 7)
      (some fun _ _ => 3) (some fun _ => 1) (some ()) = .ok (r, zeros2 6) ∧ r.n = 6 ∧
    r.val 0 = 20 ∧ r.val 3 = 42 ∧ r.val 4 = 12 + 12 / 10 ^ 16 := by
  obtain ⟨r, h1, h2, h3⟩ := C80_dirichlet true bottom_fits bottom_fits (sComp := 2) (by decide) 1
    (u := fun _ c => if c = 0 then 5 else 7) (t := fun _ _ => 3) (len := some fun _ => 1)
    (gradLen := some ()) (l := fun _ => 1) (fun _ => ⟨rfl, rfl⟩)
  refine ⟨r, h1, h2, ?_, ?_, ?_⟩ <;> rw [h3] <;> decide +kernel

example : ∃ r j, lceNeumann bottom bottomTrace bottomTrace 2 1 (some fun _ _ => 3) (some fun _ _ => 4) =
      .ok (r, j) ∧ j.val 0 2 = 12 * 10 ^ 12 ∧ j.val 0 1 = 0 ∧ j.val 4 5 = 12 * 10 ^ 12 := by
  obtain ⟨r, j, h1, _, _, h2, _⟩ := C80_neumann_partial bottom_fits bottom_fits (sComp := 2) (by decide) 1
    (fun _ _ => 3) (fun _ _ => 4)
  refine ⟨r, j, h1, ?_, ?_, ?_⟩ <;> rw [h2] <;> decide +kernel

example : ∃ r, leDirichlet bottom bottomTrace 2 (some fun _ c => if c = 0 then 5 else 7) =
    .ok (r, zeros2 4) ∧ r.val 3 = 42 := by
  obtain ⟨r, h1, _, h3⟩ := C80_dirichlet_le bottom_fits 2 (fun _ c => if c = 0 then 5 else 7)
  refine ⟨r, h1, ?_⟩
  rw [h3]; decide +kernel

example : ∀ i < bottom.nPts, 0 ≤ bottom.det i * bottom.weights i := by
  intro i _
  norm_num [bottom]

example : leDirichlet bottom { bottomTrace with dofs := [1, 3] } 2 (some fun _ _ => 5) =
    .error .indexError :=
  (C80_refused (.dofs 3 (by simp) (by decide)) (by decide) (by decide) bottomTrace 1 _ (fun _ _ => 0)).1

#print axioms C80_dirichlet
#print axioms C80_dirichlet_le
#print axioms C80_neumann_partial
#print axioms C80_neumann_energy
#print axioms C80_refused
#print axioms C80_unset_refused
#print axioms C80_neumann_violated

end Verif.Dual
