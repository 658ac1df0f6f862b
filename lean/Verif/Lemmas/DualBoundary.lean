/-
Helper lemmas for C80.
-/
import Verif.Spec.DualBoundary
import Verif.Lemmas.DualVec

namespace Verif.Dual
open Assembly L2Form Laplace Elasticity Cosserat

variable {K : Type} [Field K]

theorem normalPart_ok {side : Side K} {tr : Trace K} (h : TraceFits side tr) (i : Nat) :
    normalPart side.dim tr side.normal i = .ok ⟨tr.nPhi, normalTrace side tr i⟩ := by
  unfold normalPart
  have h1 : ¬ (tr.dofs.any fun d => tr.tab.nPhi ≤ d) = true := by
    simp only [List.any_eq_true, decide_eq_true_eq, not_exists, not_and, not_le]
    exact h.dofs
  rw [if_neg h1, if_neg (by have := h.val; omega), h.length]
  rfl

theorem addScaled_ok {b : Vec K} {n : Nat} (h : b.n = n) (c : K) (f : Nat → K) :
    Vec.addScaled b c ⟨n, f⟩ = .ok ⟨n, fun a => b.val a + c * f a⟩ := by
  subst h
  simp [Vec.addScaled]

theorem addOuter_ok {j : Mat K} {n : Nat} (h : j.n = n) (c : K) (f : Nat → K) :
    addOuter j c ⟨n, f⟩ = .ok ⟨n, fun a b => j.val a b + c * (f a * f b)⟩ := by
  subst h
  simp [addOuter]

theorem loadBlock_ok {side : Side K} {tr : Trace K} (h : TraceFits side tr) (g : Nat → K) :
    loadBlock side side.dim tr g = .ok ⟨tr.nPhi, fun a => ∑ i ∈ Finset.range side.nPts,
      - (side.det i * side.weights i * g i) * normalTrace side tr i a⟩ := by
  have key : ∀ (l : List Nat) (b : Vec K), b.n = tr.nPhi →
      l.foldlM (fun (b : Vec K) i => do
        let phi ← normalPart side.dim tr side.normal i
        Vec.addScaled b (- (side.det i * side.weights i * g i)) phi) b =
      .ok ⟨tr.nPhi, fun a => b.val a +
        (l.map fun i => - (side.det i * side.weights i * g i) * normalTrace side tr i a).sum⟩ := by
    intro l
    induction l with
    | nil => rintro ⟨n, f⟩ rfl; simp [Res.pure_eq]
    | cons i l ih =>
      intro b hb
      rw [List.foldlM_cons, normalPart_ok h]
      simp only [Res.bind_ok]
      rw [addScaled_ok hb]
      refine (ih _ rfl).trans ?_
      simp only [List.map_cons, List.sum_cons, add_assoc]
  unfold loadBlock
  rw [key _ _ rfl]
  simp only [Vec.zeros, zero_add, sum_map_range]

theorem penaltyBlock_ok {side : Side K} {tr : Trace K} (h : TraceFits side tr) (g : Nat → K) :
    penaltyBlock side side.dim tr g = .ok (⟨tr.nPhi, fun a => ∑ i ∈ Finset.range side.nPts,
      - (penalty K * side.det i * side.weights i * g i) * normalTrace side tr i a⟩,
      ⟨tr.nPhi, fun a b => ∑ i ∈ Finset.range side.nPts, penalty K * side.det i * side.weights i *
        (normalTrace side tr i a * normalTrace side tr i b)⟩) := by
  have key : ∀ (l : List Nat) (r : Vec K) (j : Mat K), r.n = tr.nPhi → j.n = tr.nPhi →
      l.foldlM (fun (st : Vec K × Mat K) i => do
        let phi ← normalPart side.dim tr side.normal i
        let r ← Vec.addScaled st.1 (- (penalty K * side.det i * side.weights i * g i)) phi
        let j ← addOuter st.2 (penalty K * side.det i * side.weights i) phi
        pure (r, j)) (r, j) =
      .ok (⟨tr.nPhi, fun a => r.val a + (l.map fun i =>
          - (penalty K * side.det i * side.weights i * g i) * normalTrace side tr i a).sum⟩,
        ⟨tr.nPhi, fun a b => j.val a b + (l.map fun i => penalty K * side.det i * side.weights i *
          (normalTrace side tr i a * normalTrace side tr i b)).sum⟩) := by
    intro l
    induction l with
    | nil => rintro ⟨n, f⟩ ⟨n', f'⟩ h1 h2; dsimp only at h1 h2; subst h1; subst h2; simp [Res.pure_eq]
    | cons i l ih =>
      intro r j hr hj
      rw [List.foldlM_cons, normalPart_ok h]
      simp only [Res.bind_ok]
      rw [addScaled_ok hr]
      simp only [Res.bind_ok]
      rw [addOuter_ok hj]
      refine (ih _ _ rfl rfl).trans ?_
      simp only [List.map_cons, List.sum_cons, add_assoc]
  unfold penaltyBlock
  rw [key _ _ _ rfl rfl]
  simp only [Vec.zeros, zeros2, zero_add, sum_map_range]

/-- A sum over components has the one of the degree of freedom. -/
theorem sum_traction {side : Side K} {tr : Trace K} {b comps : Nat} (i p : Nat) (g : Nat → K) :
    ∑ c ∈ Finset.range comps, g c * traction side tr b comps i p c =
      if b ≤ p ∧ p < b + tr.nPhi * comps then
        g ((p - b) % comps) * normalTrace side tr i ((p - b) / comps) else 0 := by
  unfold traction comp
  split
  · rename_i h
    have hc : 0 < comps := by
      rcases Nat.eq_zero_or_pos comps with h0 | h0
      · rw [h0] at h; omega
      · exact h0
    simp only [h, true_and, mul_ite, mul_zero]
    rw [Finset.sum_ite_eq, if_pos (Finset.mem_range.2 (Nat.mod_lt _ hc))]
  · rename_i h
    refine Finset.sum_eq_zero fun c _ => ?_
    rw [if_neg (by tauto), mul_zero]

theorem naturalField_adds {total b comps : Nat} {side : Side K} {tr : Trace K}
    (h : TraceFits side tr) (hb : b + tr.nPhi * comps ≤ total) (g : Nat → Nat → K) :
    AddsV (naturalField total b comps side side.dim tr g)
      (fun p => - boundaryWork side tr b comps g p) := by
  intro r
  unfold naturalField
  simp only [loadBlock_ok h, Res.bind_ok]
  refine (loads_adds hb (fun c a => ∑ i ∈ Finset.range side.nPts,
      - (side.det i * side.weights i * g i c) * normalTrace side tr i a) r).trans ?_
  congr 2
  funext p
  congr 1
  unfold boundaryWork
  simp only [sum_traction]
  split
  · rw [← Finset.sum_neg_distrib]
    exact Finset.sum_congr rfl fun i _ => by ring
  · simp

theorem essentialField_ok {total b comps : Nat} {side : Side K} {tr : Trace K}
    (h : TraceFits side tr) (hb : b + tr.nPhi * comps ≤ total) (g : Nat → Nat → K) (r : Vec K)
    (j : Mat K) :
    ∃ r' j', essentialField total b comps side side.dim tr g (r, j) = .ok (r', j') ∧ r'.n = r.n ∧
      j'.n = j.n ∧ (∀ p, r'.val p = r.val p - penalty K * boundaryWork side tr b comps g p) ∧
      ∀ p q, j'.val p q = j.val p q + penalty K * boundaryMass side tr b comps p q := by
  obtain ⟨r', j', h1, h2, h3, h4, h5⟩ := fieldBlocks_spec hb
    (fun c a => ∑ i ∈ Finset.range side.nPts,
      - (penalty K * side.det i * side.weights i * g i c) * normalTrace side tr i a)
    (fun a b => ∑ i ∈ Finset.range side.nPts, penalty K * side.det i * side.weights i *
        (normalTrace side tr i a * normalTrace side tr i b)) r j
  refine ⟨r', j', ?_, h2, h3, ?_, ?_⟩
  · unfold essentialField
    simp only [penaltyBlock_ok h, Res.bind_ok]
    exact h1
  · intro p
    rw [h4]
    unfold boundaryWork
    simp only [sum_traction]
    split
    · rw [sub_eq_add_neg, Finset.mul_sum, ← Finset.sum_neg_distrib]
      congr 1
      exact Finset.sum_congr rfl fun i _ => by ring
    · simp
  · intro p q
    rw [h5]
    unfold boundaryMass
    simp only [sum_traction]
    congr 1
    by_cases hp : b ≤ p ∧ p < b + tr.nPhi * comps
    · simp only [hp, and_self, true_and, if_true]
      unfold traction comp
      simp only [ite_mul, zero_mul]
      by_cases hq : (b ≤ q ∧ q < b + tr.nPhi * comps) ∧ (p - b) % comps = (q - b) % comps
      · rw [if_pos hq, Finset.mul_sum]
        refine Finset.sum_congr rfl fun i _ => ?_
        rw [if_pos ⟨hq.1.1, hq.1.2, hq.2.symm⟩]
        ring
      · rw [if_neg hq]
        symm
        rw [Finset.sum_eq_zero, mul_zero]
        intro i _
        rw [if_neg (by rintro ⟨a1, a2, a3⟩; exact hq ⟨⟨a1, a2⟩, a3.symm⟩), mul_zero]
    · simp only [hp, false_and, if_false, mul_zero, Finset.sum_const_zero]

end Verif.Dual
