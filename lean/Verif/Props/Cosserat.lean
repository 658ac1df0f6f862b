/-
Property theorems C73: the local system of linear Cosserat elasticity
(src/weak_forms/lce_primal_weak_form.py).
-/
import Verif.Lemmas.Cosserat
import Verif.Props.Elasticity

namespace Verif.Cosserat
open Assembly L2Form Laplace Elasticity

variable {K X : Type} [Field K]

/-- What `evaluate_form` reads for the element `iel`: the elements of the two fields, the numbers of
components and the coefficients. -/
structure Input (spaces : Dict String (FSpace (PElem K X))) (fs : Data K X) (iel : Nat)
    (u : PElem K X) (t : Tab K) (uComp tComp : Nat) (rhs : X → Nat → Nat → K)
    (c : X → Nat → Coeffs K) : Prop where
  u : ∃ us, spaces.getItem "u" = .ok us ∧ us.elements[iel]? = some u ∧ us.nComp = uComp
  t : ∃ ts e, spaces.getItem "t" = .ok ts ∧ ts.elements[iel]? = some e ∧ e.tab = t ∧ ts.nComp = tComp
  rhs : fs.rhs = some rhs
  mu : fs.mu = some fun x i => (c x i).mu
  kappa : fs.kappa = some fun x i => (c x i).kappa
  lam : fs.lam = some fun x i => (c x i).lam
  gamma : fs.gamma = some fun x i => (c x i).gamma

theorem evaluateForm_eq {spaces : Dict String (FSpace (PElem K X))} {fs : Data K X} {iel : Nat}
    {u : PElem K X} {t : Tab K} {uComp tComp : Nat} {rhs : X → Nat → Nat → K}
    {c : X → Nat → Coeffs K} (h : Input spaces fs iel u t uComp tComp rhs c) (alpha : Nat → K) :
    evaluateForm (some spaces) (some fs) iel alpha =
      (form u t uComp tComp rhs c (adVar alpha)).map valDer := by
  obtain ⟨us, h1, h2, h3⟩ := h.u
  obtain ⟨ts, e, h4, h5, h6, h7⟩ := h.t
  unfold evaluateForm
  simp only [h1, h4, h.rhs, h.mu, h.kappa, h.lam, h.gamma, entry, Res.bind_ok, getIdx_of h2,
    getIdx_of h5, h3, h6, h7]
  cases form u t uComp tComp rhs c (adVar alpha) <;> rfl

/-- C73: in two and three dimensions, with as many displacements as dimensions and one or three
rotations, `evaluate_form` returns the residual `a((u, θ), φ_p) + ∫ f · φ_p` and the matrix
`a(φ_q, φ_p)` of Cosserat elasticity, where
`a = ∫ 2μ sym e : sym e' + 2κ skew e : skew e' + λ tr e tr e' + γ ∇θ : ∇θ'` with `e = ∇u + Θ`. -/
theorem C73_system [CharZero K] {spaces : Dict String (FSpace (PElem K X))} {fs : Data K X}
    {iel : Nat} {u : PElem K X} {t : Tab K} {rhs : X → Nat → Nat → K} {c : X → Nat → Coeffs K}
    (hf : Fits u t) (h : Input spaces fs iel u t u.dim (spins u.dim) rhs c) (alpha : Nat → K) :
    ∃ r j, evaluateForm (some spaces) (some fs) iel alpha = .ok (r, j) ∧
      r.n = dofs u.dim u t ∧ j.n = dofs u.dim u t ∧
      (∀ p < r.n, r.val p = ∑ q ∈ Finset.range (dofs u.dim u t),
        cosseratMatrix u.dim u t c p q * alpha q + load u.dim u t rhs p) ∧
      ∀ p < j.n, ∀ q < j.n, j.val p q = cosseratMatrix u.dim u t c p q := by
  obtain ⟨r, h1, h2, h3⟩ := form_spec hf rhs c (adVar alpha)
  obtain ⟨h4, h5⟩ := valDer_affine _ _ alpha h2 h3
  refine ⟨(valDer r).1, (valDer r).2, ?_, h2, h2, ?_, ?_⟩
  · rw [evaluateForm_eq h, h1]; rfl
  · intro p hp; exact h4 p (h2 ▸ hp)
  · intro p hp q hq; exact h5 p (h2 ▸ hp) q (h2 ▸ hq)

/-- C73: the matrix is symmetric, its quadratic form is the energy, and it is not negative when
`μ, κ, γ ≥ 0` and `2μ + mλ ≥ 0`. -/
theorem C73_energy {K X : Type} [Field K] [LinearOrder K] [IsStrictOrderedRing K] (m : Nat)
    (u : PElem K X) (t : Tab K) (c : X → Nat → Coeffs K) :
    (∀ p q, cosseratMatrix m u t c p q = cosseratMatrix m u t c q p) ∧
    (∀ v : Nat → K, ∑ p ∈ Finset.range (dofs m u t), ∑ q ∈ Finset.range (dofs m u t),
        v p * cosseratMatrix m u t c p q * v q =
      ∑ i ∈ Finset.range u.nPts, u.det i * u.weights i *
        (power m (c u.x i) (fieldStrain m u t v i) (fieldStrain m u t v i) +
          (c u.x i).gamma * contractSpin m (fieldCurvature m u t v i) (fieldCurvature m u t v i))) ∧
    ((∀ i < u.nPts, 0 ≤ u.det i * u.weights i ∧ 0 ≤ (c u.x i).mu ∧ 0 ≤ (c u.x i).kappa ∧
        0 ≤ (c u.x i).gamma ∧ 0 ≤ 2 * (c u.x i).mu + m * (c u.x i).lam) →
      ∀ v : Nat → K, 0 ≤ ∑ p ∈ Finset.range (dofs m u t), ∑ q ∈ Finset.range (dofs m u t),
        v p * cosseratMatrix m u t c p q * v q) := by
  refine ⟨fun p q => ?_, fun v => cosseratMatrix_energy m u t c v, fun h v => ?_⟩
  · refine Finset.sum_congr rfl fun i _ => ?_
    rw [power_comm, contractSpin_comm]
  · rw [cosseratMatrix_energy]
    refine Finset.sum_nonneg fun i hi => ?_
    obtain ⟨h1, h2, h3, h4, h5⟩ := h i (Finset.mem_range.1 hi)
    refine mul_nonneg h1 (add_nonneg ?_ (mul_nonneg h4 (contractSpin_self_nonneg m _)))
    rw [power_eq]
    exact add_nonneg (elasticPower_nonneg m h2 h5 _)
      (mul_nonneg (by linarith) (contract_self_nonneg m _))

/-- C73: a field without strain and curvature in the quadrature points is in the kernel of the
matrix. -/
theorem C73_rigid (m : Nat) (u : PElem K X) (t : Tab K) (c : X → Nat → Coeffs K) (v : Nat → K)
    (h1 : ∀ i < u.nPts, ∀ k < m, ∀ l < m, fieldStrain m u t v i k l = 0)
    (h2 : ∀ i < u.nPts, ∀ k < spins m, ∀ l < m, fieldCurvature m u t v i k l = 0) (p : Nat) :
    ∑ q ∈ Finset.range (dofs m u t), cosseratMatrix m u t c p q * v q = 0 := by
  rw [cosseratMatrix_mul]
  refine Finset.sum_eq_zero fun i hi => ?_
  have hc : contractSpin m (curvatureOf m u t i p) (fieldCurvature m u t v i) = 0 :=
    Finset.sum_eq_zero fun k hk => Finset.sum_eq_zero fun l hl => by
      rw [h2 i (Finset.mem_range.1 hi) k (Finset.mem_range.1 hk) l (Finset.mem_range.1 hl), mul_zero]
  rw [power_zero _ _ (h1 i (Finset.mem_range.1 hi)), hc, mul_zero, add_zero, mul_zero]

/-- The degrees of freedom of the rigid motion `shift - axial(w) x` with the rotation `w`. -/
def rigidMotion (m nU : Nat) (node : Nat → Nat → K) (shift w : Nat → K) (q : Nat) : K :=
  if q < nU then shift (q % m) - ∑ j ∈ Finset.range m, axial m w (q % m) j * node (q / m) j
  else w ((q - nU) % spins m)

/-- C73: translations, and rotations about which the microrotation turns along, are such fields. -/
theorem C73_rigid_motions {m : Nat} (hm : m = 2 ∨ m = 3) (u : PElem K X) (t : Tab K)
    (c : X → Nat → Coeffs K) (node : Nat → Nat → K)
    (hone : ∀ i < u.nPts, ∀ l < m, ∑ a ∈ Finset.range u.tab.nPhi, gradAt u i a l = 0)
    (hlin : ∀ i < u.nPts, ∀ k < m, ∀ l < m,
      ∑ a ∈ Finset.range u.tab.nPhi, node a k * gradAt u i a l = if k = l then 1 else 0)
    (tone : ∀ i < u.nPts, ∑ a ∈ Finset.range t.nPhi, t.val 0 i a 0 = 1)
    (tgrad : ∀ i < u.nPts, ∀ l < m,
      ∑ a ∈ Finset.range t.nPhi, gradAt { u with tab := t } i a l = 0)
    (shift w : Nat → K) (p : Nat) :
    ∑ q ∈ Finset.range (dofs m u t), cosseratMatrix m u t c p q *
      rigidMotion m (u.tab.nPhi * m) node shift w q = 0 := by
  have hv : ∀ a k, k < spins m → rigidMotion m (u.tab.nPhi * m) node shift w
      (u.tab.nPhi * m + (a * spins m + k)) = w k := by
    intro a k hk
    unfold rigidMotion
    rw [if_neg (by omega), Nat.add_sub_cancel_left, (div_mod_index hk).2]
  refine C73_rigid m u t c _ ?_ ?_ p
  · intro i hi k hk l hl
    rw [fieldStrain_eq (by omega) u t _ i hk l]
    have e1 : fieldGrad m u (rigidMotion m (u.tab.nPhi * m) node shift w) i k l = - axial m w k l := by
      unfold fieldGrad
      have e : ∀ a ∈ Finset.range u.tab.nPhi,
          rigidMotion m (u.tab.nPhi * m) node shift w (a * m + k) * gradAt u i a l =
          shift k * gradAt u i a l -
            ∑ j ∈ Finset.range m, axial m w k j * (node a j * gradAt u i a l) := by
        intro a ha
        have hlt : a * m + k < u.tab.nPhi * m := by
          calc a * m + k < a * m + m := by omega
            _ = (a + 1) * m := (Nat.succ_mul a m).symm
            _ ≤ u.tab.nPhi * m := Nat.mul_le_mul_right _ (Finset.mem_range.1 ha)
        unfold rigidMotion
        rw [if_pos hlt, (div_mod_index hk).1, (div_mod_index hk).2, sub_mul, Finset.sum_mul]
        congr 1
        refine Finset.sum_congr rfl fun j _ => ?_
        ring
      rw [Finset.sum_congr rfl e, Finset.sum_sub_distrib, ← Finset.mul_sum, hone i hi l hl, mul_zero,
        zero_sub, Finset.sum_comm]
      have e2 : ∀ j ∈ Finset.range m, ∑ a ∈ Finset.range u.tab.nPhi,
          axial m w k j * (node a j * gradAt u i a l) = if j = l then axial m w k j else 0 := by
        intro j hj
        rw [← Finset.mul_sum, hlin i hi j (Finset.mem_range.1 hj) l hl]
        split <;> simp
      rw [Finset.sum_congr rfl e2, Finset.sum_ite_eq', if_pos (Finset.mem_range.2 hl)]
    have e2 : ∀ k < spins m, ∑ a ∈ Finset.range t.nPhi, rigidMotion m (u.tab.nPhi * m) node shift w
        (u.tab.nPhi * m + (a * spins m + k)) * t.val 0 i a 0 = w k := by
      intro k hk
      simp only [hv _ k hk]
      rw [← Finset.mul_sum, tone i hi, mul_one]
    have e3 : axial m (fun c => if c < spins m then ∑ a ∈ Finset.range t.nPhi,
        rigidMotion m (u.tab.nPhi * m) node shift w
          (u.tab.nPhi * m + (a * spins m + c)) * t.val 0 i a 0 else 0) k l = axial m w k l := by
      rcases hm with rfl | rfl
      · simp only [axial, if_true, if_pos (show (0 : Nat) < spins 2 by decide), e2 0 (by decide)]
      · unfold axial
        dsimp only
        rw [if_pos (show (0 : Nat) < spins 3 by decide), e2 0 (by decide),
          if_pos (show (1 : Nat) < spins 3 by decide), e2 1 (by decide),
          if_pos (show (2 : Nat) < spins 3 by decide), e2 2 (by decide)]
    rw [e1, e3, neg_add_cancel]
  · intro i hi k hk l hl
    rw [fieldCurvature_eq u t _ i hk l]
    simp only [hv _ k hk]
    rw [← Finset.mul_sum, tgrad i hi l hl, mul_zero]

/-- C73: conversely, a field without energy has neither strain nor curvature in the quadrature
points, when the weights, `μ`, `κ` and `γ` are positive and `λ ≥ 0`. -/
theorem C73_kernel {K X : Type} [Field K] [LinearOrder K] [IsStrictOrderedRing K] (m : Nat)
    (u : PElem K X) (t : Tab K) (c : X → Nat → Coeffs K)
    (h : ∀ i < u.nPts, 0 < u.det i * u.weights i ∧ 0 < (c u.x i).mu ∧ 0 < (c u.x i).kappa ∧
      0 < (c u.x i).gamma ∧ 0 ≤ (c u.x i).lam)
    (v : Nat → K) (hv : ∑ p ∈ Finset.range (dofs m u t), ∑ q ∈ Finset.range (dofs m u t),
      v p * cosseratMatrix m u t c p q * v q = 0) :
    ∀ i < u.nPts, (∀ k < m, ∀ l < m, fieldStrain m u t v i k l = 0) ∧
      ∀ k < spins m, ∀ l < m, fieldCurvature m u t v i k l = 0 := by
  rw [cosseratMatrix_energy] at hv
  have hall : ∀ i ∈ Finset.range u.nPts,
      0 ≤ contract m (sym (fieldStrain m u t v i)) (sym (fieldStrain m u t v i)) ∧
      0 ≤ contract m (skew (fieldStrain m u t v i)) (skew (fieldStrain m u t v i)) ∧
      0 ≤ contractSpin m (fieldCurvature m u t v i) (fieldCurvature m u t v i) :=
    fun i _ => ⟨contract_self_nonneg m _, contract_self_nonneg m _, contractSpin_self_nonneg m _⟩
  have hpos : ∀ i ∈ Finset.range u.nPts, 0 ≤ u.det i * u.weights i *
      (power m (c u.x i) (fieldStrain m u t v i) (fieldStrain m u t v i) +
        (c u.x i).gamma * contractSpin m (fieldCurvature m u t v i) (fieldCurvature m u t v i)) := by
    intro i hi
    obtain ⟨h1, h2, h3, h4, h5⟩ := h i (Finset.mem_range.1 hi)
    obtain ⟨a1, a2, a3⟩ := hall i hi
    unfold power
    have := mul_self_nonneg (tr m (fieldStrain m u t v i))
    positivity
  intro i hi
  have h0 := (Finset.sum_eq_zero_iff_of_nonneg hpos).1 hv i (Finset.mem_range.2 hi)
  obtain ⟨h1, h2, h3, h4, h5⟩ := h i hi
  obtain ⟨a1, a2, a3⟩ := hall i (Finset.mem_range.2 hi)
  have h6 := (mul_eq_zero.1 h0).resolve_left h1.ne'
  unfold power at h6
  have b1 := mul_nonneg (mul_nonneg (zero_le_two (α := K)) h2.le) a1
  have b2 := mul_nonneg (mul_nonneg (zero_le_two (α := K)) h3.le) a2
  have b3 := mul_nonneg h4.le a3
  have b4 := mul_nonneg h5 (mul_self_nonneg (tr m (fieldStrain m u t v i)))
  have c1 := (mul_eq_zero.1 (le_antisymm (by linarith) b1)).resolve_left (by positivity)
  have c2 := (mul_eq_zero.1 (le_antisymm (by linarith) b2)).resolve_left (by positivity)
  have c3 := (mul_eq_zero.1 (le_antisymm (by linarith) b3)).resolve_left h4.ne'
  refine ⟨?_, contractSpin_eq_zero c3⟩
  intro k hk l hl
  have d1 := contract_eq_zero c1 k hk l hl
  have d2 := contract_eq_zero c2 k hk l hl
  unfold sym at d1
  unfold skew at d2
  linarith

/-- C73: another number of displacements or of rotations is refused. -/
theorem C73_components_refused {spaces : Dict String (FSpace (PElem K X))} {fs : Data K X}
    {iel : Nat} {u : PElem K X} {t : Tab K} {uComp tComp : Nat} {rhs : X → Nat → Nat → K}
    {c : X → Nat → Coeffs K} (h : Input spaces fs iel u t uComp tComp rhs c)
    (hd : u.tab.nDer = u.dim) (ht : t.nDer = u.dim)
    (hc : uComp ≠ gradComps u ∨ tComp ≠ spins u.dim) (hp : 0 < u.tab.nPhi) (hq : 0 < t.nPhi)
    (hn : 0 < u.nPts) (alpha : Nat → K) :
    evaluateForm (some spaces) (some fs) iel alpha = .error .valueError := by
  rw [evaluateForm_eq h, form_error hd ht hc hp hq hn]
  rfl

/-- C73: a missing space or missing functions are refused with `ValueError`, a space without the
rotations with `KeyError`. -/
theorem C73_unset_refused (space : Option (Dict String (FSpace (PElem K X))))
    (functions : Option (Data K X)) (iel : Nat) (alpha : Nat → K) :
    (space = none ∨ functions = none → evaluateForm space functions iel alpha = .error .valueError) ∧
    (∀ spaces fs us, space = some spaces → functions = some fs → spaces.getItem "u" = .ok us →
      spaces.getItem "t" = .error .keyError →
      evaluateForm space functions iel alpha = .error .keyError) := by
  constructor
  · rintro (rfl | rfl)
    · rfl
    · cases space <;> rfl
  · rintro spaces fs us rfl rfl h1 h2
    unfold evaluateForm
    simp only [h1, h2, Res.bind_ok]
    rfl

/-- C73: the Dirichlet term penalises `u - u_D` and `θ - θ_D`: `β` times the masses of the facet in
every component, without coupling of components or fields, and the residual `-β ∫ u_D φ`. -/
theorem C73_dirichlet (u t : Facet K) (uComp tComp : Nat) (uD tD : Nat → Nat → K) :
    ∃ r j, dirichlet u t uComp tComp uD tD = .ok (r, j) ∧
      r.n = u.nPhi * uComp + t.nPhi * tComp ∧ j.n = u.nPhi * uComp + t.nPhi * tComp ∧
      (∀ p < r.n, r.val p = - (penalty K * ∑ i ∈ Finset.range u.nPts, u.det i * u.weights i *
        if p < u.nPhi * uComp then uD i (p % uComp) * u.phi i (p / uComp)
        else tD i ((p - u.nPhi * uComp) % tComp) * t.phi i ((p - u.nPhi * uComp) / tComp))) ∧
      ∀ p < j.n, ∀ q < j.n, j.val p q =
        if p < u.nPhi * uComp ∧ q < u.nPhi * uComp then
          (if p % uComp = q % uComp then penalty K * ∑ i ∈ Finset.range u.nPts,
            u.det i * u.weights i * (u.phi i (p / uComp) * u.phi i (q / uComp)) else 0)
        else if u.nPhi * uComp ≤ p ∧ u.nPhi * uComp ≤ q then
          (if (p - u.nPhi * uComp) % tComp = (q - u.nPhi * uComp) % tComp then
            penalty K * ∑ i ∈ Finset.range u.nPts, u.det i * u.weights i *
              (t.phi i ((p - u.nPhi * uComp) / tComp) * t.phi i ((q - u.nPhi * uComp) / tComp)) else 0)
        else 0 := by
  obtain ⟨r1, j1, e1, n1, m1, v1, w1⟩ := fieldBlocks_spec
    (total := u.nPhi * uComp + t.nPhi * tComp) (b := 0) (nPhi := u.nPhi) (comps := uComp) (by omega)
    (fun c a => ∑ i ∈ Finset.range u.nPts, - (penalty K * u.det i * u.weights i * uD i c * u.phi i a))
    (fun a b => ∑ i ∈ Finset.range u.nPts,
      penalty K * u.det i * u.weights i * (u.phi i a * u.phi i b))
    (Vec.zeros (u.nPhi * uComp + t.nPhi * tComp)) (zeros2 (u.nPhi * uComp + t.nPhi * tComp))
  obtain ⟨r2, j2, e2, n2, m2, v2, w2⟩ := fieldBlocks_spec
    (total := u.nPhi * uComp + t.nPhi * tComp) (b := u.nPhi * uComp) (nPhi := t.nPhi)
    (comps := tComp) le_rfl
    (fun c a => ∑ i ∈ Finset.range u.nPts, - (penalty K * u.det i * u.weights i * tD i c * t.phi i a))
    (fun a b => ∑ i ∈ Finset.range u.nPts,
      penalty K * u.det i * u.weights i * (t.phi i a * t.phi i b)) r1 j1
  have n2 : r2.n = u.nPhi * uComp + t.nPhi * tComp := n2.trans n1
  have m2 : j2.n = u.nPhi * uComp + t.nPhi * tComp := m2.trans m1
  refine ⟨r2, j2, ?_, n2, m2, ?_, ?_⟩
  · unfold dirichlet
    dsimp only
    rw [e1]
    exact e2
  · intro p hp
    rw [n2] at hp
    rw [v2, v1]
    simp only [Vec.zeros, zero_add, Nat.zero_le, true_and, Nat.sub_zero]
    by_cases hl : p < u.nPhi * uComp
    · simp only [hl, if_true]
      rw [if_neg (by omega), add_zero, Finset.sum_neg_distrib, Finset.mul_sum]
      congr 1
      exact Finset.sum_congr rfl fun i _ => by ring
    · simp only [hl, if_false]
      rw [if_pos ⟨by omega, hp⟩, zero_add, Finset.sum_neg_distrib, Finset.mul_sum]
      congr 1
      exact Finset.sum_congr rfl fun i _ => by ring
  · intro p hp q hq
    rw [m2] at hp hq
    rw [w2, w1]
    simp only [zeros2, zero_add, Nat.zero_le, true_and, Nat.sub_zero]
    by_cases hl : p < u.nPhi * uComp <;> by_cases hk : q < u.nPhi * uComp
    · simp only [hl, hk, not_le.2 hl, not_le.2 hk, true_and, false_and, and_self, if_true, if_false,
        add_zero]
      split
      · rw [Finset.mul_sum]
        exact Finset.sum_congr rfl fun i _ => by ring
      · rfl
    · simp only [hl, hk, not_le.2 hl, false_and, and_false, if_false, add_zero]
    · simp only [hl, hk, not_le.2 hk, false_and, and_false, if_false, add_zero]
    · simp only [hl, hk, hp, hq, not_lt.1 hl, not_lt.1 hk, true_and, and_self, false_and, if_true,
        if_false, zero_add]
      split
      · rw [Finset.mul_sum]
        exact Finset.sum_congr rfl fun i _ => by ring
      · rfl

/-! ### Examples -/

/-- The coefficients of the example. -/
def triangleCoeffs : Unit → Nat → Coeffs ℚ := fun _ _ => ⟨1, 2, 1, 3⟩

/-- The spaces of the example: two displacements and one rotation on the triangle. -/
def triangleSpaces : Dict String (FSpace (PElem ℚ Unit)) :=
  [("u", ⟨2, [triangle]⟩), ("t", ⟨1, [triangle]⟩)]

/-- The data of the example. -/
def cosseratData : Data ℚ Unit :=
  ⟨some fun _ c _ => if c = 2 then 6 else 3, some fun _ _ => 1, some fun _ _ => 1, some fun _ _ => 2,
    some fun _ _ => 3⟩

theorem triangle_fits : Fits triangle triangle.tab := ⟨triangle_shapes, rfl⟩

theorem cosserat_input : Input triangleSpaces cosseratData 0 triangle triangle.tab 2 1
    (fun _ c _ => if c = 2 then 6 else 3) triangleCoeffs :=
  ⟨⟨_, rfl, rfl, rfl⟩, ⟨_, _, rfl, rfl, rfl, rfl⟩, rfl, rfl, rfl, rfl, rfl⟩

/-- Loads of the example: a force and a couple; and an entry that couples a displacement with a
rotation. -/
example : ∃ r j, evaluateForm (some triangleSpaces) (some cosseratData) 0 (fun _ => 0) = .ok (r, j) ∧
    r.n = 9 ∧ r.val 2 = 1 / 2 ∧ r.val 7 = 1 ∧ j.val 3 7 = 2 / 3 ∧ j.val 7 3 = 2 / 3 := by
  obtain ⟨r, j, h, hn, hm, hr, hj⟩ := C73_system triangle_fits cosserat_input (fun _ => 0)
  have e : cosseratMatrix 2 triangle triangle.tab triangleCoeffs 3 7 = 2 / 3 := by
    have h0 := triangle_grad 0 1 0 (by decide)
    have h1 := triangle_grad 0 1 1 (by decide)
    have e1 : ∀ i k l, strainOf 2 triangle triangle.tab i 3 k l =
        if k = 1 then gradAt triangle i 1 l else 0 := by
      intro i k l
      simp [strainOf, uDofs, basisGrad, triangle, eq_comm]
    have e2 : ∀ i, strainOf 2 triangle triangle.tab i 7 = axial 2 fun c => if c = 0 then 1 / 3 else 0 := by
      intro i
      simp [strainOf, uDofs, spins, triangle, eq_comm]
    have e3 : ∀ i c l, curvatureOf 2 triangle triangle.tab i 3 c l = 0 := by
      intro i c l
      simp [curvatureOf, uDofs, triangle]
    simp only [cosseratMatrix, power, contract, tr, sym, skew, contractSpin, e1, e2, e3, axial]
    simp [Finset.sum_range_succ, h0, show triangle.nPts = 1 from rfl, triangleCoeffs,
      show triangle.det 0 = 1 from rfl, show triangle.weights 0 = 1 / 2 from rfl]
    norm_num
  refine ⟨r, j, h, hn, ?_, ?_, ?_, ?_⟩
  · rw [hr 2 (by rw [hn]; decide)]
    simp [load, uDofs, bodyLoad, triangle]
  · rw [hr 7 (by rw [hn]; decide)]
    simp [load, uDofs, spins, triangle]
    norm_num
  · rw [hj 3 (by rw [hm]; decide) 7 (by rw [hm]; decide)]
    exact e
  · rw [hj 7 (by rw [hm]; decide) 3 (by rw [hm]; decide), (C73_energy _ _ _ _).1]
    exact e

/-- The hypotheses of `C73_rigid_motions` hold for the triangle. -/
example (shift w : Nat → ℚ) (p : Nat) :
    ∑ q ∈ Finset.range (dofs 2 triangle triangle.tab),
      cosseratMatrix 2 triangle triangle.tab triangleCoeffs p q *
        rigidMotion 2 (3 * 2) (fun a k => if a = k + 1 then 1 else 0) shift w q = 0 := by
  refine C73_rigid_motions (.inl rfl) triangle triangle.tab triangleCoeffs
    (fun a k => if a = k + 1 then 1 else 0) ?_ ?_ ?_ ?_ shift w p
  · intro i _ l hl
    show ∑ a ∈ Finset.range 3, _ = _
    simp only [triangle_grad _ _ _ hl, Finset.sum_range_succ, Finset.sum_range_zero]
    interval_cases l <;> simp
  · intro i _ k hk l hl
    show ∑ a ∈ Finset.range 3, _ = _
    simp only [triangle_grad _ _ _ hl, Finset.sum_range_succ, Finset.sum_range_zero]
    interval_cases l <;> interval_cases k <;> simp
  · intro i _
    show ∑ a ∈ Finset.range 3, _ = _
    simp [triangle]
  · intro i _ l hl
    show ∑ a ∈ Finset.range 3, gradAt triangle i a l = _
    simp only [triangle_grad _ _ _ hl, Finset.sum_range_succ, Finset.sum_range_zero]
    interval_cases l <;> simp

example : ∀ i < triangle.nPts, 0 < triangle.det i * triangle.weights i ∧
    0 < (triangleCoeffs triangle.x i).mu ∧ 0 < (triangleCoeffs triangle.x i).kappa ∧
    0 < (triangleCoeffs triangle.x i).gamma ∧ 0 ≤ (triangleCoeffs triangle.x i).lam := by
  intro i _
  norm_num [triangle, triangleCoeffs]

example : evaluateForm (some [("u", ⟨2, [triangle]⟩), ("t", ⟨3, [triangle]⟩)]) (some cosseratData) 0
    (fun _ => (0 : ℚ)) = .error .valueError :=
  C73_components_refused (u := triangle) (t := triangle.tab) (uComp := 2) (tComp := 3)
    (c := triangleCoeffs)
    ⟨⟨_, rfl, rfl, rfl⟩, ⟨_, _, rfl, rfl, rfl, rfl⟩, rfl, rfl, rfl, rfl, rfl⟩ rfl rfl
    (by decide) (by decide) (by decide) (by decide) _

example : (Dict.getItem [("u", (⟨2, [triangle]⟩ : FSpace (PElem ℚ Unit)))] "t") = .error .keyError := rfl

#print axioms C73_system
#print axioms C73_energy
#print axioms C73_rigid
#print axioms C73_rigid_motions
#print axioms C73_kernel
#print axioms C73_components_refused
#print axioms C73_unset_refused
#print axioms C73_dirichlet

end Verif.Cosserat
