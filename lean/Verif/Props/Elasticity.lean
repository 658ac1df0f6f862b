/-
Property theorems C71 and C72: the local systems of linear elasticity and their boundary terms
(src/weak_forms/le_primal_weak_form.py, src/weak_forms/le_primal_stress_constraint_weak_form.py).
-/
import Verif.Lemmas.Elasticity
import Mathlib.Algebra.Order.Field.Basic
import Mathlib.Algebra.Order.BigOperators.Ring.Finset
import Mathlib.Data.Rat.Defs
import Mathlib.Algebra.Order.Ring.Rat
import Mathlib.Algebra.Field.Rat
import Mathlib.Tactic.NormNum
import Mathlib.Tactic.Positivity
import Mathlib.Tactic.Linarith
import Mathlib.Tactic.LinearCombination

namespace Verif.Elasticity
open Assembly L2Form Laplace

variable {K X : Type} [Field K]

/-- What `evaluate_form` reads for the element `iel`. -/
structure Input (spaces : Dict String (FSpace (PElem K X))) (fs : Data K X) (iel : Nat)
    (el : PElem K X) (comps : Nat) (mu lam : X → Nat → K) : Prop where
  space : ∃ us, spaces.getItem "u" = .ok us ∧ us.elements[iel]? = some el ∧ us.nComp = comps
  mu : fs.mu = some mu
  lam : fs.lam = some lam

theorem evaluateForm_eq {spaces : Dict String (FSpace (PElem K X))} {fs : Data K X} {iel : Nat}
    {el : PElem K X} {comps : Nat} {mu lam : X → Nat → K} {rhs : X → Nat → Nat → K}
    (h : Input spaces fs iel el comps mu lam) (hr : fs.rhs = some rhs) (alpha : Nat → K) :
    evaluateForm (some spaces) (some fs) iel alpha =
      (form el comps rhs mu lam (adVar alpha)).map valDer := by
  obtain ⟨us, h1, h2, h3⟩ := h.space
  unfold evaluateForm
  simp only [h1, hr, h.mu, h.lam, entry, Res.bind_ok, getIdx_of h2, h3]
  cases form el comps rhs mu lam (adVar alpha) <;> rfl

theorem evaluateConstraint_eq {spaces : Dict String (FSpace (PElem K X))} {fs : Data K X} {iel : Nat}
    {el : PElem K X} {comps : Nat} {mu lam : X → Nat → K} {target : X → Nat → Nat → Nat → K}
    (h : Input spaces fs iel el comps mu lam) (hr : fs.target = some target) (alpha : Nat → K) :
    evaluateConstraint (some spaces) (some fs) iel alpha =
      (constraintForm el comps target mu lam (adVar alpha)).map valDer := by
  obtain ⟨us, h1, h2, h3⟩ := h.space
  unfold evaluateConstraint
  simp only [h1, hr, h.mu, h.lam, entry, Res.bind_ok, getIdx_of h2, h3]
  cases constraintForm el comps target mu lam (adVar alpha) <;> rfl

/-- Value and derivatives of a form that is affine in the variables. -/
theorem valDer_affine {n : Nat} {r : Vec (Dual K)} (M : Nat → Nat → K) (s : Nat → K)
    (alpha : Nat → K) (hn : r.n = n)
    (h : ∀ p < n, r.val p = ∑ q ∈ Finset.range n, algebraMap K (Dual K) (M p q) * adVar alpha q +
      algebraMap K (Dual K) (s p)) :
    (∀ p < n, (valDer r).1.val p = ∑ q ∈ Finset.range n, M p q * alpha q + s p) ∧
    ∀ p < n, ∀ q < n, (valDer r).2.val p q = M p q := by
  constructor
  · intro p hp
    show (r.val p).fst = _
    rw [h p hp, TrivSqZeroExt.fst_add, TrivSqZeroExt.fst_sum]
    congr 1
    refine Finset.sum_congr rfl fun q _ => ?_
    simp [adVar, TrivSqZeroExt.algebraMap_eq_inl]
  · intro p hp q hq
    show (r.val p).snd q = _
    rw [h p hp, TrivSqZeroExt.snd_add, TrivSqZeroExt.snd_sum, Pi.add_apply, Finset.sum_apply]
    have e : ∀ b ∈ Finset.range n,
        (algebraMap K (Dual K) (M p b) * adVar alpha b).snd q = if q = b then M p b else 0 := by
      intro b _
      simp only [adVar, TrivSqZeroExt.algebraMap_eq_inl, TrivSqZeroExt.snd_mul,
        TrivSqZeroExt.fst_inl, TrivSqZeroExt.snd_inl, TrivSqZeroExt.snd_add, TrivSqZeroExt.snd_inr,
        zero_add, smul_zero, add_zero, Pi.smul_apply, Pi.single_apply, smul_eq_mul, mul_ite, mul_one,
        mul_zero]
    rw [Finset.sum_congr rfl e, Finset.sum_ite_eq, if_pos (Finset.mem_range.2 hq)]
    simp [TrivSqZeroExt.algebraMap_eq_inl]

/-! ### C71 -/

/-- C71: in two and three dimensions, with as many components as dimensions, `evaluate_form` returns
the residual `a(u, φ_p) + ∫ f · φ_p` and the matrix `a(φ_q, φ_p)` of linear elasticity. -/
theorem C71_system [CharZero K] {spaces : Dict String (FSpace (PElem K X))} {fs : Data K X}
    {iel : Nat} {el : PElem K X} {mu lam : X → Nat → K} {rhs : X → Nat → Nat → K} (hs : Shapes el)
    (h : Input spaces fs iel el el.dim mu lam) (hr : fs.rhs = some rhs) (alpha : Nat → K) :
    ∃ r j, evaluateForm (some spaces) (some fs) iel alpha = .ok (r, j) ∧
      r.n = el.tab.nPhi * el.dim ∧ j.n = el.tab.nPhi * el.dim ∧
      (∀ p < r.n, r.val p = ∑ q ∈ Finset.range (el.tab.nPhi * el.dim),
        elasticMatrix el.dim el mu lam p q * alpha q + bodyLoad el.dim el rhs p) ∧
      ∀ p < j.n, ∀ q < j.n, j.val p q = elasticMatrix el.dim el mu lam p q := by
  obtain ⟨r, h1, h2, h3⟩ := form_spec hs rhs mu lam (adVar alpha)
  obtain ⟨h4, h5⟩ := valDer_affine _ _ alpha h2 h3
  refine ⟨(valDer r).1, (valDer r).2, ?_, h2, h2, ?_, ?_⟩
  · rw [evaluateForm_eq h hr, h1]; rfl
  · intro p hp; exact h4 p (h2 ▸ hp)
  · intro p hp q hq; exact h5 p (h2 ▸ hp) q (h2 ▸ hq)

/-- C71: the matrix is symmetric, its quadratic form is the elastic energy
`∫ 2μ |ε(v)|² + λ (div v)²`, and it is not negative when `μ ≥ 0` and `2μ + mλ ≥ 0`. -/
theorem C71_energy {K X : Type} [Field K] [LinearOrder K] [IsStrictOrderedRing K] (m : Nat)
    (el : PElem K X) (mu lam : X → Nat → K) :
    (∀ p q, elasticMatrix m el mu lam p q = elasticMatrix m el mu lam q p) ∧
    (∀ v : Nat → K, ∑ p ∈ Finset.range (el.tab.nPhi * m), ∑ q ∈ Finset.range (el.tab.nPhi * m),
        v p * elasticMatrix m el mu lam p q * v q =
      ∑ i ∈ Finset.range el.nPts, el.det i * el.weights i *
        elasticPower m (mu el.x i) (lam el.x i) (fieldGrad m el v i) (fieldGrad m el v i)) ∧
    ((∀ i < el.nPts, 0 ≤ el.det i * el.weights i ∧ 0 ≤ mu el.x i ∧
        0 ≤ 2 * mu el.x i + m * lam el.x i) →
      ∀ v : Nat → K, 0 ≤ ∑ p ∈ Finset.range (el.tab.nPhi * m),
        ∑ q ∈ Finset.range (el.tab.nPhi * m), v p * elasticMatrix m el mu lam p q * v q) := by
  refine ⟨fun p q => ?_, fun v => elasticMatrix_energy m el mu lam v, fun h v => ?_⟩
  · refine Finset.sum_congr rfl fun i _ => ?_
    rw [elasticPower_comm]
  · rw [elasticMatrix_energy]
    refine Finset.sum_nonneg fun i hi => ?_
    obtain ⟨h1, h2, h3⟩ := h i (Finset.mem_range.1 hi)
    refine mul_nonneg h1 (elasticPower_nonneg m h2 h3 _)

/-- C71: a field whose gradient is skew in the quadrature points is in the kernel of the matrix, so
that it adds nothing to the residual. -/
theorem C71_rigid (m : Nat) (el : PElem K X) (mu lam : X → Nat → K) (v : Nat → K)
    (h : ∀ i < el.nPts, ∀ k < m, ∀ l < m, fieldGrad m el v i k l = - fieldGrad m el v i l k)
    (h2 : (2 : K) ≠ 0) (p : Nat) :
    ∑ q ∈ Finset.range (el.tab.nPhi * m), elasticMatrix m el mu lam p q * v q = 0 := by
  rw [elasticMatrix_mul]
  refine Finset.sum_eq_zero fun i hi => ?_
  have hs : ∀ k < m, ∀ l < m, sym (fieldGrad m el v i) k l = 0 := by
    intro k hk l hl
    unfold sym
    rw [h i (Finset.mem_range.1 hi) k hk l hl, neg_add_cancel, zero_div]
  have ht : tr m (fieldGrad m el v i) = 0 := by
    refine Finset.sum_eq_zero fun k hk => ?_
    have := h i (Finset.mem_range.1 hi) k (Finset.mem_range.1 hk) k (Finset.mem_range.1 hk)
    have h3 : 2 * fieldGrad m el v i k k = 0 := by linear_combination this
    exact (mul_eq_zero.1 h3).resolve_left h2
  have hc : contract m (sym (basisGrad m el i p)) (sym (fieldGrad m el v i)) = 0 := by
    refine Finset.sum_eq_zero fun k hk => Finset.sum_eq_zero fun l hl => ?_
    rw [hs k (Finset.mem_range.1 hk) l (Finset.mem_range.1 hl), mul_zero]
  rw [elasticPower, hc, ht]
  ring

/-- C71: translations and infinitesimal rotations are such fields, when the basis functions add up
to a constant and reproduce the coordinates of the nodes `node a`. -/
theorem C71_rigid_motions (m : Nat) (el : PElem K X) (mu lam : X → Nat → K) (node : Nat → Nat → K)
    (hone : ∀ i < el.nPts, ∀ l < m, ∑ a ∈ Finset.range el.tab.nPhi, gradAt el i a l = 0)
    (hlin : ∀ i < el.nPts, ∀ k < m, ∀ l < m,
      ∑ a ∈ Finset.range el.tab.nPhi, node a k * gradAt el i a l = if k = l then 1 else 0)
    (shift : Nat → K) (spin : Nat → Nat → K) (hspin : ∀ k l, spin k l = - spin l k)
    (h2 : (2 : K) ≠ 0) (p : Nat) :
    ∑ q ∈ Finset.range (el.tab.nPhi * m), elasticMatrix m el mu lam p q *
      (shift (q % m) + ∑ j ∈ Finset.range m, spin (q % m) j * node (q / m) j) = 0 := by
  have hg : ∀ i < el.nPts, ∀ k < m, ∀ l < m, fieldGrad m el (fun q => shift (q % m) +
      ∑ j ∈ Finset.range m, spin (q % m) j * node (q / m) j) i k l = spin k l := by
    intro i hi k hk l hl
    unfold fieldGrad
    have e : ∀ a ∈ Finset.range el.tab.nPhi,
        (shift ((a * m + k) % m) + ∑ j ∈ Finset.range m, spin ((a * m + k) % m) j *
          node ((a * m + k) / m) j) * gradAt el i a l =
        shift k * gradAt el i a l +
          ∑ j ∈ Finset.range m, spin k j * (node a j * gradAt el i a l) := by
      intro a _
      rw [(div_mod_index hk).1, (div_mod_index hk).2, add_mul, Finset.sum_mul]
      congr 1
      refine Finset.sum_congr rfl fun j _ => ?_
      ring
    rw [Finset.sum_congr rfl e, Finset.sum_add_distrib, ← Finset.mul_sum, hone i hi l hl, mul_zero,
      zero_add, Finset.sum_comm]
    have e2 : ∀ j ∈ Finset.range m, ∑ a ∈ Finset.range el.tab.nPhi,
        spin k j * (node a j * gradAt el i a l) = if j = l then spin k j else 0 := by
      intro j hj
      rw [← Finset.mul_sum, hlin i hi j (Finset.mem_range.1 hj) l hl]
      split <;> simp
    rw [Finset.sum_congr rfl e2, Finset.sum_ite_eq', if_pos (Finset.mem_range.2 hl)]
  refine C71_rigid m el mu lam _ (fun i hi k hk l hl => ?_) h2 p
  rw [hg i hi k hk l hl, hg i hi l hl k hk]
  exact hspin k l

/-- C71: conversely, a field without energy has no strain in the quadrature points, when the weights
and `μ` are positive and `λ ≥ 0`. -/
theorem C71_kernel {K X : Type} [Field K] [LinearOrder K] [IsStrictOrderedRing K] (m : Nat)
    (el : PElem K X) (mu lam : X → Nat → K)
    (h : ∀ i < el.nPts, 0 < el.det i * el.weights i ∧ 0 < mu el.x i ∧ 0 ≤ lam el.x i)
    (v : Nat → K) (hv : ∑ p ∈ Finset.range (el.tab.nPhi * m), ∑ q ∈ Finset.range (el.tab.nPhi * m),
      v p * elasticMatrix m el mu lam p q * v q = 0) :
    ∀ i < el.nPts, ∀ k < m, ∀ l < m, fieldGrad m el v i k l = - fieldGrad m el v i l k := by
  rw [elasticMatrix_energy] at hv
  intro i hi k hk l hl
  have hpos : ∀ i ∈ Finset.range el.nPts, 0 ≤ el.det i * el.weights i *
      elasticPower m (mu el.x i) (lam el.x i) (fieldGrad m el v i) (fieldGrad m el v i) := by
    intro i hi
    obtain ⟨h1, h2, h3⟩ := h i (Finset.mem_range.1 hi)
    exact mul_nonneg h1.le (elasticPower_nonneg m h2.le (by positivity) _)
  have h0 := (Finset.sum_eq_zero_iff_of_nonneg hpos).1 hv i (Finset.mem_range.2 hi)
  obtain ⟨h1, h2, h3⟩ := h i hi
  have h4 := (mul_eq_zero.1 h0).resolve_left h1.ne'
  have hc : 0 ≤ contract m (sym (fieldGrad m el v i)) (sym (fieldGrad m el v i)) :=
    Finset.sum_nonneg fun k _ => Finset.sum_nonneg fun l _ => mul_self_nonneg _
  have h5 : contract m (sym (fieldGrad m el v i)) (sym (fieldGrad m el v i)) = 0 := by
    unfold elasticPower at h4
    have h6 : 0 ≤ lam el.x i * (tr m (fieldGrad m el v i) * tr m (fieldGrad m el v i)) :=
      mul_nonneg h3 (mul_self_nonneg _)
    have h7 : 0 ≤ 2 * mu el.x i * contract m (sym (fieldGrad m el v i)) (sym (fieldGrad m el v i)) :=
      mul_nonneg (by linarith) hc
    have h8 : 2 * mu el.x i * contract m (sym (fieldGrad m el v i)) (sym (fieldGrad m el v i)) = 0 :=
      le_antisymm (by linarith) h7
    exact (mul_eq_zero.1 h8).resolve_left (by positivity)
  have h6 := (Finset.sum_eq_zero_iff_of_nonneg
    (fun k _ => Finset.sum_nonneg fun l _ => mul_self_nonneg _)).1 h5 k (Finset.mem_range.2 hk)
  have h7 := (Finset.sum_eq_zero_iff_of_nonneg (fun l _ => mul_self_nonneg _)).1 h6 l
    (Finset.mem_range.2 hl)
  have h8 : sym (fieldGrad m el v i) k l = 0 := mul_self_eq_zero.1 h7
  unfold sym at h8
  have h9 := (div_eq_zero_iff.1 h8).resolve_right two_ne_zero
  linarith

/-- C71: a field with another number of components than the gradients is refused. -/
theorem C71_components_refused {spaces : Dict String (FSpace (PElem K X))} {fs : Data K X}
    {iel : Nat} {el : PElem K X} {comps : Nat} {mu lam : X → Nat → K} {rhs : X → Nat → Nat → K}
    (h : Input spaces fs iel el comps mu lam) (hr : fs.rhs = some rhs)
    (hd : el.tab.nDer = el.dim) (hc : comps ≠ gradComps el) (hp : 0 < el.tab.nPhi)
    (hn : 0 < el.nPts) (alpha : Nat → K) :
    evaluateForm (some spaces) (some fs) iel alpha = .error .valueError := by
  rw [evaluateForm_eq h hr, form_error hd hc hp hn]
  rfl

/-- C71: a missing space or missing functions are refused. -/
theorem C71_unset_refused (space : Option (Dict String (FSpace (PElem K X))))
    (functions : Option (Data K X)) (iel : Nat) (alpha : Nat → K)
    (h : space = none ∨ functions = none) :
    evaluateForm space functions iel alpha = .error .valueError ∧
    evaluateConstraint space functions iel alpha = .error .valueError := by
  rcases h with rfl | rfl
  · exact ⟨rfl, rfl⟩
  · cases space <;> exact ⟨rfl, rfl⟩

/-- C71: the stress constraint has `10⁶` times the matrix of elasticity, and its residual is
`10⁶ ∫ (σ(u) - s) : ∇φ_p` for the target stress `s`. -/
theorem C71_constraint [CharZero K] {spaces : Dict String (FSpace (PElem K X))} {fs : Data K X}
    {iel : Nat} {el : PElem K X} {mu lam : X → Nat → K} {target : X → Nat → Nat → Nat → K}
    (hs : Shapes el) (h : Input spaces fs iel el el.dim mu lam) (hr : fs.target = some target)
    (alpha : Nat → K) :
    ∃ r j, evaluateConstraint (some spaces) (some fs) iel alpha = .ok (r, j) ∧
      r.n = el.tab.nPhi * el.dim ∧ j.n = el.tab.nPhi * el.dim ∧
      (∀ p < r.n, r.val p = 10 ^ 6 * (∑ q ∈ Finset.range (el.tab.nPhi * el.dim),
        elasticMatrix el.dim el mu lam p q * alpha q - stressLoad el.dim el target p)) ∧
      ∀ p < j.n, ∀ q < j.n, j.val p q = 10 ^ 6 * elasticMatrix el.dim el mu lam p q := by
  obtain ⟨r, h1, h2, h3⟩ := constraintForm_spec hs target mu lam (adVar alpha)
  obtain ⟨h4, h5⟩ := valDer_affine _ _ alpha h2 h3
  refine ⟨(valDer r).1, (valDer r).2, ?_, h2, h2, ?_, ?_⟩
  · rw [evaluateConstraint_eq h hr, h1]; rfl
  · intro p hp
    rw [h4 p (h2 ▸ hp), mul_sub, Finset.mul_sum, sub_eq_add_neg]
    congr 1
    refine Finset.sum_congr rfl fun q _ => ?_
    ring
  · intro p hp q hq; exact h5 p (h2 ▸ hp) q (h2 ▸ hq)

/-- C71: when the target stress is that of a field `v`, the constraint's residual vanishes in `v`. -/
theorem C71_constraint_consistent [CharZero K] {el : PElem K X} (hs : Shapes el)
    (mu lam : X → Nat → K) (target : X → Nat → Nat → Nat → K) (v : Nat → K)
    (ht : ∀ i < el.nPts, ∀ k < el.dim, ∀ l < el.dim, target el.x k l i =
      2 * mu el.x i * sym (fieldGrad el.dim el v i) k l +
        if k = l then lam el.x i * tr el.dim (fieldGrad el.dim el v i) else 0)
    {p : Nat} (hp : p < el.tab.nPhi * el.dim) :
    ∑ q ∈ Finset.range (el.tab.nPhi * el.dim), elasticMatrix el.dim el mu lam p q * v q =
      stressLoad el.dim el target p := by
  rw [elasticMatrix_mul, stressLoad]
  refine Finset.sum_congr rfl fun i hi => ?_
  congr 1
  have hc := (index_lt hp).2
  rw [basisGrad_eq, ← stressOf_row hs.dim _ _ _ _ hc]
  rw [contract_row hc]
  refine Finset.sum_congr rfl fun l hl => ?_
  rw [ht i (Finset.mem_range.1 hi) _ hc l (Finset.mem_range.1 hl)]
  have h2 : (2 : K) ≠ 0 := two_ne_zero
  have e : ∑ q ∈ Finset.range el.dim, 1 / 2 * (fieldGrad el.dim el v i q q +
      fieldGrad el.dim el v i q q) = tr el.dim (fieldGrad el.dim el v i) := by
    refine Finset.sum_congr rfl fun q _ => ?_
    field_simp
    ring
  unfold stressOf sym
  rw [e]
  split
  · ring
  · ring

/-! ### C72 -/

/-- C72: the penalty of the Dirichlet terms. -/
theorem C72_penalty (K : Type) [Field K] : penalty K = 1000000000000 := by
  norm_num [penalty]

/-- C72: the Dirichlet term penalises `u - u_D`: in every component the matrix is `β` times the mass
of the facet and the residual `-β ∫ u_D φ`. -/
theorem C72_dirichlet (f : Facet K) (comps : Nat) (uD : Nat → Nat → K) :
    ∃ r j, dirichlet f comps uD = .ok (r, j) ∧ r.n = f.nPhi * comps ∧ j.n = f.nPhi * comps ∧
      (∀ p < r.n, r.val p = - (penalty K * ∑ i ∈ Finset.range f.nPts,
        f.det i * f.weights i * (uD i (p % comps) * f.phi i (p / comps)))) ∧
      ∀ p < j.n, ∀ q < j.n, j.val p q =
        if p % comps = q % comps then penalty K * facetMass f (p / comps) (q / comps) else 0 := by
  obtain ⟨r, j, h1, h2, h3, h4, h5⟩ := componentBlocks_spec f.nPhi comps
    (fun c a => ∑ i ∈ Finset.range f.nPts, - (penalty K * f.det i * f.weights i * uD i c * f.phi i a))
    (fun _ a b => ∑ i ∈ Finset.range f.nPts,
      penalty K * f.det i * f.weights i * (f.phi i a * f.phi i b))
  refine ⟨r, j, h1, h2, h3, ?_, ?_⟩
  · intro p hp
    rw [h4 p (h2 ▸ hp), Finset.sum_neg_distrib, Finset.mul_sum]
    congr 1
    refine Finset.sum_congr rfl fun i _ => ?_
    ring
  · intro p hp q hq
    rw [h5 p (h3 ▸ hp) q (h3 ▸ hq), facetMass, Finset.mul_sum]
    split
    · refine Finset.sum_congr rfl fun i _ => ?_
      ring
    · rfl

/-- C72: a field that takes the prescribed values in the quadrature points solves the Dirichlet
term's system. -/
theorem C72_dirichlet_exact {f : Facet K} {comps : Nat} {uD : Nat → Nat → K} {r : Vec K} {j : Mat K}
    (h : dirichlet f comps uD = .ok (r, j)) (v : Nat → K)
    (hv : ∀ i < f.nPts, ∀ c < comps, facetField f comps v i c = uD i c) :
    ∀ p < f.nPhi * comps, ∑ q ∈ Finset.range (f.nPhi * comps), j.val p q * v q + r.val p = 0 := by
  intro p hp
  obtain ⟨r', j', h1, h2, h3, h4, h5⟩ := C72_dirichlet f comps uD
  rw [h] at h1
  obtain ⟨rfl, rfl⟩ := Prod.mk.inj (Except.ok.inj h1)
  have hc := (index_lt hp).2
  rw [h4 p (h2 ▸ hp)]
  have e : ∀ q ∈ Finset.range (f.nPhi * comps), j.val p q * v q = v q *
      (if q % comps = p % comps then penalty K * facetMass f (p / comps) (q / comps) else 0) := by
    intro q hq
    rw [h5 p (h3 ▸ hp) q (h3 ▸ Finset.mem_range.1 hq), mul_comm]
    congr 1
    by_cases hpq : p % comps = q % comps
    · rw [if_pos hpq, if_pos hpq.symm]
    · rw [if_neg hpq, if_neg (fun h => hpq h.symm)]
  rw [Finset.sum_congr rfl e, sum_comp hc v (fun b => penalty K * facetMass f (p / comps) b)]
  have e2 : ∑ b ∈ Finset.range f.nPhi, v (b * comps + p % comps) *
      (penalty K * facetMass f (p / comps) b) = penalty K * ∑ i ∈ Finset.range f.nPts,
        f.det i * f.weights i * (facetField f comps v i (p % comps) * f.phi i (p / comps)) := by
    simp only [facetMass, facetField, Finset.mul_sum, Finset.sum_mul]
    rw [Finset.sum_comm]
    refine Finset.sum_congr rfl fun i _ => Finset.sum_congr rfl fun b _ => ?_
    ring
  rw [e2, Finset.sum_congr rfl fun i hi => by rw [hv i (Finset.mem_range.1 hi) _ hc]]
  ring

/-- C72: the Neumann term adds `∫ t · φ` to the residual and nothing to the matrix. -/
theorem C72_neumann (f : Facet K) (comps : Nat) (t : Nat → Nat → K) :
    ∃ r j, neumann f comps t = .ok (r, j) ∧ r.n = f.nPhi * comps ∧ j.n = f.nPhi * comps ∧
      (∀ p < r.n, r.val p = ∑ i ∈ Finset.range f.nPts,
        f.det i * f.weights i * (t i (p % comps) * f.phi i (p / comps))) ∧
      ∀ p < j.n, ∀ q < j.n, j.val p q = 0 := by
  obtain ⟨r, j, h1, h2, h3, h4, h5⟩ := componentBlocks_spec f.nPhi comps
    (fun c a => ∑ i ∈ Finset.range f.nPts, f.det i * f.weights i * t i c * f.phi i a)
    (fun _ _ _ => (0 : K))
  refine ⟨r, j, h1, h2, h3, ?_, ?_⟩
  · intro p hp
    rw [h4 p (h2 ▸ hp)]
    refine Finset.sum_congr rfl fun i _ => ?_
    ring
  · intro p hp q hq
    rw [h5 p (h3 ▸ hp) q (h3 ▸ hq)]
    split <;> rfl

/-- C72: the normal Dirichlet term penalises `u · n - u_D · n` when the components of the normal have
no mixed products, that is for facets across a coordinate axis: the matrix is
`β ∫ (φ_p · n) (φ_q · n)` and the residual `-β ∫ (u_D · n) (φ_p · n)`. -/
theorem C72_normal_partial (f : Facet K) {comps : Nat} (hcomps : comps = f.dim + 1)
    (hle : comps ≤ 3) {neighs : Nat} (hn : 0 < neighs) (normal : Nat → K) (uD : Nat → Nat → K)
    (haxis : ∀ c < comps, ∀ d < comps, c ≠ d → normal c * normal d = 0) :
    ∃ r j, normalDirichlet f comps neighs normal comps uD = .ok (r, j) ∧
      r.n = f.nPhi * comps ∧ j.n = f.nPhi * comps ∧
      (∀ p < r.n, r.val p = - (penalty K * ∑ i ∈ Finset.range f.nPts, f.det i * f.weights i *
        ((∑ k ∈ Finset.range comps, uD i k * normal k) *
          (f.phi i (p / comps) * normal (p % comps))))) ∧
      ∀ p < j.n, ∀ q < j.n, j.val p q = penalty K * (normal (p % comps) * normal (q % comps)) *
        facetMass f (p / comps) (q / comps) := by
  have hmin : min (f.dim + 1) 3 = comps := by omega
  unfold normalDirichlet
  rw [if_neg (by omega), hmin, if_neg (by simp), if_neg (by omega)]
  obtain ⟨r, j, h1, h2, h3, h4, h5⟩ := componentBlocks_spec f.nPhi comps
    (fun c a => ∑ i ∈ Finset.range f.nPts, - (penalty K * f.det i * f.weights i *
      (∑ k ∈ Finset.range comps, uD i k * normal k) * (f.phi i a * normal c)))
    (fun c a b => ∑ i ∈ Finset.range f.nPts,
      penalty K * f.det i * f.weights i * ((f.phi i a * normal c) * (f.phi i b * normal c)))
  refine ⟨r, j, h1, h2, h3, ?_, ?_⟩
  · intro p hp
    rw [h4 p (h2 ▸ hp), Finset.sum_neg_distrib, Finset.mul_sum]
    congr 1
    refine Finset.sum_congr rfl fun i _ => ?_
    ring
  · intro p hp q hq
    have hp' : p < f.nPhi * comps := h3 ▸ hp
    have hq' : q < f.nPhi * comps := h3 ▸ hq
    rw [h5 p hp' q hq', facetMass, Finset.mul_sum]
    by_cases hpq : p % comps = q % comps
    · rw [if_pos hpq, ← hpq]
      refine Finset.sum_congr rfl fun i _ => ?_
      ring
    · rw [if_neg hpq, haxis _ (index_lt hp').2 _ (index_lt hq').2 hpq]
      symm
      refine Finset.sum_eq_zero fun i _ => ?_
      ring

/-- C72: what the normal Dirichlet term returns for any normal: only the diagonal blocks
`β n_c² ∫ φ_a φ_b` are there. -/
theorem C72_normal_diagonal (f : Facet K) {comps : Nat} (hcomps : comps = f.dim + 1)
    (hle : comps ≤ 3) {neighs : Nat} (hn : 0 < neighs) (normal : Nat → K) (uD : Nat → Nat → K) :
    ∃ r j, normalDirichlet f comps neighs normal comps uD = .ok (r, j) ∧
      ∀ p < f.nPhi * comps, ∀ q < f.nPhi * comps, j.val p q = if p % comps = q % comps then
        penalty K * (normal (p % comps) * normal (q % comps)) *
          facetMass f (p / comps) (q / comps) else 0 := by
  have hmin : min (f.dim + 1) 3 = comps := by omega
  unfold normalDirichlet
  rw [if_neg (by omega), hmin, if_neg (by simp), if_neg (by omega)]
  obtain ⟨r, j, h1, h2, h3, h4, h5⟩ := componentBlocks_spec f.nPhi comps
    (fun c a => ∑ i ∈ Finset.range f.nPts, - (penalty K * f.det i * f.weights i *
      (∑ k ∈ Finset.range comps, uD i k * normal k) * (f.phi i a * normal c)))
    (fun c a b => ∑ i ∈ Finset.range f.nPts,
      penalty K * f.det i * f.weights i * ((f.phi i a * normal c) * (f.phi i b * normal c)))
  refine ⟨r, j, h1, ?_⟩
  intro p hp q hq
  rw [h5 p hp q hq, facetMass, Finset.mul_sum]
  by_cases hpq : p % comps = q % comps
  · rw [if_pos hpq, if_pos hpq, ← hpq]
    refine Finset.sum_congr rfl fun i _ => ?_
    ring
  · rw [if_neg hpq, if_neg hpq]

/-- C72: facets without a neighbour, and boundary values of the wrong length, are refused. -/
theorem C72_normal_refused (f : Facet K) (comps : Nat) (normal : Nat → K) (uD : Nat → Nat → K)
    (uLen : Nat) :
    normalDirichlet f comps 0 normal uLen uD = .error .assertionError ∧
    ∀ neighs, 0 < neighs → 0 < comps → 0 < f.nPts → uLen ≠ min (f.dim + 1) 3 →
      normalDirichlet f comps neighs normal uLen uD = .error .valueError := by
  refine ⟨rfl, ?_⟩
  intro neighs h1 h2 h3 h4
  unfold normalDirichlet
  rw [if_neg (by omega), if_pos ⟨h2, h3, h4⟩]

/-- An edge of length one with one constant basis function. -/
def oneFacet : Facet ℚ := ⟨1, 1, 1, fun _ => 1, fun _ => 1, fun _ _ => 1⟩

/-- The normal `(3/5, 4/5)`. -/
def slanted : Nat → ℚ := fun k => if k = 0 then 3 / 5 else if k = 1 then 4 / 5 else 0

/-- C72: across a slanted facet the normal displacement is not the prescribed one.  With the normal
`(3/5, 4/5)` and `u_D = n`, so that `u_D · n = 1`, the system of the term has the one solution
`(5/3, 5/4)`, with normal displacement 2. -/
theorem C72_normal_violated :
    ∃ r j, normalDirichlet oneFacet 2 1 slanted 2 (fun _ k => slanted k) = .ok (r, j) ∧
      (∑ k ∈ Finset.range 2, slanted k * slanted k = 1) ∧
      (∀ v : Nat → ℚ, (∀ p < 2, ∑ q ∈ Finset.range 2, j.val p q * v q + r.val p = 0) →
        v 0 * slanted 0 + v 1 * slanted 1 = 2) ∧
      ∀ p < 2, j.val p 0 * (5 / 3) + j.val p 1 * (5 / 4) + r.val p = 0 := by
  obtain ⟨r, j, h1, h2⟩ := C72_normal_diagonal oneFacet (comps := 2) rfl (by decide) (neighs := 1)
    (by decide) slanted (fun _ k => slanted k)
  have hr : ∀ p < 2, r.val p = - (penalty ℚ * slanted p) := by
    have hd : normalDirichlet oneFacet 2 1 slanted 2 (fun _ k => slanted k) = _ := h1
    unfold normalDirichlet at hd
    rw [if_neg (by decide), if_neg (by decide), if_neg (by decide)] at hd
    obtain ⟨r', j', h3, -, -, h4, -⟩ := componentBlocks_spec oneFacet.nPhi 2
      (fun c a => ∑ i ∈ Finset.range oneFacet.nPts, - (penalty ℚ * oneFacet.det i *
        oneFacet.weights i * (∑ k ∈ Finset.range (min (oneFacet.dim + 1) 3), slanted k * slanted k) *
          (oneFacet.phi i a * slanted c)))
      (fun c a b => ∑ i ∈ Finset.range oneFacet.nPts, penalty ℚ * oneFacet.det i *
        oneFacet.weights i * ((oneFacet.phi i a * slanted c) * (oneFacet.phi i b * slanted c)))
    rw [h3] at hd
    obtain ⟨rfl, rfl⟩ := Prod.mk.inj (Except.ok.inj hd)
    intro p hp
    rw [h4 p hp]
    interval_cases p <;> norm_num [oneFacet, slanted, Finset.sum_range_succ]
  have hj : ∀ p < 2, ∀ q < 2, j.val p q = if p = q then penalty ℚ * (slanted p * slanted p) else 0 := by
    intro p hp q hq
    rw [h2 p hp q hq]
    interval_cases p <;> interval_cases q <;>
      norm_num [oneFacet, slanted, facetMass, Finset.sum_range_succ]
  refine ⟨r, j, h1, by norm_num [slanted, Finset.sum_range_succ], ?_, ?_⟩
  · intro v hv
    have e0 := hv 0 (by decide)
    have e1 := hv 1 (by decide)
    simp only [Finset.sum_range_succ, Finset.sum_range_zero, zero_add, hj 0 (by decide) 0 (by decide),
      hj 0 (by decide) 1 (by decide), hj 1 (by decide) 0 (by decide), hj 1 (by decide) 1 (by decide),
      hr 0 (by decide), hr 1 (by decide)] at e0 e1
    norm_num [slanted, penalty] at e0 e1 ⊢
    linarith
  · intro p hp
    rw [hr p hp, hj p hp 0 (by decide), hj p hp 1 (by decide)]
    interval_cases p <;> norm_num [slanted, penalty]

/-! ### Examples -/

/-- A triangle with the linear functions `1 - x - y`, `x`, `y` and one quadrature point. -/
def triangle : PElem ℚ Unit where
  dim := 2
  nPts := 1
  weights := fun _ => 1 / 2
  det := fun _ => 1
  inv := fun _ k l => if k = l then 1 else 0
  tab := ⟨2, 3, 1, fun k _ a _ => if k = 0 then 1 / 3 else
    if a = 0 then -1 else if a = k then 1 else 0⟩
  x := ()

theorem triangle_shapes : Shapes triangle := ⟨.inl rfl, rfl⟩

/-- The data of the example. -/
def triangleData : Data ℚ Unit :=
  ⟨some fun _ _ _ => 3, some fun _ _ => 1, some fun _ _ => 1, some fun _ k l _ => if k = l then 3 else 0⟩

theorem triangle_input : Input [("u", ⟨2, [triangle]⟩)] triangleData 0 triangle 2 (fun _ _ => 1)
    (fun _ _ => 1) := ⟨⟨_, rfl, rfl, rfl⟩, rfl, rfl⟩

theorem triangle_grad (i a l : Nat) (hl : l < 2) : gradAt triangle i a l =
    if a = 0 then -1 else if a = l + 1 then 1 else 0 := by
  interval_cases l <;> simp [gradAt, triangle, Finset.sum_range_succ]

/-- The matrix entry for the `x` displacements of the vertex `(1, 0)`: `(2μ + λ) / 2`, and the
residual at `u = 0`. -/
example : ∃ r j, evaluateForm (some [("u", ⟨2, [triangle]⟩)]) (some triangleData) 0 (fun _ => 0) =
    .ok (r, j) ∧ r.n = 6 ∧ r.val 2 = 1 / 2 ∧ j.val 2 2 = 3 / 2 := by
  obtain ⟨r, j, h, hn, hm, hr, hj⟩ := C71_system triangle_shapes triangle_input
    (rhs := fun _ _ _ => 3) rfl (fun _ => 0)
  refine ⟨r, j, h, hn, ?_, ?_⟩
  · rw [hr 2 (by rw [hn]; decide)]
    simp [bodyLoad, triangle]
  · rw [hj 2 (by rw [hm]; decide) 2 (by rw [hm]; decide)]
    have h0 := triangle_grad 0 1 0 (by decide)
    have h1 := triangle_grad 0 1 1 (by decide)
    have e : ∀ i k l, basisGrad 2 triangle i 2 k l = if k = 0 then gradAt triangle i 1 l else 0 := by
      intro i k l
      simp [basisGrad, eq_comm]
    show elasticMatrix 2 triangle _ _ 2 2 = _
    simp only [elasticMatrix, elasticPower, contract, tr, sym, e]
    simp [Finset.sum_range_succ, h0, h1, show triangle.nPts = 1 from rfl,
      show triangle.det 0 = 1 from rfl, show triangle.weights 0 = 1 / 2 from rfl]
    norm_num

/-- The hypotheses of `C71_rigid_motions` hold for the triangle with its vertices as nodes. -/
example (shift : Nat → ℚ) (spin : Nat → Nat → ℚ) (hspin : ∀ k l, spin k l = - spin l k) (p : Nat) :
    ∑ q ∈ Finset.range (3 * 2), elasticMatrix 2 triangle (fun _ _ => 1) (fun _ _ => 1) p q *
      (shift (q % 2) + ∑ j ∈ Finset.range 2, spin (q % 2) j *
        (if q / 2 = j + 1 then 1 else 0)) = 0 := by
  refine C71_rigid_motions 2 triangle (fun _ _ => 1) (fun _ _ => 1)
    (fun a k => if a = k + 1 then 1 else 0) ?_ ?_ shift spin hspin two_ne_zero p
  · intro i _ l hl
    show ∑ a ∈ Finset.range 3, _ = _
    simp only [triangle_grad _ _ _ hl, Finset.sum_range_succ, Finset.sum_range_zero]
    interval_cases l <;> simp
  · intro i _ k hk l hl
    show ∑ a ∈ Finset.range 3, _ = _
    simp only [triangle_grad _ _ _ hl, Finset.sum_range_succ, Finset.sum_range_zero]
    interval_cases l <;> interval_cases k <;> simp

example : (∀ i < triangle.nPts, 0 < triangle.det i * triangle.weights i ∧ (0 : ℚ) < 1 ∧ (0 : ℚ) ≤ 1) := by
  intro i _
  norm_num [triangle]

example : evaluateForm (some [("u", ⟨1, [triangle]⟩)]) (some triangleData) 0 (fun _ => (0 : ℚ)) =
    .error .valueError :=
  C71_components_refused (el := triangle) (comps := 1) ⟨⟨_, rfl, rfl, rfl⟩, rfl, rfl⟩ rfl rfl
    (by decide) (by decide) (by decide) _

example : ∃ r j, evaluateConstraint (some [("u", ⟨2, [triangle]⟩)]) (some triangleData) 0
    (fun _ => 0) = .ok (r, j) ∧ r.n = 6 := by
  obtain ⟨r, j, h, hn, -⟩ := C71_constraint triangle_shapes triangle_input
    (target := fun _ k l _ => if k = l then 3 else 0) rfl (fun _ => 0)
  exact ⟨r, j, h, hn⟩

/-- A facet across the first axis. -/
example : ∃ r j, normalDirichlet oneFacet 2 1 (fun k => if k = 0 then 1 else 0) 2
    (fun _ _ => 7) = .ok (r, j) ∧ r.val 0 = - (penalty ℚ * 7) ∧ r.val 1 = 0 := by
  obtain ⟨r, j, h1, h2, h3, h4, h5⟩ := C72_normal_partial oneFacet (comps := 2) rfl (by decide)
    (neighs := 1) (by decide) (fun k => if k = 0 then 1 else 0) (fun _ _ => 7) (by
      intro c hc d hd hcd
      interval_cases c <;> interval_cases d <;> simp_all)
  refine ⟨r, j, h1, ?_, ?_⟩
  · rw [h4 0 (by rw [h2]; decide)]
    simp [oneFacet, Finset.sum_range_succ]
  · rw [h4 1 (by rw [h2]; decide)]
    simp [oneFacet]

#print axioms C71_system
#print axioms C71_energy
#print axioms C71_rigid
#print axioms C71_rigid_motions
#print axioms C71_kernel
#print axioms C71_components_refused
#print axioms C71_unset_refused
#print axioms C71_constraint
#print axioms C71_constraint_consistent
#print axioms C72_penalty
#print axioms C72_dirichlet
#print axioms C72_dirichlet_exact
#print axioms C72_neumann
#print axioms C72_normal_partial
#print axioms C72_normal_diagonal
#print axioms C72_normal_refused
#print axioms C72_normal_violated

end Verif.Elasticity
