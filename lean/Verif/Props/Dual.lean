/-
Property theorems C78 and C79: the mixed systems of Cosserat elasticity
(src/weak_forms/lce_dual_weak_form.py, lce_scaled_dual_weak_form.py) and the Riesz maps of their spaces
(lce_riesz_map_weak_form.py, lce_scaled_riesz_map_weak_form.py).
-/
import Verif.Lemmas.DualEnergy
import Verif.Props.Cosserat

namespace Verif.Dual
open Assembly L2Form Laplace Elasticity Cosserat

variable {K X : Type} [Field K]

/-- What is read for the element `iel`: the four spaces and the coefficients. -/
structure Input (scaled : Bool) (spaces : Dict String (FSpace (Elem K X))) (fs : Dual.Data K X)
    (iel : Nat) (sp : Spaces K X) (c : X → Nat → Coeffs K) : Prop where
  s : ∃ ss, spaces.getItem "s" = .ok ss ∧ ss.elements[iel]? = some sp.s ∧ ss.nComp = sp.sComp
  m : ∃ ms e, spaces.getItem "m" = .ok ms ∧ ms.elements[iel]? = some e ∧ e.tab = sp.m ∧
    ms.nComp = sp.mComp
  u : ∃ us e, spaces.getItem "u" = .ok us ∧ us.elements[iel]? = some e ∧ e.tab = sp.u ∧
    us.nComp = sp.uComp
  t : ∃ ts e, spaces.getItem "t" = .ok ts ∧ ts.elements[iel]? = some e ∧ e.tab = sp.t ∧
    ts.nComp = sp.tComp
  lamS : fs.lamS = some fun x i => (c x i).lamS
  muS : fs.muS = some fun x i => (c x i).muS
  kapS : fs.kapS = some fun x i => (c x i).kapS
  lamO : fs.lamO = some fun x i => (c x i).lamO
  muO : fs.muO = some fun x i => (c x i).muO
  kapO : fs.kapO = some fun x i => (c x i).kapO
  len : fs.len = some fun x i => (c x i).len
  grad : if scaled then fs.gradLen = some fun x d i => (c x i).gradLen d
    else ∀ x i, (c x i).gradLen = fun _ => 0

theorem readSpaces_eq {scaled : Bool} {spaces : Dict String (FSpace (Elem K X))} {fs : Dual.Data K X}
    {iel : Nat} {sp : Spaces K X} {c : X → Nat → Coeffs K} (h : Input scaled spaces fs iel sp c) :
    readSpaces spaces iel = .ok sp := by
  obtain ⟨ss, a1, a2, a3⟩ := h.s
  obtain ⟨ms, me, b1, b2, b3, b4⟩ := h.m
  obtain ⟨us, ue, c1, c2, c3, c4⟩ := h.u
  obtain ⟨ts, te, d1, d2, d3, d4⟩ := h.t
  unfold readSpaces
  simp only [a1, b1, c1, d1, Res.bind_ok, getIdx_of a2, getIdx_of b2, getIdx_of c2, getIdx_of d2, a3,
    b3, b4, c3, c4, d3, d4]
  rfl

theorem readCoeffs_eq {scaled : Bool} {spaces : Dict String (FSpace (Elem K X))} {fs : Dual.Data K X}
    {iel : Nat} {sp : Spaces K X} {c : X → Nat → Coeffs K} (h : Input scaled spaces fs iel sp c) :
    readCoeffs scaled fs = .ok c := by
  have hg := h.grad
  unfold readCoeffs
  cases scaled
  · simp only [Bool.false_eq_true, if_false] at hg
    simp only [h.lamS, h.muS, h.kapS, h.lamO, h.muO, h.kapO, h.len, entry, Res.bind_ok,
      Bool.false_eq_true, if_false, Res.pure_eq]
    congr 1
    funext x i
    rw [show (fun _ => (0 : K)) = (c x i).gradLen from (hg x i).symm]
  · simp only [if_true] at hg
    simp only [h.lamS, h.muS, h.kapS, h.lamO, h.muO, h.kapO, h.len, hg, entry, Res.bind_ok, if_true,
      Res.pure_eq]

/-- C78: in two and three dimensions, with rows of stress per dimension and one or three couples,
`evaluate_form` returns the residual `a(α, φ_p) - ∫ f · φ_p` and the matrix `a(φ_q, φ_p)` of the mixed
problem: `a = ∫ Aσ : σ' + Bω : ω' + u · div σ' + u' · div σ + θ · div ω' + θ' · div ω - Θ : σ'
- Θ' : σ`. -/
theorem C78_system (scaled : Bool) {spaces : Dict String (FSpace (Elem K X))} {fs : Dual.Data K X}
    {iel : Nat} {sp : Spaces K X} {c : X → Nat → Coeffs K} {rhs : X → Nat → Nat → K} (hf : Fits sp)
    (h : Input scaled spaces fs iel sp c) (hr : fs.rhs = some rhs) (alpha : Nat → K) :
    ∃ r j, evaluateForm scaled (some spaces) (some fs) iel alpha = .ok (r, j) ∧ r.n = sp.total ∧
      j.n = sp.total ∧
      (∀ p < r.n, r.val p = ∑ q ∈ Finset.range sp.total, dualMatrix scaled sp c p q * alpha q -
        load scaled sp rhs c p) ∧
      ∀ p < j.n, ∀ q < j.n, j.val p q = dualMatrix scaled sp c p q := by
  obtain ⟨r, h1, h2, h3⟩ := form_spec scaled hf rhs c (adVar alpha)
  obtain ⟨h4, h5⟩ := valDer_affine _ _ alpha h2 h3
  refine ⟨(valDer r).1, (valDer r).2, ?_, h2, h2, ?_, ?_⟩
  · unfold evaluateForm
    simp only [readSpaces_eq h, readCoeffs_eq h, hr, entry, Res.bind_ok, h1]
    rfl
  · intro p hp
    rw [h4 p (h2 ▸ hp)]
    ring
  · intro p hp q hq; exact h5 p (h2 ▸ hp) q (h2 ▸ hq)

/-- C78: `evaluate_form_vectorized` returns the load and the same matrix, if no determinant is zero:
what `evaluate_form` returns for `alpha = 0`. -/
theorem C78_vectorized (scaled : Bool) {spaces : Dict String (FSpace (Elem K X))} {fs : Dual.Data K X}
    {iel : Nat} {sp : Spaces K X} {c : X → Nat → Coeffs K} {rhs : X → Nat → Nat → K} (hf : Fits sp)
    (h : Input scaled spaces fs iel sp c) (hr : fs.rhs = some rhs)
    (hd : ∀ i < sp.s.nPts, sp.s.det i ≠ 0) (alpha : Nat → K) :
    ∃ r j r' j', evaluateVectorized scaled (some spaces) (some fs) iel alpha = .ok (r, j) ∧
      evaluateForm scaled (some spaces) (some fs) iel (fun _ => 0) = .ok (r', j') ∧
      r.n = sp.total ∧ j.n = sp.total ∧ r'.n = sp.total ∧ j'.n = sp.total ∧
      (∀ p < sp.total, r.val p = - load scaled sp rhs c p ∧ r'.val p = r.val p) ∧
      ∀ p < sp.total, ∀ q < sp.total, j.val p q = dualMatrix scaled sp c p q ∧
        j'.val p q = j.val p q := by
  obtain ⟨r, j, h1, h2, h3, h4, h5⟩ := vectorized_spec scaled hf hd rhs c
  obtain ⟨r', j', k1, k2, k3, k4, k5⟩ := C78_system scaled hf h hr (fun _ => 0)
  refine ⟨r, j, r', j', ?_, k1, h2, h3, k2, k3, ?_, ?_⟩
  · unfold evaluateVectorized
    simp only [readSpaces_eq h, readCoeffs_eq h, hr, entry, Res.bind_ok, h1]
  · intro p hp
    refine ⟨h4 p, ?_⟩
    rw [k4 p (k2 ▸ hp), h4]
    simp
  · intro p hp q hq
    exact ⟨h5 p q, (k5 p (k3 ▸ hp) q (k3 ▸ hq)).trans (h5 p q).symm⟩

/-- C78: the law of the form is the inverse of the law of Cosserat elasticity,
`σ = 2μ sym e + λ tr(e) I + 2κ skew e`. -/
theorem C78_law [CharZero K] (m : Nat) {mu lam kappa : K} (hm : mu ≠ 0) (hk : kappa ≠ 0)
    (ht : 2 * mu + m * lam ≠ 0) (s : Nat → Nat → K) :
    (∀ k l, strain m mu lam kappa (stressLaw m mu lam kappa s) k l = s k l) ∧
      ∀ k l, stressLaw m mu lam kappa (strain m mu lam kappa s) k l = s k l :=
  ⟨strain_stressLaw m hm hk ht s, stressLaw_strain m hm hk ht s⟩

/-- C78: the matrix is symmetric; its quadratic form is
`∫ Aσ : σ + Bω : ω + 2 (u · div σ + θ · div ω - Θ : σ)`; it couples no displacement or rotation with
another; and with positive coefficients and weights it is positive on the stresses. -/
theorem C78_saddle {K X : Type} [Field K] [LinearOrder K] [IsStrictOrderedRing K] (scaled : Bool)
    {sp : Spaces K X} (hf : Fits sp) (c : X → Nat → Coeffs K) :
    (∀ p q, dualMatrix scaled sp c p q = dualMatrix scaled sp c q p) ∧
    (∀ v : Nat → K, ∑ p ∈ Finset.range sp.total, ∑ q ∈ Finset.range sp.total,
        v p * dualMatrix scaled sp c p q * v q =
      ∑ i ∈ Finset.range sp.s.nPts, sp.s.det i * sp.s.weights i *
        (lawPower scaled sp.s.dim (c sp.s.x i) (fieldAt scaled sp c v i) (fieldAt scaled sp c v i) +
          2 * (∑ k ∈ Finset.range sp.s.dim,
              (fieldAt scaled sp c v i).disp k * (fieldAt scaled sp c v i).dsig k +
            ∑ k ∈ Finset.range (spins sp.s.dim),
              (fieldAt scaled sp c v i).rot k * (fieldAt scaled sp c v i).dmom k -
            contract sp.s.dim (axial sp.s.dim (fieldAt scaled sp c v i).rot)
              (fieldAt scaled sp c v i).sig))) ∧
    (∀ p q, sp.nS + sp.nM ≤ p → sp.nS + sp.nM ≤ q → dualMatrix scaled sp c p q = 0) ∧
    ((∀ i < sp.s.nPts, 0 < sp.s.det i * sp.s.weights i ∧ Positive sp.s.dim (c sp.s.x i)) →
      ∀ v : Nat → K, (∀ p, sp.nS + sp.nM ≤ p → v p = 0) →
        0 ≤ ∑ p ∈ Finset.range sp.total, ∑ q ∈ Finset.range sp.total,
          v p * dualMatrix scaled sp c p q * v q ∧
        (∑ p ∈ Finset.range sp.total, ∑ q ∈ Finset.range sp.total,
          v p * dualMatrix scaled sp c p q * v q = 0 → ∀ i < sp.s.nPts,
          (∀ k < sp.s.dim, ∀ l < sp.s.dim, (fieldAt scaled sp c v i).sig k l = 0) ∧
          ∀ k < spins sp.s.dim, ∀ l < sp.s.dim, (fieldAt scaled sp c v i).mom k l = 0)) := by
  have energy : ∀ v : Nat → K, ∑ p ∈ Finset.range sp.total, ∑ q ∈ Finset.range sp.total,
        v p * dualMatrix scaled sp c p q * v q =
      ∑ i ∈ Finset.range sp.s.nPts, sp.s.det i * sp.s.weights i *
        (lawPower scaled sp.s.dim (c sp.s.x i) (fieldAt scaled sp c v i) (fieldAt scaled sp c v i) +
          2 * (∑ k ∈ Finset.range sp.s.dim,
              (fieldAt scaled sp c v i).disp k * (fieldAt scaled sp c v i).dsig k +
            ∑ k ∈ Finset.range (spins sp.s.dim),
              (fieldAt scaled sp c v i).rot k * (fieldAt scaled sp c v i).dmom k -
            contract sp.s.dim (axial sp.s.dim (fieldAt scaled sp c v i).rot)
              (fieldAt scaled sp c v i).sig)) := by
    intro v
    unfold dualMatrix
    rw [matrixOf_energy (fun c => dualPower_linear scaled sp.s.dim c)
      (fun c => dualPower_comm scaled sp.s.dim c)]
    refine Finset.sum_congr rfl fun i _ => ?_
    unfold dualPower
    rw [← two_mul_sum_eq, ← two_mul_sum_eq]
    ring
  refine ⟨fun p q => matrixOf_symm (fun c => dualPower_comm scaled sp.s.dim c) scaled sp c p q, energy,
    ?_, ?_⟩
  · intro p q hp hq
    unfold dualMatrix matrixOf
    refine Finset.sum_eq_zero fun i _ => ?_
    rw [no_stress_power scaled sp _ i hp hq, mul_zero]
  · intro hpos v hv
    have hz := no_motion scaled sp c v hv
    have e : ∑ p ∈ Finset.range sp.total, ∑ q ∈ Finset.range sp.total,
        v p * dualMatrix scaled sp c p q * v q =
      ∑ i ∈ Finset.range sp.s.nPts, sp.s.det i * sp.s.weights i *
        lawPower scaled sp.s.dim (c sp.s.x i) (fieldAt scaled sp c v i) (fieldAt scaled sp c v i) := by
      rw [energy]
      refine Finset.sum_congr rfl fun i _ => ?_
      obtain ⟨z1, z2⟩ := hz i
      have e2 : contract sp.s.dim (axial sp.s.dim (fieldAt scaled sp c v i).rot)
          (fieldAt scaled sp c v i).sig = 0 := by
        rw [show (fieldAt scaled sp c v i).rot = fun _ => 0 from funext z2]
        exact axial_zero_contract _ _
      simp only [z1, z2, zero_mul, Finset.sum_const_zero, e2, sub_zero, add_zero, mul_zero]
    have hn : ∀ i ∈ Finset.range sp.s.nPts, 0 ≤ sp.s.det i * sp.s.weights i *
        lawPower scaled sp.s.dim (c sp.s.x i) (fieldAt scaled sp c v i) (fieldAt scaled sp c v i) :=
      fun i hi => mul_nonneg (hpos i (Finset.mem_range.1 hi)).1.le
        (lawPower_pos hf.dim scaled (hpos i (Finset.mem_range.1 hi)).2 _).1
    rw [e]
    refine ⟨Finset.sum_nonneg hn, fun h0 i hi => ?_⟩
    have h1 := (Finset.sum_eq_zero_iff_of_nonneg hn).1 h0 i (Finset.mem_range.2 hi)
    exact (lawPower_pos hf.dim scaled (hpos i hi).2 _).2
      ((mul_eq_zero.1 h1).resolve_left (hpos i hi).1.ne')

/-- C78: a wrong number of components of one of the fields is refused. -/
theorem C78_components_refused (scaled : Bool) {spaces : Dict String (FSpace (Elem K X))}
    {fs : Dual.Data K X} {iel : Nat} {sp : Spaces K X} {c : X → Nat → Coeffs K}
    (h : Input scaled spaces fs iel sp c)
    (hc : sp.sComp ≠ (if sp.s.dim = 2 then 2 else 3) ∨ sp.mComp ≠ (if sp.s.dim = 2 then 1 else 3) ∨
      sp.uComp ≠ (if sp.s.dim = 2 then 2 else 3) ∨ sp.tComp ≠ (if sp.s.dim = 2 then 1 else 3))
    (h1 : 0 < sp.s.tab.nPhi) (h2 : 0 < sp.m.nPhi) (h3 : 0 < sp.u.nPhi) (h4 : 0 < sp.t.nPhi)
    (hn : 0 < sp.s.nPts) (hr : fs.rhs.isSome) (alpha : Nat → K) :
    evaluateForm scaled (some spaces) (some fs) iel alpha = .error .valueError ∧
      evaluateRiesz scaled (some spaces) (some fs) iel alpha = .error .valueError := by
  obtain ⟨rhs, hr⟩ := Option.isSome_iff_exists.1 hr
  have he : ¬ Expected sp := by
    rintro ⟨a1, a2, a3, a4⟩
    have b1 := Nat.eq_of_mul_eq_mul_left h1 a1
    have b2 := Nat.eq_of_mul_eq_mul_left h2 a2
    have b3 := Nat.eq_of_mul_eq_mul_left h3 a3
    have b4 := Nat.eq_of_mul_eq_mul_left h4 a4
    tauto
  constructor
  · unfold evaluateForm
    simp only [readSpaces_eq h, readCoeffs_eq h, hr, entry, Res.bind_ok, form_refused scaled he hn]
    rfl
  · unfold evaluateRiesz
    simp only [readSpaces_eq h, readCoeffs_eq h, hr, entry, Res.bind_ok, rieszForm_refused scaled he hn,
      ite_self]
    rfl

theorem getItem_error {V : Type} (d : Dict String V) (k : String) :
    (∃ v, d.getItem k = .ok v) ∨ d.getItem k = .error .keyError := by
  unfold Dict.getItem
  cases d.get? k with
  | none => exact .inr rfl
  | some v => exact .inl ⟨v, rfl⟩

/-- C78: a missing space or missing functions are refused with `ValueError`, a missing field with
`KeyError`, and so is a missing coefficient. -/
theorem C78_unset_refused (scaled : Bool) (space : Option (Dict String (FSpace (Elem K X))))
    (functions : Option (Dual.Data K X)) (iel : Nat) (alpha : Nat → K) :
    (space = none ∨ functions = none →
      evaluateForm scaled space functions iel alpha = .error .valueError ∧
      evaluateVectorized scaled space functions iel alpha = .error .valueError ∧
      evaluateRiesz scaled space functions iel alpha = .error .valueError ∧
      evaluateRieszVectorized scaled space functions iel alpha = .error .valueError) ∧
    (∀ spaces fs, space = some spaces → functions = some fs →
      (∃ n ∈ ["s", "m", "u", "t"], spaces.getItem n = .error .keyError) →
      evaluateForm scaled space functions iel alpha = .error .keyError ∧
      evaluateVectorized scaled space functions iel alpha = .error .keyError ∧
      evaluateRiesz scaled space functions iel alpha = .error .keyError ∧
      evaluateRieszVectorized scaled space functions iel alpha = .error .keyError) ∧
    (∀ spaces fs sp, space = some spaces → functions = some fs → readSpaces spaces iel = .ok sp →
      fs.lamS = none ∨ fs.muS = none ∨ fs.kapS = none ∨ fs.lamO = none ∨ fs.muO = none ∨
        fs.kapO = none ∨ fs.len = none ∨ scaled = true ∧ fs.gradLen = none →
      evaluateForm scaled space functions iel alpha = .error .keyError ∧
      evaluateVectorized scaled space functions iel alpha = .error .keyError ∧
      evaluateRiesz scaled space functions iel alpha = .error .keyError ∧
      evaluateRieszVectorized scaled space functions iel alpha = .error .keyError) ∧
    ∀ spaces fs sp, space = some spaces → functions = some fs → readSpaces spaces iel = .ok sp →
      fs.rhs = none →
      evaluateForm scaled space functions iel alpha = .error .keyError ∧
      evaluateVectorized scaled space functions iel alpha = .error .keyError := by
  refine ⟨?_, ?_, ?_, ?_⟩
  · rintro (rfl | rfl)
    · exact ⟨rfl, rfl, rfl, rfl⟩
    · cases space <;> exact ⟨rfl, rfl, rfl, rfl⟩
  · rintro spaces fs rfl rfl ⟨n, hn, h⟩
    have e : readSpaces spaces iel = .error .keyError := by
      unfold readSpaces
      rcases getItem_error spaces "s" with ⟨ss, h1⟩ | h1
      · rcases getItem_error spaces "m" with ⟨ms, h2⟩ | h2
        · rcases getItem_error spaces "u" with ⟨us, h3⟩ | h3
          · rcases getItem_error spaces "t" with ⟨ts, h4⟩ | h4
            · simp only [List.mem_cons, List.not_mem_nil, or_false] at hn
              rcases hn with rfl | rfl | rfl | rfl <;> simp_all
            · simp only [h1, h2, h3, h4, Res.bind_ok]; rfl
          · simp only [h1, h2, h3, Res.bind_ok]; rfl
        · simp only [h1, h2, Res.bind_ok]; rfl
      · simp only [h1]; rfl
    unfold evaluateForm evaluateVectorized evaluateRiesz evaluateRieszVectorized
    simp only [e]
    exact ⟨rfl, rfl, rfl, rfl⟩
  · rintro spaces fs sp rfl rfl hs h
    have e : readCoeffs scaled fs = .error .keyError := by
      obtain ⟨rhs, a1, a2, a3, a4, a5, a6, a7, a8⟩ := fs
      cases a1 <;> [rfl; skip]
      cases a2 <;> [rfl; skip]
      cases a3 <;> [rfl; skip]
      cases a4 <;> [rfl; skip]
      cases a5 <;> [rfl; skip]
      cases a6 <;> [rfl; skip]
      cases a7 <;> [rfl; skip]
      simp only [reduceCtorEq, false_or] at h
      obtain ⟨rfl, rfl⟩ := h
      rfl
    unfold evaluateForm evaluateVectorized evaluateRiesz evaluateRieszVectorized
    simp only [hs, e, Res.bind_ok]
    cases fs.rhs <;> cases scaled <;> exact ⟨rfl, rfl, rfl, rfl⟩
  · rintro spaces fs sp rfl rfl hs h
    unfold evaluateForm evaluateVectorized
    simp only [hs, h, Res.bind_ok]
    exact ⟨rfl, rfl⟩

/-! ### C79 -/

/-- C79: `evaluate_form` of the Riesz map returns the residual `(α, φ_p)` and the matrix
`(φ_q, φ_p)` of the inner product
`∫ Aσ : σ' + Bω : ω' + div σ · div σ' + div ω · div ω' + u · u' + θ · θ'`. -/
theorem C79_system (scaled : Bool) {spaces : Dict String (FSpace (Elem K X))} {fs : Dual.Data K X}
    {iel : Nat} {sp : Spaces K X} {c : X → Nat → Coeffs K} (hf : Fits sp)
    (h : Input scaled spaces fs iel sp c) (hr : scaled = true → fs.rhs.isSome) (alpha : Nat → K) :
    ∃ r j, evaluateRiesz scaled (some spaces) (some fs) iel alpha = .ok (r, j) ∧ r.n = sp.total ∧
      j.n = sp.total ∧
      (∀ p < r.n, r.val p = ∑ q ∈ Finset.range sp.total, rieszMatrix scaled sp c p q * alpha q) ∧
      ∀ p < j.n, ∀ q < j.n, j.val p q = rieszMatrix scaled sp c p q := by
  obtain ⟨r, h1, h2, h3⟩ := rieszForm_spec scaled hf c (adVar alpha)
  obtain ⟨h4, h5⟩ := valDer_affine _ _ alpha h2 h3
  refine ⟨(valDer r).1, (valDer r).2, ?_, h2, h2, ?_, ?_⟩
  · unfold evaluateRiesz
    simp only [readSpaces_eq h, readCoeffs_eq h, Res.bind_ok, h1]
    cases scaled
    · rfl
    · obtain ⟨rhs, hr⟩ := Option.isSome_iff_exists.1 (hr rfl)
      simp only [hr, entry, Res.bind_ok]
      rfl
  · intro p hp
    rw [h4 p (h2 ▸ hp), add_zero]
  · intro p hp q hq; exact h5 p (h2 ▸ hp) q (h2 ▸ hq)

/-- C79: `evaluate_form_vectorized` returns a zero residual and the same matrix. -/
theorem C79_vectorized (scaled : Bool) {spaces : Dict String (FSpace (Elem K X))} {fs : Dual.Data K X}
    {iel : Nat} {sp : Spaces K X} {c : X → Nat → Coeffs K} (hf : Fits sp)
    (h : Input scaled spaces fs iel sp c) (hd : ∀ i < sp.s.nPts, sp.s.det i ≠ 0) (alpha : Nat → K) :
    ∃ j, evaluateRieszVectorized scaled (some spaces) (some fs) iel alpha =
        .ok (Vec.zeros sp.total, j) ∧ j.n = sp.total ∧
      ∀ p q, j.val p q = rieszMatrix scaled sp c p q := by
  obtain ⟨j, h1, h2, h3⟩ := rieszVectorized_spec scaled hf hd c
  refine ⟨j, ?_, h2, h3⟩
  unfold evaluateRieszVectorized
  simp only [readSpaces_eq h, readCoeffs_eq h, Res.bind_ok, h1]

/-- The fields of a vector vanish in the point `i`. -/
structure Vanishes (m : Nat) (f : Fields K) : Prop where
  sig : ∀ k < m, ∀ l < m, f.sig k l = 0
  dsig : ∀ k < m, f.dsig k = 0
  mom : ∀ k < spins m, ∀ l < m, f.mom k l = 0
  dmom : ∀ k < spins m, f.dmom k = 0
  disp : ∀ k < m, f.disp k = 0
  rot : ∀ k < spins m, f.rot k = 0

/-- C79: the matrix is symmetric and its quadratic form is the square of the norm,
`∫ Aσ : σ + Bω : ω + |div σ|² + |div ω|² + |u|² + |θ|²`; with positive coefficients and weights it is
not negative, and it is zero only if all fields vanish in the quadrature points. -/
theorem C79_inner_product {K X : Type} [Field K] [LinearOrder K] [IsStrictOrderedRing K] (scaled : Bool)
    {sp : Spaces K X} (hf : Fits sp) (c : X → Nat → Coeffs K) :
    (∀ p q, rieszMatrix scaled sp c p q = rieszMatrix scaled sp c q p) ∧
    (∀ v : Nat → K, ∑ p ∈ Finset.range sp.total, ∑ q ∈ Finset.range sp.total,
        v p * rieszMatrix scaled sp c p q * v q =
      ∑ i ∈ Finset.range sp.s.nPts, sp.s.det i * sp.s.weights i *
        (lawPower scaled sp.s.dim (c sp.s.x i) (fieldAt scaled sp c v i) (fieldAt scaled sp c v i) +
          ∑ k ∈ Finset.range sp.s.dim,
            ((fieldAt scaled sp c v i).dsig k ^ 2 + (fieldAt scaled sp c v i).disp k ^ 2) +
          ∑ k ∈ Finset.range (spins sp.s.dim),
            ((fieldAt scaled sp c v i).dmom k ^ 2 + (fieldAt scaled sp c v i).rot k ^ 2))) ∧
    ((∀ i < sp.s.nPts, 0 < sp.s.det i * sp.s.weights i ∧ Positive sp.s.dim (c sp.s.x i)) →
      ∀ v : Nat → K,
        0 ≤ ∑ p ∈ Finset.range sp.total, ∑ q ∈ Finset.range sp.total,
          v p * rieszMatrix scaled sp c p q * v q ∧
        (∑ p ∈ Finset.range sp.total, ∑ q ∈ Finset.range sp.total,
          v p * rieszMatrix scaled sp c p q * v q = 0 ↔
          ∀ i < sp.s.nPts, Vanishes sp.s.dim (fieldAt scaled sp c v i))) := by
  have energy : ∀ v : Nat → K, ∑ p ∈ Finset.range sp.total, ∑ q ∈ Finset.range sp.total,
        v p * rieszMatrix scaled sp c p q * v q =
      ∑ i ∈ Finset.range sp.s.nPts, sp.s.det i * sp.s.weights i *
        (lawPower scaled sp.s.dim (c sp.s.x i) (fieldAt scaled sp c v i) (fieldAt scaled sp c v i) +
          ∑ k ∈ Finset.range sp.s.dim,
            ((fieldAt scaled sp c v i).dsig k ^ 2 + (fieldAt scaled sp c v i).disp k ^ 2) +
          ∑ k ∈ Finset.range (spins sp.s.dim),
            ((fieldAt scaled sp c v i).dmom k ^ 2 + (fieldAt scaled sp c v i).rot k ^ 2)) := by
    intro v
    unfold rieszMatrix
    rw [matrixOf_energy (fun c => rieszPower_linear scaled sp.s.dim c)
      (fun c => rieszPower_comm scaled sp.s.dim c)]
    refine Finset.sum_congr rfl fun i _ => ?_
    unfold rieszPower
    simp only [pow_two]
  refine ⟨fun p q => matrixOf_symm (fun c => rieszPower_comm scaled sp.s.dim c) scaled sp c p q, energy,
    fun hpos v => ?_⟩
  have n2 : ∀ i, 0 ≤ ∑ k ∈ Finset.range sp.s.dim,
      ((fieldAt scaled sp c v i).dsig k ^ 2 + (fieldAt scaled sp c v i).disp k ^ 2) :=
    fun i => Finset.sum_nonneg fun k _ => by positivity
  have n3 : ∀ i, 0 ≤ ∑ k ∈ Finset.range (spins sp.s.dim),
      ((fieldAt scaled sp c v i).dmom k ^ 2 + (fieldAt scaled sp c v i).rot k ^ 2) :=
    fun i => Finset.sum_nonneg fun k _ => by positivity
  have n1 : ∀ i < sp.s.nPts, 0 ≤ lawPower scaled sp.s.dim (c sp.s.x i) (fieldAt scaled sp c v i)
      (fieldAt scaled sp c v i) := fun i hi => (lawPower_pos hf.dim scaled (hpos i hi).2 _).1
  have hn : ∀ i ∈ Finset.range sp.s.nPts, 0 ≤ sp.s.det i * sp.s.weights i *
        (lawPower scaled sp.s.dim (c sp.s.x i) (fieldAt scaled sp c v i) (fieldAt scaled sp c v i) +
          ∑ k ∈ Finset.range sp.s.dim,
            ((fieldAt scaled sp c v i).dsig k ^ 2 + (fieldAt scaled sp c v i).disp k ^ 2) +
          ∑ k ∈ Finset.range (spins sp.s.dim),
            ((fieldAt scaled sp c v i).dmom k ^ 2 + (fieldAt scaled sp c v i).rot k ^ 2)) :=
    fun i hi => mul_nonneg (hpos i (Finset.mem_range.1 hi)).1.le
      (add_nonneg (add_nonneg (n1 i (Finset.mem_range.1 hi)) (n2 i)) (n3 i))
  rw [energy]
  refine ⟨Finset.sum_nonneg hn, fun h0 i hi => ?_, fun h0 => Finset.sum_eq_zero fun i hi => ?_⟩
  · have h1 := (Finset.sum_eq_zero_iff_of_nonneg hn).1 h0 i (Finset.mem_range.2 hi)
    have h2 := (mul_eq_zero.1 h1).resolve_left (hpos i hi).1.ne'
    have a1 := n1 i hi
    have a2 := n2 i
    have a3 := n3 i
    obtain ⟨b1, b2⟩ := (lawPower_pos hf.dim scaled (hpos i hi).2 (fieldAt scaled sp c v i)).2
      (by linarith)
    have c2 := (Finset.sum_eq_zero_iff_of_nonneg fun k _ => by positivity).1
      (show ∑ k ∈ Finset.range sp.s.dim,
        ((fieldAt scaled sp c v i).dsig k ^ 2 + (fieldAt scaled sp c v i).disp k ^ 2) = 0 by linarith)
    have c3 := (Finset.sum_eq_zero_iff_of_nonneg fun k _ => by positivity).1
      (show ∑ k ∈ Finset.range (spins sp.s.dim),
        ((fieldAt scaled sp c v i).dmom k ^ 2 + (fieldAt scaled sp c v i).rot k ^ 2) = 0 by linarith)
    have sq : ∀ {a b : K}, a ^ 2 + b ^ 2 = 0 → a = 0 ∧ b = 0 := by
      intro a b h
      have e1 := sq_nonneg a
      have e2 := sq_nonneg b
      exact ⟨pow_eq_zero_iff (two_ne_zero) |>.1 (by linarith),
        pow_eq_zero_iff (two_ne_zero) |>.1 (by linarith)⟩
    exact ⟨b1, fun k hk => (sq (c2 k (Finset.mem_range.2 hk))).1, b2,
      fun k hk => (sq (c3 k (Finset.mem_range.2 hk))).1,
      fun k hk => (sq (c2 k (Finset.mem_range.2 hk))).2,
      fun k hk => (sq (c3 k (Finset.mem_range.2 hk))).2⟩
  · have z := h0 i (Finset.mem_range.1 hi)
    rw [lawPower_vanish hf.dim scaled _ z.sig z.mom,
      Finset.sum_eq_zero fun k hk => by
        rw [z.dsig k (Finset.mem_range.1 hk), z.disp k (Finset.mem_range.1 hk)]; ring,
      Finset.sum_eq_zero fun k hk => by
        rw [z.dmom k (Finset.mem_range.1 hk), z.rot k (Finset.mem_range.1 hk)]; ring]
    ring

/-! ### Examples -/

/-- The functions `(x, y)` and `(1, 0)` in the middle of the triangle. -/
def rowTab : Tab ℚ where
  nDer := 2
  nPhi := 2
  nVal := 2
  val d _ a l := if a = 0 then (if d = 0 then 1 / 3 else if d = l + 1 then 1 else 0)
    else if d = 0 ∧ l = 0 then 1 else 0

/-- The constant function. -/
def constTab : Tab ℚ := ⟨2, 1, 1, fun d _ _ _ => if d = 0 then 1 else 0⟩

/-- The element of the example: two rows of stress, one couple, two displacements and one rotation. -/
def cell : Spaces ℚ Unit :=
  ⟨⟨2, 1, fun _ => 1 / 2, fun _ => 1, rowTab, ()⟩, rowTab, constTab, constTab, 2, 1, 2, 1⟩

/-- The coefficients of the example. -/
def cellCoeffs (scaled : Bool) : Unit → Nat → Coeffs ℚ := fun _ _ =>
  ⟨1, 1, 2, 1, 1, 3, 2, fun d => if scaled ∧ d = 0 then 3 else 0⟩

/-- The spaces of the example. -/
def cellSpaces : Dict String (FSpace (Elem ℚ Unit)) :=
  [("s", ⟨2, [cell.s]⟩), ("m", ⟨1, [cell.s]⟩), ("u", ⟨2, [{ cell.s with tab := constTab }]⟩),
    ("t", ⟨1, [{ cell.s with tab := constTab }]⟩)]

/-- The data of the example. -/
def cellData : Dual.Data ℚ Unit :=
  ⟨some fun _ c _ => if c = 2 then 6 else 4, some fun _ _ => 1, some fun _ _ => 1, some fun _ _ => 2,
    some fun _ _ => 1, some fun _ _ => 1, some fun _ _ => 3, some fun _ _ => 2,
    some fun _ d _ => if d = 0 then 3 else 0⟩

theorem cell_fits : Fits cell :=
  ⟨.inl rfl, le_rfl, le_rfl, le_rfl, le_rfl, rfl, rfl, rfl, rfl⟩

theorem cell_input (scaled : Bool) : Input scaled cellSpaces cellData 0 cell (cellCoeffs scaled) := by
  refine ⟨⟨_, rfl, rfl, rfl⟩, ⟨_, _, rfl, rfl, rfl, rfl⟩, ⟨_, _, rfl, rfl, rfl, rfl⟩,
    ⟨_, _, rfl, rfl, rfl, rfl⟩, rfl, rfl, rfl, rfl, rfl, rfl, rfl, ?_⟩
  cases scaled
  · simp [cellCoeffs]
  · simp [cellCoeffs, cellData]

theorem cell_positive (scaled : Bool) : ∀ i < cell.s.nPts, 0 < cell.s.det i * cell.s.weights i ∧
    Positive cell.s.dim (cellCoeffs scaled cell.s.x i) := by
  intro i _
  exact ⟨by norm_num [cell], by constructor <;> norm_num [cell, cellCoeffs]⟩

/-- Entries of the example: stress with stress, displacement with stress, rotation with stress, and
rotation with couple stress, where the gradient of the length enters. -/
example : ∃ r j, evaluateForm true (some cellSpaces) (some cellData) 0 (fun _ => 0) = .ok (r, j) ∧
    r.n = 9 ∧ r.val 6 = -2 ∧ r.val 8 = -3 ∧ j.val 2 2 = 3 / 16 ∧ j.val 6 0 = 1 ∧ j.val 8 0 = 1 / 6 ∧
    j.val 8 4 = 5 / 2 := by
  obtain ⟨r, j, h, hn, hm, hr, hj⟩ := C78_system true cell_fits (cell_input true) rfl (fun _ => 0)
  have hn : r.n = 9 := hn
  have hm : j.n = 9 := hm
  refine ⟨r, j, h, hn, ?_, ?_, ?_, ?_, ?_, ?_⟩
  · rw [hr 6 (by omega)]; decide +kernel
  · rw [hr 8 (by omega)]; decide +kernel
  · rw [hj 2 (by omega) 2 (by omega)]; decide +kernel
  · rw [hj 6 (by omega) 0 (by omega)]; decide +kernel
  · rw [hj 8 (by omega) 0 (by omega)]; decide +kernel
  · rw [hj 8 (by omega) 4 (by omega)]; decide +kernel

/-- In the form that is not scaled the divergence has no such factor. -/
example : ∃ r j, evaluateVectorized false (some cellSpaces) (some cellData) 0 (fun _ => 0) = .ok (r, j) ∧
    j.val 8 4 = 1 ∧ j.val 5 5 = 1 / 16 := by
  obtain ⟨r, j, _, _, h, _, hr, hj, _, _, _, hv⟩ := C78_vectorized false cell_fits (cell_input false) rfl
    (fun _ _ => one_ne_zero) (fun _ => 0)
  refine ⟨r, j, h, ?_, ?_⟩
  · rw [(hv 8 (by decide) 4 (by decide)).1]; decide +kernel
  · rw [(hv 5 (by decide) 5 (by decide)).1]; decide +kernel

example (v : Nat → ℚ) (hv : ∀ p, 6 ≤ p → v p = 0) :
    0 ≤ ∑ p ∈ Finset.range 9, ∑ q ∈ Finset.range 9, v p * dualMatrix true cell (cellCoeffs true) p q * v q :=
  ((C78_saddle true cell_fits (cellCoeffs true)).2.2.2 (cell_positive true) v hv).1

example : ∃ j, evaluateRieszVectorized true (some cellSpaces) (some cellData) 0 (fun _ => 0) =
    .ok (Vec.zeros 9, j) ∧ j.val 6 6 = 1 / 2 ∧ j.val 0 0 = 2 + 1 / 24 ∧ j.val 6 0 = 0 := by
  obtain ⟨j, h, _, hv⟩ := C79_vectorized true cell_fits (cell_input true)
    (fun _ _ => one_ne_zero) (fun _ => 0)
  refine ⟨j, h, ?_, ?_, ?_⟩ <;> rw [hv] <;> decide +kernel

example : ∃ r j, evaluateRiesz false (some cellSpaces) (some { cellData with rhs := none }) 0
    (fun _ => 1) = .ok (r, j) ∧ r.val 8 = 1 / 2 := by
  obtain ⟨r, j, h, h1, _, hr, _⟩ := C79_system false cell_fits
    (fs := { cellData with rhs := none }) (c := cellCoeffs false) (spaces := cellSpaces) (iel := 0)
    ⟨(cell_input false).s, (cell_input false).m, (cell_input false).u, (cell_input false).t, rfl, rfl, rfl,
      rfl, rfl, rfl, rfl, (cell_input false).grad⟩ (by simp) (fun _ => 1)
  have h1 : r.n = 9 := h1
  refine ⟨r, j, h, ?_⟩
  rw [hr 8 (by omega)]; decide +kernel

example (v : Nat → ℚ) : 0 ≤ ∑ p ∈ Finset.range 9, ∑ q ∈ Finset.range 9,
    v p * rieszMatrix true cell (cellCoeffs true) p q * v q :=
  ((C79_inner_product true cell_fits (cellCoeffs true)).2.2 (cell_positive true) v).1

/-- A stress with three rows in the plane. -/
example : evaluateForm true (some (("s", ⟨3, [cell.s]⟩) :: cellSpaces)) (some cellData) 0 (fun _ => 0) =
    .error .valueError :=
  (C78_components_refused true (sp := { cell with sComp := 3 }) (c := cellCoeffs true)
    (spaces := ("s", ⟨3, [cell.s]⟩) :: cellSpaces) (fs := cellData) (iel := 0)
    ⟨⟨_, rfl, rfl, rfl⟩, (cell_input true).m, (cell_input true).u, (cell_input true).t, rfl, rfl, rfl,
      rfl, rfl, rfl, rfl, (cell_input true).grad⟩ (.inl (by decide))
    (by decide) (by decide) (by decide) (by decide) (by decide) rfl _).1

example : Dict.getItem [("s", (⟨2, [cell.s]⟩ : FSpace (Elem ℚ Unit)))] "m" = .error .keyError := rfl

#print axioms C78_system
#print axioms C78_vectorized
#print axioms C78_law
#print axioms C78_saddle
#print axioms C78_components_refused
#print axioms C78_unset_refused
#print axioms C79_system
#print axioms C79_vectorized
#print axioms C79_inner_product

end Verif.Dual
