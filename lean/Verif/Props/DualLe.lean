/-
Property theorems C81: the mixed system of elasticity without couples
(src/weak_forms/le_dual_weak_form.py) and the Riesz map of its spaces (le_riesz_map_weak_form.py).
-/
import Verif.Lemmas.DualLe
import Verif.Props.Dual
import Verif.Props.Laplace

namespace Verif.Dual
open Assembly L2Form Laplace Elasticity Cosserat

variable {K X : Type} [Field K]

/-- What is read for the element `iel`: the three spaces, and the coefficients. -/
structure LeInput (spaces : Dict String (FSpace (Elem K X))) (fs : LeData K X) (iel : Nat)
    (sp : Spaces K X) (rhs : X → Nat → Nat → K) (lam mu : X → Nat → K) : Prop where
  s : ∃ ss, spaces.getItem "s" = .ok ss ∧ ss.elements[iel]? = some sp.s ∧ ss.nComp = sp.s.dim
  u : ∃ us e, spaces.getItem "u" = .ok us ∧ us.elements[iel]? = some e ∧ e.tab = sp.u ∧
    us.nComp = sp.s.dim
  t : ∃ ts e, spaces.getItem "t" = .ok ts ∧ ts.elements[iel]? = some e ∧ e.tab = sp.t ∧
    ts.nComp = spins sp.s.dim
  none : sp.m = noFunctions sp.s.dim
  rhs : fs.rhs = some rhs
  lam : fs.lam = some lam
  mu : fs.mu = some mu

theorem readLeSpaces_eq {spaces : Dict String (FSpace (Elem K X))} {fs : LeData K X} {iel : Nat}
    {sp : Spaces K X} {rhs : X → Nat → Nat → K} {lam mu : X → Nat → K} (hf : Fits sp)
    (h : LeInput spaces fs iel sp rhs lam mu) : readLeSpaces spaces iel = .ok sp := by
  obtain ⟨ss, a1, a2, a3⟩ := h.s
  obtain ⟨us, ue, c1, c2, c3, c4⟩ := h.u
  obtain ⟨ts, te, d1, d2, d3, d4⟩ := h.t
  unfold readLeSpaces
  simp only [a1, c1, d1, Res.bind_ok, getIdx_of a2, getIdx_of c2, getIdx_of d2, a3, c3, c4, d3, d4,
    ← h.none]
  rw [show (if sp.s.dim = 2 then 1 else 3) = spins sp.s.dim from rfl, ← hf.mComp]
  have e : (⟨sp.s, sp.m, sp.u, sp.t, sp.s.dim, sp.mComp, sp.s.dim, sp.mComp⟩ : Spaces K X) = sp := by
    obtain ⟨s, m, u, t, s1, m1, u1, t1⟩ := sp
    have e1 := hf.sComp
    have e2 := hf.uComp
    have e3 := hf.tComp.trans hf.mComp.symm
    dsimp only at e1 e2 e3 ⊢
    rw [e1, e2, e3]
  rw [e]
  rfl

/-- C81: in two and three dimensions `evaluate_form_vectorized` returns the load and the matrix of the
mixed problem: that of C78 without couple stress. -/
theorem C81_vectorized [CharZero K] {spaces : Dict String (FSpace (Elem K X))} {fs : LeData K X}
    {iel : Nat} {sp : Spaces K X} {rhs : X → Nat → Nat → K} {lam mu : X → Nat → K} (hf : Fits sp)
    (h : LeInput spaces fs iel sp rhs lam mu) (hd : ∀ i < sp.s.nPts, sp.s.det i ≠ 0)
    (alpha : Nat → K) :
    ∃ r j, evaluateLeVectorized (some spaces) (some fs) iel alpha = .ok (r, j) ∧ r.n = sp.total ∧
      j.n = sp.total ∧ sp.total = sp.nS + sp.nU + sp.nT ∧
      (∀ p, r.val p = - load false sp rhs (leCoeffs lam mu) p) ∧
      ∀ p q, j.val p q = dualMatrix false sp (leCoeffs lam mu) p q := by
  have hn : sp.m.nPhi = 0 := by rw [h.none]; rfl
  obtain ⟨r, j, h1, h2, h3, h4, h5⟩ := leVectorized_spec hf hn hd rhs lam mu
  refine ⟨r, j, ?_, h2, h3, ?_, h4, h5⟩
  · unfold evaluateLeVectorized
    simp only [readLeSpaces_eq hf h, h.rhs, h.lam, h.mu, entry, Res.bind_ok, h1]
  · unfold Spaces.total Spaces.nM
    rw [hn]
    omega

/-- C81: the law in the matrix is that of an isotropic material, which C78 inverts with `κ = μ`:
`Aσ : τ = (σ : τ - λ / (2μ + mλ) tr(σ) tr(τ)) / 2μ`; it sees the couple stress of no degree of
freedom. -/
theorem C81_law [CharZero K] {sp : Spaces K X} (hn : sp.m = noFunctions sp.s.dim)
    (lam mu : X → Nat → K) (i p q : Nat) :
    let c := leCoeffs lam mu sp.s.x i
    lawPower false sp.s.dim c (dofFields false sp c i q) (dofFields false sp c i p) =
      (contract sp.s.dim (dofFields false sp c i q).sig (dofFields false sp c i p).sig -
        lam sp.s.x i / (2 * mu sp.s.x i + (sp.s.dim : K) * lam sp.s.x i) *
          tr sp.s.dim (dofFields false sp c i q).sig * tr sp.s.dim (dofFields false sp c i p).sig) /
        (2 * mu sp.s.x i) ∧ (dofFields false sp c i p).mom = (fun _ _ => 0) ∧
      ∀ k, (dofFields false sp c i p).dmom k = 0 := by
  have hn : sp.m.nPhi = 0 := by rw [hn]; rfl
  refine ⟨?_, ?_, fun k => dmom_le hn _ _ _ _ _⟩
  · rw [lawPower_le hn]
    exact strain_same _ _ _ _ _
  · funext k l
    dsimp only [dofFields]
    exact comp_out (by rw [hn]; omega)

/-- C81: with `0 < μ`, `0 < 2μ + mλ` and positive weights the matrix is symmetric and positive on the
stresses. -/
theorem C81_saddle {K X : Type} [Field K] [LinearOrder K] [IsStrictOrderedRing K] {sp : Spaces K X}
    (hf : Fits sp) (hn : sp.m = noFunctions sp.s.dim) {lam mu : X → Nat → K}
    (hpos : ∀ i < sp.s.nPts, 0 < sp.s.det i * sp.s.weights i ∧ 0 < mu sp.s.x i ∧
      0 < 2 * mu sp.s.x i + (sp.s.dim : K) * lam sp.s.x i) :
    (∀ p q, dualMatrix false sp (leCoeffs lam mu) p q = dualMatrix false sp (leCoeffs lam mu) q p) ∧
    (∀ p q, sp.nS ≤ p → sp.nS ≤ q → dualMatrix false sp (leCoeffs lam mu) p q = 0) ∧
    ∀ v : Nat → K, (∀ p, sp.nS ≤ p → v p = 0) →
      0 ≤ ∑ p ∈ Finset.range sp.total, ∑ q ∈ Finset.range sp.total,
        v p * dualMatrix false sp (leCoeffs lam mu) p q * v q ∧
      (∑ p ∈ Finset.range sp.total, ∑ q ∈ Finset.range sp.total,
        v p * dualMatrix false sp (leCoeffs lam mu) p q * v q = 0 →
        ∀ i < sp.s.nPts, ∀ k < sp.s.dim, ∀ l < sp.s.dim,
          (fieldAt false sp (leCoeffs lam mu) v i).sig k l = 0) := by
  have e : sp.nS + sp.nM = sp.nS := by
    unfold Spaces.nM
    rw [hn]
    simp [noFunctions]
  obtain ⟨h1, _, h3, h4⟩ := C78_saddle false hf (leCoeffs lam mu)
  rw [e] at h3 h4
  refine ⟨h1, h3, fun v hv => ?_⟩
  have hp : ∀ i < sp.s.nPts, 0 < sp.s.det i * sp.s.weights i ∧
      Positive sp.s.dim (leCoeffs lam mu sp.s.x i) := by
    intro i hi
    obtain ⟨p1, p2, p3⟩ := hpos i hi
    exact ⟨p1, by constructor <;> first | exact p2 | exact p3 | exact one_pos⟩
  obtain ⟨h5, h6⟩ := h4 hp v hv
  exact ⟨h5, fun h0 i hi => (h6 h0 i hi).1⟩

/-- C81: the Riesz map has a zero residual and the matrix of the inner product
`∫ Aσ : σ' + div σ · div σ' + u · u' + θ · θ'`. -/
theorem C81_riesz [CharZero K] {spaces : Dict String (FSpace (Elem K X))} {fs : LeData K X}
    {iel : Nat} {sp : Spaces K X} {rhs : X → Nat → Nat → K} {lam mu : X → Nat → K} (hf : Fits sp)
    (h : LeInput spaces fs iel sp rhs lam mu) (hd : ∀ i < sp.s.nPts, sp.s.det i ≠ 0)
    (alpha : Nat → K) :
    ∃ j, evaluateLeRieszVectorized (some spaces) (some fs) iel alpha = .ok (Vec.zeros sp.total, j) ∧
      j.n = sp.total ∧ ∀ p q, j.val p q = rieszMatrix false sp (leCoeffs lam mu) p q := by
  have hn : sp.m.nPhi = 0 := by rw [h.none]; rfl
  obtain ⟨j, h1, h2, h3⟩ := leRieszVectorized_spec hf hn hd lam mu
  refine ⟨j, ?_, h2, h3⟩
  unfold evaluateLeRieszVectorized
  simp only [readLeSpaces_eq hf h, h.rhs, h.lam, h.mu, entry, Res.bind_ok, h1]

/-- C81: with positive weights and coefficients that inner product is positive, and zero only if the
stress, its divergence, the displacement and the rotation vanish in the quadrature points. -/
theorem C81_inner_product {K X : Type} [Field K] [LinearOrder K] [IsStrictOrderedRing K]
    {sp : Spaces K X} (hf : Fits sp) {lam mu : X → Nat → K}
    (hpos : ∀ i < sp.s.nPts, 0 < sp.s.det i * sp.s.weights i ∧ 0 < mu sp.s.x i ∧
      0 < 2 * mu sp.s.x i + (sp.s.dim : K) * lam sp.s.x i) (v : Nat → K) :
    (∀ p q, rieszMatrix false sp (leCoeffs lam mu) p q = rieszMatrix false sp (leCoeffs lam mu) q p) ∧
    0 ≤ ∑ p ∈ Finset.range sp.total, ∑ q ∈ Finset.range sp.total,
      v p * rieszMatrix false sp (leCoeffs lam mu) p q * v q ∧
    (∑ p ∈ Finset.range sp.total, ∑ q ∈ Finset.range sp.total,
      v p * rieszMatrix false sp (leCoeffs lam mu) p q * v q = 0 ↔
      ∀ i < sp.s.nPts, Vanishes sp.s.dim (fieldAt false sp (leCoeffs lam mu) v i)) := by
  obtain ⟨h1, _, h3⟩ := C79_inner_product false hf (leCoeffs lam mu)
  refine ⟨h1, h3 (fun i hi => ?_) v⟩
  obtain ⟨p1, p2, p3⟩ := hpos i hi
  exact ⟨p1, by constructor <;> first | exact p2 | exact p3 | exact one_pos⟩

/-- C81: a missing space or missing functions are refused with `ValueError`, a missing field or
coefficient with `KeyError`. -/
theorem C81_unset_refused (space : Option (Dict String (FSpace (Elem K X))))
    (functions : Option (LeData K X)) (iel : Nat) (alpha : Nat → K) :
    (space = none ∨ functions = none →
      evaluateLeVectorized space functions iel alpha = .error .valueError ∧
      evaluateLeRieszVectorized space functions iel alpha = .error .valueError) ∧
    (∀ spaces fs, space = some spaces → functions = some fs →
      (∃ n ∈ ["s", "u", "t"], spaces.getItem n = .error .keyError) →
      evaluateLeVectorized space functions iel alpha = .error .keyError ∧
      evaluateLeRieszVectorized space functions iel alpha = .error .keyError) ∧
    ∀ spaces fs sp, space = some spaces → functions = some fs → readLeSpaces spaces iel = .ok sp →
      fs.rhs = none ∨ fs.lam = none ∨ fs.mu = none →
      evaluateLeVectorized space functions iel alpha = .error .keyError ∧
      evaluateLeRieszVectorized space functions iel alpha = .error .keyError := by
  refine ⟨?_, ?_, ?_⟩
  · rintro (rfl | rfl)
    · exact ⟨rfl, rfl⟩
    · cases space <;> exact ⟨rfl, rfl⟩
  · rintro spaces fs rfl rfl ⟨n, hn, h⟩
    have e : readLeSpaces spaces iel = .error .keyError := by
      unfold readLeSpaces
      rcases getItem_error spaces "s" with ⟨ss, h1⟩ | h1
      · rcases getItem_error spaces "u" with ⟨us, h3⟩ | h3
        · rcases getItem_error spaces "t" with ⟨ts, h4⟩ | h4
          · simp only [List.mem_cons, List.not_mem_nil, or_false] at hn
            rcases hn with rfl | rfl | rfl <;> simp_all
          · simp only [h1, h3, h4, Res.bind_ok]; rfl
        · simp only [h1, h3, Res.bind_ok]; rfl
      · simp only [h1]; rfl
    unfold evaluateLeVectorized evaluateLeRieszVectorized
    simp only [e]
    exact ⟨rfl, rfl⟩
  · rintro spaces fs sp rfl rfl hs h
    unfold evaluateLeVectorized evaluateLeRieszVectorized
    simp only [hs, Res.bind_ok]
    obtain ⟨a1, a2, a3⟩ := fs
    cases a1 <;> [exact ⟨rfl, rfl⟩; skip]
    cases a2 <;> [exact ⟨rfl, rfl⟩; skip]
    cases a3 <;> [exact ⟨rfl, rfl⟩; skip]
    simp at h

/-- C81 fails for `evaluate_form`: it raises on every product space, because it unpacks the list of
four quadratures into two variables. -/
theorem C81_raises_violated {Q : Type} {rule : Nat → Q} {dims : List Nat} {l : List (Option Q)}
    (h : spaceQuadrature rule dims = .ok l) (riesz : Bool)
    (space : Option (Dict String (FSpace (Elem K X)))) (functions : Option (LeData K X)) (iel : Nat)
    (rest : Option Q → Option Q → Res (Vec K × Mat K)) :
    ∃ e, evaluateLeForm riesz l space functions iel rest = .error e := by
  have hl := spaceQuadrature_length h
  have hu : unpackTwo l = .error .valueError := by
    match l, hl with
    | [a, b, c, d], _ => rfl
  cases space with
  | none => exact ⟨.valueError, rfl⟩
  | some spaces =>
    cases functions with
    | none => exact ⟨.valueError, rfl⟩
    | some fs =>
      unfold evaluateLeForm
      dsimp only
      rw [hu]
      cases readLeSpaces spaces iel with
      | error e => exact ⟨e, rfl⟩
      | ok sp =>
        obtain ⟨a1, a2, a3⟩ := fs
        cases riesz <;> cases a1 <;> cases a2 <;> cases a3 <;> exact ⟨_, rfl⟩

/-! ### Examples -/

/-- The element of the example of C78, without couple stress. -/
def leCell : Spaces ℚ Unit := { cell with m := noFunctions 2 }

theorem leCell_fits : Fits leCell :=
  ⟨.inl rfl, le_rfl, le_rfl, le_rfl, le_rfl, rfl, rfl, rfl, rfl⟩

/-- The data of the example. -/
def leData : LeData ℚ Unit := ⟨some fun _ _ _ => 4, some fun _ _ => 3, some fun _ _ => 2⟩

theorem leCell_input : LeInput cellSpaces leData 0 leCell (fun _ _ _ => 4) (fun _ _ => 3)
    (fun _ _ => 2) :=
  ⟨⟨_, rfl, rfl, rfl⟩, ⟨_, _, rfl, rfl, rfl, rfl⟩, ⟨_, _, rfl, rfl, rfl, rfl⟩, rfl, rfl, rfl, rfl⟩

theorem leCell_positive : ∀ i < leCell.s.nPts, 0 < leCell.s.det i * leCell.s.weights i ∧ (0 : ℚ) < 2 ∧
    (0 : ℚ) < 2 * 2 + (leCell.s.dim : ℚ) * 3 := by
  intro i _
  norm_num [leCell, cell]

/-- Entries: stress with itself, where the trace enters, displacement and rotation with stress. -/
example : ∃ r j, evaluateLeVectorized (some cellSpaces) (some leData) 0 (fun _ => 0) = .ok (r, j) ∧
    r.n = 7 ∧ r.val 4 = -2 ∧ j.val 2 2 = 7 / 80 ∧ j.val 3 3 = 1 / 8 ∧ j.val 4 0 = 1 ∧
    j.val 6 0 = 1 / 6 ∧ j.val 6 6 = 0 := by
  obtain ⟨r, j, h, hn, _, _, hr, hj⟩ := C81_vectorized leCell_fits leCell_input
    (fun _ _ => one_ne_zero) (fun _ => 0)
  refine ⟨r, j, h, hn, ?_, ?_, ?_, ?_, ?_, ?_⟩
  · rw [hr]; decide +kernel
  all_goals rw [hj]; decide +kernel

example : ∃ j, evaluateLeRieszVectorized (some cellSpaces) (some leData) 0 (fun _ => 0) =
    .ok (Vec.zeros 7, j) ∧ j.val 4 4 = 1 / 2 ∧ j.val 3 3 = 1 / 8 ∧ j.val 4 0 = 0 := by
  obtain ⟨j, h, _, hj⟩ := C81_riesz leCell_fits leCell_input (fun _ _ => one_ne_zero) (fun _ => 0)
  refine ⟨j, h, ?_, ?_, ?_⟩ <;> rw [hj] <;> decide +kernel

example (v : Nat → ℚ) (hv : ∀ p, 4 ≤ p → v p = 0) :
    0 ≤ ∑ p ∈ Finset.range 7, ∑ q ∈ Finset.range 7,
      v p * dualMatrix false leCell (leCoeffs (fun _ _ => 3) fun _ _ => 2) p q * v q :=
  ((C81_saddle leCell_fits rfl leCell_positive).2.2 v hv).1

example (v : Nat → ℚ) : 0 ≤ ∑ p ∈ Finset.range 7, ∑ q ∈ Finset.range 7,
    v p * rieszMatrix false leCell (leCoeffs (fun _ _ => 3) fun _ _ => 2) p q * v q :=
  (C81_inner_product leCell_fits leCell_positive v).2.1

example : ∃ e, evaluateLeForm (K := ℚ) true [some 0, some 1, some 2, none] (some cellSpaces)
    (some leData) 0 (fun _ _ => .ok (Vec.zeros 7, zeros2 7)) = .error e :=
  C81_raises_violated (rule := fun d => d) (dims := [2]) rfl true _ _ _ _

#print axioms C81_vectorized
#print axioms C81_law
#print axioms C81_saddle
#print axioms C81_riesz
#print axioms C81_inner_product
#print axioms C81_unset_refused
#print axioms C81_raises_violated

end Verif.Dual
