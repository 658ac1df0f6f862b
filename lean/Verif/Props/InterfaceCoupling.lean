/-
Property theorems C111: the coupling of a fracture in scaled variables.
-/
import Verif.Lemmas.InterfaceCoupling
import Mathlib.Tactic.NormNum

namespace Verif.Interface
open Assembly L2Form Laplace Coupling
open Strong.Arbogast (quot root)

variable {X : Type} {close : ℝ → ℝ → Bool} {closeX : X → X → Bool} {p n : Side ℝ X}

/-- C111: for matching sides and factors that are numbers `evaluate_form` returns the residual and the matrix of the
coupling with these factors. -/
theorem C111_form (hm : Matching close closeX p n) (hs : Shapes p n) {dim : Nat} (hd : 0 < dim) {mu kappa delta dPhi
    porosity : X → Nat → ℝ} {robin exchange : Nat → ℝ} (hf : ∀ i < n.nPts,
      factors (mu n.x i) (kappa n.x i) (delta n.x i) (porosity n.x i) (dPhi n.x i) = some (robin i, exchange i))
    (alpha : Nat → ℝ) :
    ∃ r j, evaluateForm close closeX ⟨some mu, some kappa, some delta, some dPhi, some porosity⟩ p n dim 1 1 alpha =
        .ok (some (r, j)) ∧
      r.n = p.dofs.length + n.dofs.length + n.pTab.nPhi ∧ j.n = p.dofs.length + n.dofs.length + n.pTab.nPhi ∧
      (∀ a < r.n, r.val a = ∑ b ∈ Finset.range (size p n), scaledMatrix p n dim robin exchange a b * alpha b) ∧
      ∀ a < j.n, ∀ b < j.n, j.val a b = scaledMatrix p n dim robin exchange a b := by
  obtain ⟨r, h1, h2, h3⟩ := form_spec hm hs hd ⟨mu, kappa, delta, dPhi, porosity⟩ (adVar alpha)
  have hc : ∀ i < n.nPts, (Coefficients.mk mu kappa delta dPhi porosity).at n.x i = some (robin i, exchange i) := hf
  have hall : ((List.range n.nPts).all fun i =>
      ((Coefficients.mk mu kappa delta dPhi porosity).at n.x i).isSome) = true := by
    rw [List.all_eq_true]
    intro i hi
    rw [hc i (List.mem_range.1 hi)]
    rfl
  rw [hall, if_pos rfl] at h1
  have hM : ∀ a b, scaledMatrix p n dim
      (fun i => (((Coefficients.mk mu kappa delta dPhi porosity).at n.x i).getD (0, 0)).1)
      (fun i => (((Coefficients.mk mu kappa delta dPhi porosity).at n.x i).getD (0, 0)).2) a b =
      scaledMatrix p n dim robin exchange a b := by
    intro a b
    refine Finset.sum_congr rfl fun i hi => ?_
    dsimp only
    rw [hc i (Finset.mem_range.1 hi)]
    rfl
  refine ⟨(valDer r).1, (valDer r).2, ?_, h2, h2, ?_, ?_⟩
  · show (do
      let r ← form close closeX p n dim 1 1 ⟨mu, kappa, delta, dPhi, porosity⟩ (adVar alpha)
      pure (r.map valDer)) = _
    rw [h1]
    rfl
  · intro a ha
    show (r.val a).fst = _
    have := fst_affine (size p n) (scaledMatrix p n dim robin exchange a) 0 alpha
    rw [h3 a (h2 ▸ ha)]
    simp only [hM]
    simpa using this
  · intro a ha b hb
    show (r.val a).snd b = _
    have := snd_affine (size p n) (scaledMatrix p n dim robin exchange a) 0 alpha b (h2 ▸ hb)
    rw [h3 a (h2 ▸ ha)]
    simp only [hM]
    simpa using this

/-- C111: a factor that is not a number makes the result one. -/
theorem C111_undefined (hm : Matching close closeX p n) (hs : Shapes p n) {dim : Nat} (hd : 0 < dim) {mu kappa delta dPhi
    porosity : X → Nat → ℝ} {i : Nat} (hi : i < n.nPts)
    (hf : factors (mu n.x i) (kappa n.x i) (delta n.x i) (porosity n.x i) (dPhi n.x i) = none) (alpha : Nat → ℝ) :
    evaluateForm close closeX ⟨some mu, some kappa, some delta, some dPhi, some porosity⟩ p n dim 1 1 alpha =
      .ok none := by
  obtain ⟨r, h1, -⟩ := form_spec hm hs hd ⟨mu, kappa, delta, dPhi, porosity⟩ (adVar alpha)
  have hall : ((List.range n.nPts).all fun i =>
      ((Coefficients.mk mu kappa delta dPhi porosity).at n.x i).isSome) = false := by
    rw [List.all_eq_false]
    refine ⟨i, List.mem_range.2 hi, ?_⟩
    rw [show (Coefficients.mk mu kappa delta dPhi porosity).at n.x i = none from hf]
    simp
  rw [hall] at h1
  show (do
    let r ← form close closeX p n dim 1 1 ⟨mu, kappa, delta, dPhi, porosity⟩ (adVar alpha)
    pure (r.map valDer)) = _
  rw [h1]
  rfl

/-- C111: the factors. Where the porosity is more than `1e-8` they are `√φ d / α` with `α = 2 κ φ² / (μ δ)`, and `d / √φ`;
below, `√φ d` and `d`; a negative porosity has none, and neither have a zero viscosity and a zero width. -/
theorem C111_factors {mu kappa delta phi d : ℝ} :
    (1 / 10 ^ 8 < phi → 0 < mu → 0 < kappa → delta ≠ 0 →
      factors mu kappa delta phi d = some (√phi * d / (2 * kappa * phi ^ 2 / (mu * delta)), d / √phi)) ∧
    (0 ≤ phi → phi ≤ 1 / 10 ^ 8 → factors mu kappa delta phi d = some (√phi * d, d)) ∧
    (phi < 0 → factors mu kappa delta phi d = none) ∧
    (1 / 10 ^ 8 < phi → mu = 0 ∨ delta = 0 → factors mu kappa delta phi d = none) := by
  refine ⟨?_, ?_, ?_, ?_⟩
  · intro h hmu hk hd
    have hphi : 0 < phi := lt_trans (by norm_num) h
    have h1 : ¬|phi| ≤ 1 / 10 ^ 8 ∧ 0 < phi := ⟨by rw [abs_of_pos hphi]; exact not_le.2 h, hphi⟩
    have h2 : 0 < kappa * phi ^ 2 / mu := by positivity
    unfold factors
    simp only [if_pos h1]
    unfold quot root
    simp only [if_neg hmu.ne', Option.bind_eq_bind, Option.bind_some, if_neg h2.not_gt]
    have h3 : √(kappa * phi ^ 2 / mu) ^ 2 = kappa * phi ^ 2 / mu := Real.sq_sqrt h2.le
    have h4 : delta / 2 ≠ 0 := div_ne_zero hd two_ne_zero
    rw [if_neg h4]
    simp only [Option.bind_some, if_neg hphi.not_gt]
    have h5 : kappa * phi ^ 2 / mu / (delta / 2) = 2 * kappa * phi ^ 2 / (mu * delta) := by
      field_simp
    rw [h3, if_neg (div_ne_zero h2.ne' h4), h5]
    simp only [Option.bind_some, if_neg (Real.sqrt_pos.2 hphi).ne', Option.pure_def]
  · intro h0 h
    have h1 : ¬(¬|phi| ≤ 1 / 10 ^ 8 ∧ 0 < phi) := by
      rw [abs_of_nonneg h0]
      exact fun ⟨a, _⟩ => a h
    unfold factors root
    simp only [if_neg h1, if_neg h0.not_gt, Option.bind_eq_bind, Option.bind_some, Option.pure_def]
  · intro h
    have h1 : ¬(¬|phi| ≤ 1 / 10 ^ 8 ∧ 0 < phi) := fun ⟨_, a⟩ => absurd a h.not_gt
    unfold factors root
    simp only [if_neg h1, if_pos h, Option.bind_eq_bind, Option.bind_none]
  · intro h h0
    have hphi : 0 < phi := lt_trans (by norm_num) h
    have h1 : ¬|phi| ≤ 1 / 10 ^ 8 ∧ 0 < phi := ⟨by rw [abs_of_pos hphi]; exact not_le.2 h, hphi⟩
    unfold factors
    simp only [if_pos h1, Option.bind_eq_bind]
    rcases h0 with rfl | rfl
    · simp [quot]
    · cases (quot (kappa * phi ^ 2) mu).bind root <;> simp [quot]

theorem scaledPairing_comm (c b : ℝ) (u v : Fields ℝ) : scaledPairing c b u v = scaledPairing c b v u := by
  unfold scaledPairing
  ring

/-- C111: the matrix is symmetric. -/
theorem C111_symmetric (p n : Side ℝ X) (dim : Nat) (c b : Nat → ℝ) (k l : Nat) :
    scaledMatrix p n dim c b k l = scaledMatrix p n dim c b l k :=
  Finset.sum_congr rfl fun i _ => by rw [scaledPairing_comm]

/-- C111: with the physical fields `u = d v` and `p = q / √φ` the coupling of C110 with the coefficient `1 / α` becomes
the scaled one with the factors `d² / α` and `d / √φ`. -/
theorem C111_variables (p n : Side ℝ X) (dim : Nat) (alpha d s : Nat → ℝ) (k l : Nat) :
    physicalMatrix p n dim alpha d s 1 k l =
      scaledMatrix p n dim (fun i => d i ^ 2 / alpha i) (fun i => d i / s i) k l := by
  refine Finset.sum_congr rfl fun i _ => ?_
  unfold pairing physical scaledPairing
  ring

/-- C111, disagreement: the factor of the flux is `√φ d / α` and not `d² / α`; they are equal only for `d = 0` and for
`d = √φ`. -/
theorem C111_robin_violated {mu kappa delta phi d : ℝ} (h : 1 / 10 ^ 8 < phi) (hmu : 0 < mu) (hk : 0 < kappa)
    (hd : delta ≠ 0) :
    ∃ c b, factors mu kappa delta phi d = some (c, b) ∧ b = d / √phi ∧
      (c = d ^ 2 / (2 * kappa * phi ^ 2 / (mu * delta)) ↔ d = 0 ∨ d = √phi) := by
  refine ⟨_, _, C111_factors.1 h hmu hk hd, rfl, ?_⟩
  have hphi : 0 < phi := lt_trans (by norm_num) h
  have ha : 2 * kappa * phi ^ 2 / (mu * delta) ≠ 0 := by positivity
  rw [div_left_inj' ha]
  constructor
  · intro e
    by_cases h0 : d = 0
    · exact .inl h0
    · right
      rw [pow_two] at e
      exact (mul_right_cancel₀ h0 e).symm
  · rintro (rfl | h)
    · ring
    · rw [← h]
      ring

/-- The numbers of the script in the origin: porosity `1/10`, mobility `1/10`, width `1/10`. The factor of the flux is more
than three times the right one. -/
example : ∃ c b : ℝ, factors 1 1 (1 / 10) (1 / 10) (1 / 10) = some (c, b) ∧
    3 * ((1 / 10) ^ 2 / (2 * 1 * (1 / 10) ^ 2 / (1 * (1 / 10)))) < c := by
  refine ⟨_, _, C111_factors.1 (by norm_num) one_pos one_pos (by norm_num), ?_⟩
  have : (3 / 10 : ℝ) < √(1 / 10) := (Real.lt_sqrt (by norm_num)).2 (by norm_num)
  have e : √(1 / 10) * (1 / 10) / (2 * 1 * (1 / 10) ^ 2 / (1 * (1 / 10))) = √(1 / 10) / (2 : ℝ) := by
    ring
  rw [e]
  norm_num at this ⊢
  linarith

/-- C111, disagreement: for a small positive porosity the factor of the pressure is `d` and not `d / √φ`, more than ten
thousand times too small. -/
theorem C111_threshold_violated {mu kappa delta phi d : ℝ} (h0 : 0 < phi) (h : phi ≤ 1 / 10 ^ 8) (hd : 0 < d) :
    ∃ c b, factors mu kappa delta phi d = some (c, b) ∧ 10 ^ 4 * b ≤ d / √phi := by
  refine ⟨_, _, C111_factors.2.1 h0.le h, ?_⟩
  have hs : 0 < √phi := Real.sqrt_pos.2 h0
  have : √phi ≤ 1 / 10 ^ 4 := Real.sqrt_le_iff.2 ⟨by norm_num, by norm_num at h ⊢; exact h⟩
  rw [le_div_iff₀ hs]
  nlinarith

/-- C111, disagreement: as in C110 the exchange has the sign plus in the balance of the fracture: in the rows of the
pressure the matrix is the negative of that of the law of Robin with the sign of the conservation of mass. -/
theorem C111_conservation_violated (p n : Side ℝ X) (dim : Nat) (alpha d s c : Nat → ℝ) {k l : Nat}
    (hk : p.dofs.length + n.dofs.length ≤ k) :
    scaledMatrix p n dim c (fun i => d i / s i) k l = -physicalMatrix p n dim alpha d s (-1) k l := by
  unfold scaledMatrix physicalMatrix
  rw [← Finset.sum_neg_distrib]
  refine Finset.sum_congr rfl fun i _ => ?_
  have hf : dofFields p n dim i k = ⟨0, 0, n.pTab.val 0 i (k - (p.dofs.length + n.dofs.length)) 0⟩ := by
    unfold dofFields
    rw [if_neg (by omega), if_neg (by omega)]
  rw [hf]
  unfold scaledPairing pairing physical
  ring

/-- C111: without one of the five functions the form raises a `KeyError`; if the sides do not match, an
`AssertionError`; if a position of a facet's degree of freedom does not exist, an `IndexError`. -/
theorem C111_errors (fs : Data X) (mu kappa delta dPhi porosity : X → Nat → ℝ) (dim vComp qComp : Nat)
    (alpha : Nat → ℝ) :
    (fs.mu = none ∨ fs.kappa = none ∨ fs.delta = none ∨ fs.dPhi = none ∨ fs.porosity = none →
      evaluateForm close closeX fs p n dim vComp qComp alpha = .error .keyError) ∧
    (closeTabs close p n = false ∨ closeX p.x n.x = false ∨ closeVecs close p.nPts p.weights n.weights = false ∨
        closeVecs close p.nPts p.det n.det = false →
      evaluateForm close closeX ⟨some mu, some kappa, some delta, some dPhi, some porosity⟩ p n dim vComp qComp alpha =
        .error .assertionError) ∧
    (closeTabs close p n = true → closeX p.x n.x = true → closeVecs close p.nPts p.weights n.weights = true →
      closeVecs close p.nPts p.det n.det = true → (∃ d ∈ p.dofs, p.trace.nPhi ≤ d) ∨ (∃ d ∈ n.dofs, n.trace.nPhi ≤ d) →
      evaluateForm close closeX ⟨some mu, some kappa, some delta, some dPhi, some porosity⟩ p n dim vComp qComp alpha =
        .error .indexError) ∧
    (closeTabs close p n = true → closeX p.x n.x = true → closeVecs close p.nPts p.weights n.weights = true →
      closeVecs close p.nPts p.det n.det = true → (∀ d ∈ p.dofs, d < p.trace.nPhi) → (∀ d ∈ n.dofs, d < n.trace.nPhi) →
      p.dofs.length ≠ n.dofs.length →
      evaluateForm close closeX ⟨some mu, some kappa, some delta, some dPhi, some porosity⟩ p n dim vComp qComp alpha =
        .error .assertionError) := by
  refine ⟨?_, ?_, ?_, ?_⟩
  · intro h
    unfold evaluateForm
    rcases fs with ⟨a, b, c, d, e⟩
    simp only at h
    cases a <;> cases b <;> cases c <;> cases d <;> cases e <;> first | rfl | simp at h
  · intro h
    show (do
      let r ← form close closeX p n dim vComp qComp ⟨mu, kappa, delta, dPhi, porosity⟩ (adVar alpha)
      pure (r.map valDer)) = _
    have : form close closeX p n dim vComp qComp ⟨mu, kappa, delta, dPhi, porosity⟩ (adVar alpha) =
        .error .assertionError := by
      unfold form
      cases h1 : closeTabs close p n
      · rfl
      cases h2 : closeX p.x n.x
      · rfl
      cases h3 : closeVecs close p.nPts p.weights n.weights
      · rfl
      cases h4 : closeVecs close p.nPts p.det n.det
      · rfl
      simp [h1, h2, h3, h4] at h
    rw [this]
    rfl
  · intro h1 h2 h3 h4 h
    show (do
      let r ← form close closeX p n dim vComp qComp ⟨mu, kappa, delta, dPhi, porosity⟩ (adVar alpha)
      pure (r.map valDer)) = _
    have : form close closeX p n dim vComp qComp ⟨mu, kappa, delta, dPhi, porosity⟩ (adVar alpha) =
        .error .indexError := by
      unfold form
      rw [h1, h2, h3, h4]
      cases h5 : p.dofs.any fun d => decide (p.trace.nPhi ≤ d)
      · have h6 : (n.dofs.any fun d => decide (n.trace.nPhi ≤ d)) = true := by
          rcases h with ⟨d, hd, hle⟩ | ⟨d, hd, hle⟩
          · exact absurd (decide_eq_true hle) (List.any_eq_false.1 h5 d hd)
          · exact List.any_eq_true.2 ⟨d, hd, by simpa using hle⟩
        rw [h6]
        rfl
      · rfl
    rw [this]
    rfl
  · intro h1 h2 h3 h4 h5 h6 h
    show (do
      let r ← form close closeX p n dim vComp qComp ⟨mu, kappa, delta, dPhi, porosity⟩ (adVar alpha)
      pure (r.map valDer)) = _
    have : form close closeX p n dim vComp qComp ⟨mu, kappa, delta, dPhi, porosity⟩ (adVar alpha) =
        .error .assertionError := by
      unfold form
      rw [h1, h2, h3, h4, any_false h5, any_false h6]
      simp only [Bool.not_true, Bool.false_eq_true, if_false, ne_eq, h, not_false_eq_true, if_true]
      rfl
    rw [this]
    rfl

/-! ### A concrete case -/

namespace Example

/-- One point, one flux per side with the value `(0, 1)`, one constant pressure; the normals are `(0, 1)` below the
fracture and `(0, -1)` above it. -/
def below : Side ℝ Unit :=
  ⟨⟨0, 1, 2, fun _ _ _ d => if d = 1 then 1 else 0⟩, [0], fun d => if d = 1 then 1 else 0,
    ⟨0, 1, 1, fun _ _ _ _ => 1⟩, 1, (), fun _ => 1, fun _ => 1⟩

def above : Side ℝ Unit := { below with normal := fun d => if d = 1 then -1 else 0 }

theorem matching : Matching (fun _ _ => true) (fun _ _ => true) below above := by
  refine ⟨?_, rfl, ?_, ?_, rfl⟩ <;> simp [closeTabs, closeVecs, below, above]

theorem shapes : Shapes below above := by
  refine ⟨?_, ?_, rfl⟩ <;> simp [below, above]

/-- Porosity four and mobility one: the factors are `√4 · 1 / (2 · 1 · 4² / (1 · 1)) = 1/16` and `1/2`. -/
example : ∃ r j, evaluateForm (fun _ _ => true) (fun _ _ => true)
      ⟨some fun _ _ => 1, some fun _ _ => 1, some fun _ _ => 1, some fun _ _ => 1, some fun _ _ => 4⟩ below above 2 1 1
      (fun _ => 1) = .ok (some (r, j)) ∧ j.val 0 0 = 1 / 16 ∧ j.val 0 2 = 1 / 2 ∧ j.val 2 1 = -1 / 2 := by
  have h4 : √(4 : ℝ) = 2 := by
    rw [show (4 : ℝ) = 2 ^ 2 by norm_num]
    exact Real.sqrt_sq two_pos.le
  obtain ⟨r, j, h1, h2, h3, h4, h5⟩ := C111_form (mu := fun _ _ => 1) (kappa := fun _ _ => 1) (delta := fun _ _ => 1)
    (dPhi := fun _ _ => 1) (porosity := fun _ _ => 4) (robin := fun _ => 1 / 16) (exchange := fun _ => 1 / 2)
    matching shapes (dim := 2) two_pos
    (fun i _ => by
      rw [C111_factors.1 (by norm_num) one_pos one_pos one_ne_zero, h4]
      norm_num) (fun _ => 1)
  have hn : j.n = 3 := h3
  refine ⟨r, j, h1, ?_, ?_, ?_⟩
  · rw [h5 0 (by omega) 0 (by omega)]
    simp [scaledMatrix, dofFields, scaledPairing, below, above, Side.normalFlux, Finset.sum_range_succ]
  · rw [h5 0 (by omega) 2 (by omega)]
    simp [scaledMatrix, dofFields, scaledPairing, below, above, Side.normalFlux, Finset.sum_range_succ]
  · rw [h5 2 (by omega) 1 (by omega)]
    simp [scaledMatrix, dofFields, scaledPairing, below, above, Side.normalFlux, Finset.sum_range_succ]
    norm_num

end Example

#print axioms C111_form
#print axioms C111_undefined
#print axioms C111_factors
#print axioms C111_symmetric
#print axioms C111_variables
#print axioms C111_robin_violated
#print axioms C111_threshold_violated
#print axioms C111_conservation_violated
#print axioms C111_errors

end Verif.Interface
