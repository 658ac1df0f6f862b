/-
Property theorems C110: the coupling of the two sides of a fracture with the pressure in the fracture.
-/
import Verif.Lemmas.Coupling
import Mathlib.Algebra.Order.BigOperators.Ring.Finset
import Mathlib.Tactic.NormNum

namespace Verif.Coupling
open Assembly L2Form Laplace

section
variable {K X : Type} [Field K] {close : K → K → Bool} {closeX : X → X → Bool} {p n : Side K X}

/-- C110: for matching sides `evaluate_form` returns the residual and the matrix of the law of Robin on both sides, with
the coefficient `δ / (2 κ)`, and of the sum of the two fluxes that leave the bulk, with the sign plus, in the balance of
the fracture. -/
theorem C110_form (hm : Matching close closeX p n) (hs : Shapes p n) {dim : Nat} (hd : 0 < dim)
    (kappa delta : X → Nat → K) (alpha : Nat → K) :
    ∃ r j, evaluateForm close closeX ⟨some kappa, some delta⟩ p n dim 1 1 alpha = .ok (r, j) ∧
      r.n = p.dofs.length + n.dofs.length + n.pTab.nPhi ∧ j.n = p.dofs.length + n.dofs.length + n.pTab.nPhi ∧
      (∀ a < r.n, r.val a = ∑ b ∈ Finset.range (size p n),
        couplingMatrix p n dim (fun i => 1 / (kappa n.x i / (delta n.x i / 2))) 1 a b * alpha b) ∧
      ∀ a < j.n, ∀ b < j.n, j.val a b =
        couplingMatrix p n dim (fun i => 1 / (kappa n.x i / (delta n.x i / 2))) 1 a b := by
  obtain ⟨r, h1, h2, h3⟩ := form_spec hm hs hd kappa delta (adVar alpha)
  refine ⟨(valDer r).1, (valDer r).2, ?_, h2, h2, ?_, ?_⟩
  · show (do
      let r ← form close closeX p n dim 1 1 kappa delta (adVar alpha)
      pure (valDer r)) = _
    rw [h1]
    rfl
  · intro a ha
    show (r.val a).fst = _
    have := fst_affine (size p n)
      (couplingMatrix p n dim (fun i => 1 / (kappa n.x i / (delta n.x i / 2))) 1 a) 0 alpha
    rw [h3 a (h2 ▸ ha)]
    simpa using this
  · intro a ha b hb
    show (r.val a).snd b = _
    have := snd_affine (size p n)
      (couplingMatrix p n dim (fun i => 1 / (kappa n.x i / (delta n.x i / 2))) 1 a) 0 alpha b (h2 ▸ hb)
    rw [h3 a (h2 ▸ ha)]
    simpa using this

/-- C110: the coefficient is `δ / (2 κ)`. -/
theorem C110_coefficient (kappa delta : K) : 1 / (kappa / (delta / 2)) = delta / (2 * kappa) := by
  rw [one_div_div, div_div]

theorem pairing_comm (c : K) (u v : Fields K) : pairing c 1 u v = pairing c 1 v u := by
  unfold pairing
  ring

/-- C110: the matrix is symmetric. -/
theorem C110_symmetric (p n : Side K X) (dim : Nat) (c : Nat → K) (a b : Nat) :
    couplingMatrix p n dim c 1 a b = couplingMatrix p n dim c 1 b a :=
  Finset.sum_congr rfl fun i _ => by rw [pairing_comm]

theorem pairing_combine (c s : K) (m : Nat) (x y : Nat → K) (f : Nat → Fields K) :
    pairing c s (combine m x f) (combine m y f) =
      ∑ a ∈ Finset.range m, ∑ b ∈ Finset.range m, y a * x b * pairing c s (f b) (f a) := by
  have e : ∀ g h : Fields K → K, (∑ b ∈ Finset.range m, x b * g (f b)) * (∑ a ∈ Finset.range m, y a * h (f a)) =
      ∑ a ∈ Finset.range m, ∑ b ∈ Finset.range m, y a * x b * (g (f b) * h (f a)) := by
    intro g h
    rw [mul_comm, Finset.sum_mul_sum]
    refine Finset.sum_congr rfl fun a _ => Finset.sum_congr rfl fun b _ => ?_
    ring
  unfold pairing combine
  dsimp only
  rw [mul_add, mul_add, add_mul, e (·.fluxP) (·.fluxP), e (·.fluxN) (·.fluxN), e (·.pres) (·.fluxP),
    e (·.pres) (·.fluxN), e (·.fluxP) (·.pres), e (·.fluxN) (·.pres)]
  simp only [Finset.mul_sum, ← Finset.sum_add_distrib]
  refine Finset.sum_congr rfl fun a _ => Finset.sum_congr rfl fun b _ => ?_
  ring

/-- C110: the matrix between two vectors is the integral of the pairing of their fields. -/
theorem C110_bilinear (p n : Side K X) (dim : Nat) (c : Nat → K) (s : K) (m : Nat) (x y : Nat → K) :
    ∑ a ∈ Finset.range m, y a * ∑ b ∈ Finset.range m, couplingMatrix p n dim c s a b * x b =
      ∑ i ∈ Finset.range n.nPts, n.det i * n.weights i *
        pairing (c i) s (combine m x (dofFields p n dim i)) (combine m y (dofFields p n dim i)) := by
  simp only [pairing_combine, couplingMatrix, Finset.mul_sum, Finset.sum_mul]
  symm
  rw [Finset.sum_comm]
  refine Finset.sum_congr rfl fun a _ => ?_
  rw [Finset.sum_comm]
  exact Finset.sum_congr rfl fun b _ => Finset.sum_congr rfl fun i _ => by ring

/-- C110: in the balance of the fracture, tested with the pressure `y`, the form adds the integral of the two fluxes that
leave the bulk. -/
theorem C110_exchange (p n : Side K X) (dim : Nat) (c : Nat → K) (m : Nat) (x y : Nat → K)
    (hy : ∀ i < n.nPts, (combine m y (dofFields p n dim i)).fluxP = 0 ∧
      (combine m y (dofFields p n dim i)).fluxN = 0) :
    ∑ a ∈ Finset.range m, y a * ∑ b ∈ Finset.range m, couplingMatrix p n dim c 1 a b * x b =
      ∑ i ∈ Finset.range n.nPts, n.det i * n.weights i *
        (((combine m x (dofFields p n dim i)).fluxP + (combine m x (dofFields p n dim i)).fluxN) *
          (combine m y (dofFields p n dim i)).pres) := by
  rw [C110_bilinear]
  refine Finset.sum_congr rfl fun i hi => ?_
  obtain ⟨h1, h2⟩ := hy i (Finset.mem_range.1 hi)
  unfold pairing
  rw [h1, h2]
  ring

/-- C110, disagreement: what leaves the bulk enters the fracture, so it is a source there and belongs into the balance
`div u_f - f` of the fracture with the sign minus. In the rows of the pressure the matrix is the negative of that
one; they differ whenever a flux leaves the bulk (in characteristic zero). -/
theorem C110_conservation_violated [CharZero K] (p n : Side K X) (dim : Nat) (c : Nat → K) {a b : Nat}
    (ha : p.dofs.length + n.dofs.length ≤ a) :
    couplingMatrix p n dim c 1 a b = -couplingMatrix p n dim c (-1) a b ∧
      (couplingMatrix p n dim c 1 a b ≠ 0 → couplingMatrix p n dim c 1 a b ≠ couplingMatrix p n dim c (-1) a b) := by
  have e : couplingMatrix p n dim c 1 a b = -couplingMatrix p n dim c (-1) a b := by
    unfold couplingMatrix
    rw [← Finset.sum_neg_distrib]
    refine Finset.sum_congr rfl fun i _ => ?_
    have hf : dofFields p n dim i a = ⟨0, 0, n.pTab.val 0 i (a - (p.dofs.length + n.dofs.length)) 0⟩ := by
      unfold dofFields
      rw [if_neg (by omega), if_neg (by omega)]
    rw [hf]
    unfold pairing
    ring
  refine ⟨e, fun h0 h => h0 ?_⟩
  rw [← h] at e
  exact self_eq_neg.1 e

end

section
variable {K X : Type} [Field K] [LinearOrder K] [IsStrictOrderedRing K]

/-- C110: the energy of the form with the sign of the balance is the work of Robin's law, which is not negative; the form
of the code adds twice the pressure times the flux. -/
theorem C110_energy (p n : Side K X) (dim : Nat) (c : Nat → K) (m : Nat) (x : Nat → K) :
    (∑ a ∈ Finset.range m, x a * ∑ b ∈ Finset.range m, couplingMatrix p n dim c (-1) a b * x b =
      ∑ i ∈ Finset.range n.nPts, n.det i * n.weights i *
        (c i * ((combine m x (dofFields p n dim i)).fluxP ^ 2 + (combine m x (dofFields p n dim i)).fluxN ^ 2))) ∧
    ((∀ i < n.nPts, 0 ≤ n.det i * n.weights i * c i) →
      0 ≤ ∑ a ∈ Finset.range m, x a * ∑ b ∈ Finset.range m, couplingMatrix p n dim c (-1) a b * x b) ∧
    ∑ a ∈ Finset.range m, x a * ∑ b ∈ Finset.range m, couplingMatrix p n dim c 1 a b * x b =
      ∑ i ∈ Finset.range n.nPts, n.det i * n.weights i *
        (c i * ((combine m x (dofFields p n dim i)).fluxP ^ 2 + (combine m x (dofFields p n dim i)).fluxN ^ 2) +
          2 * ((combine m x (dofFields p n dim i)).pres *
            ((combine m x (dofFields p n dim i)).fluxP + (combine m x (dofFields p n dim i)).fluxN))) := by
  have e1 : ∑ a ∈ Finset.range m, x a * ∑ b ∈ Finset.range m, couplingMatrix p n dim c (-1) a b * x b =
      ∑ i ∈ Finset.range n.nPts, n.det i * n.weights i *
        (c i * ((combine m x (dofFields p n dim i)).fluxP ^ 2 + (combine m x (dofFields p n dim i)).fluxN ^ 2)) := by
    rw [C110_bilinear]
    refine Finset.sum_congr rfl fun i _ => ?_
    unfold pairing
    ring
  refine ⟨e1, fun h => ?_, ?_⟩
  · rw [e1]
    refine Finset.sum_nonneg fun i hi => ?_
    rw [← mul_assoc]
    exact mul_nonneg (h i (Finset.mem_range.1 hi)) (by positivity)
  · rw [C110_bilinear]
    refine Finset.sum_congr rfl fun i _ => ?_
    unfold pairing
    ring

end

section
variable {K X : Type} [Field K] {close : K → K → Bool} {closeX : X → X → Bool} {p n : Side K X}

/-- C110: the tables of the two sides match if and only if they have the same shape and all their entries are close: the
values and the derivatives (layers `0` to `nDer`) in every point, for every function and component. -/
theorem C110_tables (close : K → K → Bool) (p n : Side K X) :
    closeTabs close p n = true ↔
      p.pTab.nPhi = n.pTab.nPhi ∧ p.pTab.nVal = n.pTab.nVal ∧ p.pTab.nDer = n.pTab.nDer ∧ p.nPts = n.nPts ∧
        ∀ k ≤ p.pTab.nDer, ∀ i < p.nPts, ∀ a < p.pTab.nPhi, ∀ d < p.pTab.nVal,
          close (p.pTab.val k i a d) (n.pTab.val k i a d) = true := by
  unfold closeTabs
  simp only [Bool.and_eq_true, beq_iff_eq, List.all_eq_true, List.mem_range, Nat.lt_succ_iff, and_assoc]

/-- C110: the weights or the determinants match if and only if all of them are close. -/
theorem C110_vectors (close : K → K → Bool) (m : Nat) (s t : Nat → K) :
    closeVecs close m s t = true ↔ ∀ i < m, close (s i) (t i) = true := by
  unfold closeVecs
  simp only [List.all_eq_true, List.mem_range]

/-- C110: without one of the two functions the form raises a `KeyError`; if the sides do not match, an
`AssertionError`; if a position of a facet's degree of freedom does not exist, an `IndexError`. -/
theorem C110_errors (fs : Data K X) (kappa delta : X → Nat → K) (dim uComp pComp : Nat) (alpha : Nat → K) :
    (fs.kappa = none ∨ fs.delta = none →
      evaluateForm close closeX fs p n dim uComp pComp alpha = .error .keyError) ∧
    (closeTabs close p n = false ∨ closeX p.x n.x = false ∨ closeVecs close p.nPts p.weights n.weights = false ∨
        closeVecs close p.nPts p.det n.det = false →
      evaluateForm close closeX ⟨some kappa, some delta⟩ p n dim uComp pComp alpha = .error .assertionError) ∧
    (closeTabs close p n = true → closeX p.x n.x = true → closeVecs close p.nPts p.weights n.weights = true →
      closeVecs close p.nPts p.det n.det = true → (∃ d ∈ p.dofs, p.trace.nPhi ≤ d) ∨ (∃ d ∈ n.dofs, n.trace.nPhi ≤ d) →
      evaluateForm close closeX ⟨some kappa, some delta⟩ p n dim uComp pComp alpha = .error .indexError) ∧
    (closeTabs close p n = true → closeX p.x n.x = true → closeVecs close p.nPts p.weights n.weights = true →
      closeVecs close p.nPts p.det n.det = true → (∀ d ∈ p.dofs, d < p.trace.nPhi) → (∀ d ∈ n.dofs, d < n.trace.nPhi) →
      p.dofs.length ≠ n.dofs.length →
      evaluateForm close closeX ⟨some kappa, some delta⟩ p n dim uComp pComp alpha = .error .assertionError) := by
  refine ⟨?_, ?_, ?_, ?_⟩
  · intro h
    unfold evaluateForm
    rcases fs with ⟨k, d⟩
    rcases h with rfl | rfl
    · rfl
    · cases k <;> rfl
  · intro h
    show (do
      let r ← form close closeX p n dim uComp pComp kappa delta (adVar alpha)
      pure (valDer r)) = _
    have : form close closeX p n dim uComp pComp kappa delta (adVar alpha) = .error .assertionError := by
      unfold form
      cases h1 : closeTabs close p n
      · rfl
      cases h2 : closeX p.x n.x
      · rfl
      cases h3 : closeVecs close p.nPts p.weights n.weights
      · rfl
      cases h4 : closeVecs close p.nPts p.det n.det
      · rfl
      simp [h1, h2, h3, h4] at h
    rw [this]
    rfl
  · intro h1 h2 h3 h4 h
    show (do
      let r ← form close closeX p n dim uComp pComp kappa delta (adVar alpha)
      pure (valDer r)) = _
    have : form close closeX p n dim uComp pComp kappa delta (adVar alpha) = .error .indexError := by
      unfold form
      rw [h1, h2, h3, h4]
      cases h5 : p.dofs.any fun d => decide (p.trace.nPhi ≤ d)
      · have h6 : (n.dofs.any fun d => decide (n.trace.nPhi ≤ d)) = true := by
          rcases h with ⟨d, hd, hle⟩ | ⟨d, hd, hle⟩
          · exact absurd (decide_eq_true hle) (List.any_eq_false.1 h5 d hd)
          · exact List.any_eq_true.2 ⟨d, hd, by simpa using hle⟩
        rw [h6]
        rfl
      · rfl
    rw [this]
    rfl
  · intro h1 h2 h3 h4 h5 h6 h
    show (do
      let r ← form close closeX p n dim uComp pComp kappa delta (adVar alpha)
      pure (valDer r)) = _
    have : form close closeX p n dim uComp pComp kappa delta (adVar alpha) = .error .assertionError := by
      unfold form
      rw [h1, h2, h3, h4, any_false h5, any_false h6]
      simp only [Bool.not_true, Bool.false_eq_true, if_false, ne_eq, h, not_false_eq_true, if_true]
      rfl
    rw [this]
    rfl

end

/-! ### A concrete case -/

namespace Example

/-- One point, one flux per side with the value `(0, 1)`, one constant pressure; the normals are `(0, 1)` below the
fracture and `(0, -1)` above it. -/
def below : Side Rat Unit :=
  ⟨⟨0, 1, 2, fun _ _ _ d => if d = 1 then 1 else 0⟩, [0], fun d => if d = 1 then 1 else 0,
    ⟨0, 1, 1, fun _ _ _ _ => 1⟩, 1, (), fun _ => 1, fun _ => 1⟩

def above : Side Rat Unit := { below with normal := fun d => if d = 1 then -1 else 0 }

def eq (a b : Rat) : Bool := a == b

example : Matching eq (fun _ _ => true) below above := ⟨by decide +kernel, rfl, by decide +kernel, by decide +kernel, rfl⟩

example : Shapes below above := ⟨by decide, by decide, rfl⟩

theorem entries : couplingMatrix below above 2 (fun _ => 1) 1 2 0 = 1 ∧ couplingMatrix below above 2 (fun _ => 1) 1 2 1 = -1 ∧
    couplingMatrix below above 2 (fun _ => 1) (-1) 2 0 = -1 ∧ couplingMatrix below above 2 (fun _ => 1) 1 0 0 = 1 := by
  refine ⟨?_, ?_, ?_, ?_⟩ <;>
    simp [couplingMatrix, dofFields, pairing, below, above, Side.normalFlux, Finset.sum_range_succ]

end Example

open Example in
/-- C110, disagreement: there are matching sides, with positive data, and coefficients for which the form of the code has
negative energy: the flux one below the fracture and the pressure minus one. -/
theorem C110_energy_violated :
    ∃ x : Nat → Rat, ∑ a ∈ Finset.range 3, x a * ∑ b ∈ Finset.range 3,
      couplingMatrix below above 2 (fun _ => 1) 1 a b * x b = -1 := by
  refine ⟨fun a => if a = 0 then 1 else if a = 2 then -1 else 0, ?_⟩
  simp [couplingMatrix, dofFields, pairing, below, above, Side.normalFlux, Finset.sum_range_succ]

#print axioms C110_form
#print axioms C110_coefficient
#print axioms C110_symmetric
#print axioms C110_bilinear
#print axioms C110_exchange
#print axioms C110_conservation_violated
#print axioms C110_energy
#print axioms C110_errors
#print axioms C110_energy_violated

#print axioms C110_tables
#print axioms C110_vectors

end Verif.Coupling
