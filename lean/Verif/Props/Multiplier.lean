/-
Property theorems C119: a Lagrange multiplier between a degenerate region and its neighbour.
-/
import Verif.Lemmas.Multiplier
import Mathlib.Tactic.NormNum

namespace Verif.Multiplier
open Assembly L2Form Laplace Coupling
open Strong.Arbogast (quot root)

variable {X : Type} {close : ℝ → ℝ → Bool} {closeX : X → X → Bool} {n p : Side ℝ X}

/-- C119: the factors are numbers for a positive porosity and a mobility that is not zero. -/
theorem C119_factors (phi d : ℝ) :
    (0 < phi → d ≠ 0 → factors phi d = some (d, 1 / √phi, 1 / d)) ∧
    (phi ≤ 0 ∨ d = 0 → factors phi d = none) := by
  unfold factors root quot
  constructor
  · intro h hd
    rw [if_neg (not_lt.2 h.le)]
    simp only [Option.bind_eq_bind, Option.bind_some]
    rw [if_neg (Real.sqrt_pos.2 h).ne', if_neg hd]
    rfl
  · intro h
    by_cases hn : phi < 0
    · rw [if_pos hn]
      rfl
    · rw [if_neg hn]
      simp only [Option.bind_eq_bind, Option.bind_some]
      by_cases h0 : √phi = 0
      · rw [if_pos h0]
        rfl
      · rw [if_neg h0]
        have hd : d = 0 := by
          rcases h with h | h
          · exact absurd (Real.sqrt_eq_zero'.2 h) h0
          · exact h
        rw [if_pos hd]
        rfl

/-- C119: for matching sides, a positive porosity and a mobility that is not zero `evaluate_form` returns the residual
and the matrix in which the multiplier acts as pressure on the side `n`, as pressure divided by the root of the
porosity on the side `p`, and demands that the fluxes out of both sides cancel. -/
theorem C119_form (hm : Matching close closeX p n) (hs : Shapes p n) {dim : Nat} (hd : 0 < dim)
    {dPhi porosity : X → Nat → ℝ} (hphi : ∀ i < n.nPts, 0 < porosity n.x i) (hdp : ∀ i < n.nPts, dPhi n.x i ≠ 0)
    (alpha : Nat → ℝ) :
    ∃ r j, evaluateForm close closeX ⟨some dPhi, some porosity⟩ n p dim 1 1 1 alpha = .ok (some (r, j)) ∧
      r.n = n.dofs.length + p.dofs.length + n.pTab.nPhi ∧ j.n = n.dofs.length + p.dofs.length + n.pTab.nPhi ∧
      (∀ a < r.n, r.val a = ∑ b ∈ Finset.range (size n p),
        multiplierMatrix n p dim (dPhi n.x) (fun _ => 1) (fun i => 1 / √(porosity n.x i)) a b * alpha b) ∧
      ∀ a < j.n, ∀ b < j.n, j.val a b =
        multiplierMatrix n p dim (dPhi n.x) (fun _ => 1) (fun i => 1 / √(porosity n.x i)) a b := by
  obtain ⟨r, h1, h2, h3⟩ := form_spec hm hs hd (fun i => factors (porosity n.x i) (dPhi n.x i)) (adVar alpha)
  have hc : ∀ i < n.nPts, factors (porosity n.x i) (dPhi n.x i) =
      some (dPhi n.x i, 1 / √(porosity n.x i), 1 / dPhi n.x i) :=
    fun i hi => (C119_factors _ _).1 (hphi i hi) (hdp i hi)
  have hall : ((List.range n.nPts).all fun i => (factors (porosity n.x i) (dPhi n.x i)).isSome) = true := by
    rw [List.all_eq_true]
    intro i hi
    rw [hc i (List.mem_range.1 hi)]
    rfl
  rw [hall, if_pos rfl] at h1
  have hM : ∀ a b, (∑ i ∈ Finset.range n.nPts, n.det i * n.weights i *
      rawPairing ((factors (porosity n.x i) (dPhi n.x i)).getD (0, 0, 0)).1
        ((factors (porosity n.x i) (dPhi n.x i)).getD (0, 0, 0)).2.1
        ((factors (porosity n.x i) (dPhi n.x i)).getD (0, 0, 0)).2.2 (dofFields n p dim i b) (dofFields n p dim i a)) =
      multiplierMatrix n p dim (dPhi n.x) (fun _ => 1) (fun i => 1 / √(porosity n.x i)) a b := by
    intro a b
    refine Finset.sum_congr rfl fun i hi => ?_
    rw [hc i (Finset.mem_range.1 hi), Option.getD_some]
    dsimp only
    rw [rawPairing_eq (mul_one_div_cancel (hdp i (Finset.mem_range.1 hi)))]
  refine ⟨(valDer r).1, (valDer r).2, ?_, h2, h2, ?_, ?_⟩
  · show (do
      let r ← form close closeX n p dim 1 1 1 (fun i => factors (porosity n.x i) (dPhi n.x i)) (adVar alpha)
      pure (r.map valDer)) = _
    rw [h1]
    rfl
  · intro a ha
    show (r.val a).fst = _
    have := fst_affine (size n p) (multiplierMatrix n p dim (dPhi n.x) (fun _ => 1)
      (fun i => 1 / √(porosity n.x i)) a) 0 alpha
    rw [h3 a (h2 ▸ ha)]
    simp only [hM]
    simpa using this
  · intro a ha b hb
    show (r.val a).snd b = _
    have := snd_affine (size n p) (multiplierMatrix n p dim (dPhi n.x) (fun _ => 1)
      (fun i => 1 / √(porosity n.x i)) a) 0 alpha b (h2 ▸ hb)
    rw [h3 a (h2 ▸ ha)]
    simp only [hM]
    simpa using this

/-- C119: where the porosity is not positive or the mobility vanishes the result is not a number. -/
theorem C119_undefined (hm : Matching close closeX p n) (hs : Shapes p n) {dim : Nat} (hd : 0 < dim)
    {dPhi porosity : X → Nat → ℝ} {i : Nat} (hi : i < n.nPts) (hf : porosity n.x i ≤ 0 ∨ dPhi n.x i = 0)
    (alpha : Nat → ℝ) :
    evaluateForm close closeX ⟨some dPhi, some porosity⟩ n p dim 1 1 1 alpha = .ok none := by
  obtain ⟨r, h1, -⟩ := form_spec hm hs hd (fun i => factors (porosity n.x i) (dPhi n.x i)) (adVar alpha)
  have hall : ((List.range n.nPts).all fun i => (factors (porosity n.x i) (dPhi n.x i)).isSome) = false := by
    rw [List.all_eq_false]
    refine ⟨i, List.mem_range.2 hi, ?_⟩
    rw [(C119_factors _ _).2 hf]
    simp
  rw [hall] at h1
  show (do
      let r ← form close closeX n p dim 1 1 1 (fun i => factors (porosity n.x i) (dPhi n.x i)) (adVar alpha)
      pure (r.map valDer)) = _
  rw [h1]
  rfl

/-- C119: the rows of the multipliers demand that the physical fluxes `d v` and `u` cancel. -/
theorem C119_conservation (n p : Side ℝ X) (dim : Nat) (d b c : Nat → ℝ) (k l : Nat) :
    multiplierMatrix n p dim d b c (n.dofs.length + p.dofs.length + k) l =
      ∑ i ∈ Finset.range n.nPts, n.det i * n.weights i *
        ((d i * (dofFields n p dim i l).fluxN + (dofFields n p dim i l).fluxP) * n.pTab.val 0 i k 0) := by
  refine Finset.sum_congr rfl fun i _ => ?_
  rw [dofFields_q k]
  unfold pairing
  ring

/-- C119: the matrix is symmetric if the porosity is one. -/
theorem C119_symmetric (n p : Side ℝ X) (dim : Nat) (d : Nat → ℝ) (phi : Nat → ℝ) (h : ∀ i < n.nPts, phi i = 1)
    (k l : Nat) :
    multiplierMatrix n p dim d (fun _ => 1) (fun i => 1 / √(phi i)) k l =
      multiplierMatrix n p dim d (fun _ => 1) (fun i => 1 / √(phi i)) l k := by
  refine Finset.sum_congr rfl fun i hi => ?_
  dsimp only
  rw [h i (Finset.mem_range.1 hi), Real.sqrt_one]
  unfold pairing
  ring

/-- C119, disagreement: for another constant porosity `φ` the multiplier acts on the flux `u` with `1 / √φ` times the
entry of its own row, so that the matrix is symmetric only where that entry vanishes: the multiplier is not one
pressure for both sides. -/
theorem C119_symmetric_violated (n p : Side ℝ X) (dim : Nat) (d : Nat → ℝ) {phi : ℝ} (h0 : 0 < phi) (h1 : phi ≠ 1)
    (k l : Nat) (hk : k < p.dofs.length) :
    multiplierMatrix n p dim d (fun _ => 1) (fun _ => 1 / √phi) (n.dofs.length + k) (n.dofs.length + p.dofs.length + l) =
      1 / √phi * multiplierMatrix n p dim d (fun _ => 1) (fun _ => 1 / √phi) (n.dofs.length + p.dofs.length + l)
        (n.dofs.length + k) ∧
    (multiplierMatrix n p dim d (fun _ => 1) (fun _ => 1 / √phi) (n.dofs.length + k) (n.dofs.length + p.dofs.length + l) =
      multiplierMatrix n p dim d (fun _ => 1) (fun _ => 1 / √phi) (n.dofs.length + p.dofs.length + l)
        (n.dofs.length + k) ↔
      multiplierMatrix n p dim d (fun _ => 1) (fun _ => 1 / √phi) (n.dofs.length + p.dofs.length + l)
        (n.dofs.length + k) = 0) := by
  have key : multiplierMatrix n p dim d (fun _ => 1) (fun _ => 1 / √phi) (n.dofs.length + k)
      (n.dofs.length + p.dofs.length + l) =
      1 / √phi * multiplierMatrix n p dim d (fun _ => 1) (fun _ => 1 / √phi) (n.dofs.length + p.dofs.length + l)
        (n.dofs.length + k) := by
    unfold multiplierMatrix
    rw [Finset.mul_sum]
    refine Finset.sum_congr rfl fun i _ => ?_
    rw [dofFields_q l, dofFields_p hk]
    unfold pairing
    ring
  refine ⟨key, ?_⟩
  rw [key]
  have hne : 1 / √phi ≠ 1 := by
    intro h
    rw [div_eq_iff (Real.sqrt_pos.2 h0).ne', one_mul] at h
    exact h1 (by rw [← Real.sq_sqrt h0.le, ← h]; norm_num)
  constructor
  · intro h
    by_contra hx
    exact hne (mul_right_cancel₀ hx (by rw [h, one_mul]))
  · intro h
    rw [h, mul_zero]

/-- C119: without one of the functions the form raises a `KeyError`; if the sides do not match, an
`AssertionError`. -/
theorem C119_errors (fs : Data X) (dPhi porosity : X → Nat → ℝ) (dim vComp uComp qComp : Nat) (alpha : Nat → ℝ) :
    (fs.dPhi = none ∨ fs.porosity = none →
      evaluateForm close closeX fs n p dim vComp uComp qComp alpha = .error .keyError) ∧
    (closeTabs close p n = false ∨ closeX p.x n.x = false ∨ closeVecs close p.nPts p.weights n.weights = false ∨
        closeVecs close p.nPts p.det n.det = false →
      evaluateForm close closeX ⟨some dPhi, some porosity⟩ n p dim vComp uComp qComp alpha = .error .assertionError) := by
  refine ⟨?_, ?_⟩
  · intro h
    unfold evaluateForm
    rcases fs with ⟨a, b⟩
    simp only at h
    cases a <;> cases b <;> first | rfl | simp at h
  · intro h
    show (do
      let r ← form close closeX n p dim vComp uComp qComp (fun i => factors (porosity n.x i) (dPhi n.x i)) (adVar alpha)
      pure (r.map valDer)) = _
    have : form close closeX n p dim vComp uComp qComp (fun i => factors (porosity n.x i) (dPhi n.x i)) (adVar alpha) =
        .error .assertionError := by
      unfold form
      cases h1 : closeTabs close p n
      · rfl
      cases h2 : closeX p.x n.x
      · rfl
      cases h3 : closeVecs close p.nPts p.weights n.weights
      · rfl
      cases h4 : closeVecs close p.nPts p.det n.det
      · rfl
      simp [h1, h2, h3, h4] at h
    rw [this]
    rfl

/-! ### A concrete case -/

namespace Example

/-- One point, one flux per side with the value `(0, 1)`, one constant multiplier; the normals are `(0, 1)` below the
interface and `(0, -1)` above it. -/
def below : Side ℝ Unit :=
  ⟨⟨0, 1, 2, fun _ _ _ d => if d = 1 then 1 else 0⟩, [0], fun d => if d = 1 then 1 else 0,
    ⟨0, 1, 1, fun _ _ _ _ => 1⟩, 1, (), fun _ => 1, fun _ => 1⟩

def above : Side ℝ Unit := { below with normal := fun d => if d = 1 then -1 else 0 }

theorem matching : Matching (fun _ _ => true) (fun _ _ => true) above below := by
  refine ⟨?_, rfl, ?_, ?_, rfl⟩ <;> simp [closeTabs, closeVecs, below, above]

theorem shapes : Shapes above below := by
  refine ⟨?_, ?_, rfl⟩ <;> simp [below, above]

/-- Porosity four and mobility three: the multiplier acts with `3` on `v`, with `-1/2` on `u`; its row is `(3, -1, 0)`. -/
example : ∃ r j, evaluateForm (fun _ _ => true) (fun _ _ => true) ⟨some fun _ _ => 3, some fun _ _ => 4⟩ below above
      2 1 1 1 (fun _ => 1) = .ok (some (r, j)) ∧ j.val 0 2 = 3 ∧ j.val 1 2 = -1 / 2 ∧ j.val 2 0 = 3 ∧
        j.val 2 1 = -1 := by
  have h4 : √(4 : ℝ) = 2 := by
    rw [show (4 : ℝ) = 2 ^ 2 by norm_num]
    exact Real.sqrt_sq two_pos.le
  obtain ⟨r, j, h1, h2, h3, -, h5⟩ := C119_form (dPhi := fun _ _ => 3) (porosity := fun _ _ => 4)
    matching shapes (dim := 2) two_pos (fun i _ => by norm_num) (fun i _ => by norm_num) (fun _ => 1)
  have hn : j.n = 3 := h3
  refine ⟨r, j, h1, ?_, ?_, ?_, ?_⟩
  · rw [h5 0 (by omega) 2 (by omega)]
    simp [multiplierMatrix, dofFields, pairing, below, above, Side.normalFlux, Finset.sum_range_succ]
  · rw [h5 1 (by omega) 2 (by omega)]
    simp [multiplierMatrix, dofFields, pairing, below, above, Side.normalFlux, Finset.sum_range_succ, h4]
    norm_num
  · rw [h5 2 (by omega) 0 (by omega)]
    simp [multiplierMatrix, dofFields, pairing, below, above, Side.normalFlux, Finset.sum_range_succ]
  · rw [h5 2 (by omega) 1 (by omega)]
    simp [multiplierMatrix, dofFields, pairing, below, above, Side.normalFlux, Finset.sum_range_succ]

end Example

#print axioms C119_factors
#print axioms C119_form
#print axioms C119_undefined
#print axioms C119_conservation
#print axioms C119_symmetric
#print axioms C119_symmetric_violated
#print axioms C119_errors

end Verif.Multiplier
