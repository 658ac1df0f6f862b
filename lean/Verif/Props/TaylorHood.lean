/-
Property theorems C74: the local system of mixed linear elasticity with a pressure
(src/weak_forms/le_taylor_hood_weak_form.py).
-/
import Verif.Lemmas.TaylorHood
import Verif.Props.Elasticity

namespace Verif.TaylorHood
open Assembly L2Form Laplace Elasticity

variable {K X : Type} [Field K]

/-- What `evaluate_form` reads for the element `iel`. -/
structure Input (spaces : Dict String (FSpace (PElem K X))) (fs : Elasticity.Data K X) (iel : Nat)
    (u : PElem K X) (p : Tab K) (uComp : Nat) (rhs : X → Nat → Nat → K) (mu lam : X → Nat → K) :
    Prop where
  disp : ∃ us, spaces.getItem "u" = .ok us ∧ us.elements[iel]? = some u ∧ us.nComp = uComp
  pres : ∃ ps e, spaces.getItem "p" = .ok ps ∧ ps.elements[iel]? = some e ∧ e.tab = p
  load : fs.rhs = some rhs
  shear : fs.mu = some mu
  lame : fs.lam = some lam

theorem evaluateForm_eq {spaces : Dict String (FSpace (PElem K X))} {fs : Elasticity.Data K X}
    {iel : Nat} {u : PElem K X} {p : Tab K} {uComp : Nat} {rhs : X → Nat → Nat → K}
    {mu lam : X → Nat → K} (h : Input spaces fs iel u p uComp rhs mu lam) (alpha : Nat → K) :
    evaluateForm (some spaces) (some fs) iel alpha =
      (form u p uComp rhs mu lam (adVar alpha)).map valDer := by
  obtain ⟨us, h1, h2, h3⟩ := h.disp
  obtain ⟨ps, e, h4, h5, h6⟩ := h.pres
  unfold evaluateForm
  simp only [h1, h4, h.load, h.shear, h.lame, entry, Res.bind_ok, getIdx_of h2, getIdx_of h5, h3, h6]
  cases form u p uComp rhs mu lam (adVar alpha) <;> rfl

/-- C74: on a plane cell with two displacements, `evaluate_form` returns the residual and the matrix
of the form
`∫ 2μ dev ε(u) : dev ε(v) + p div v + q div u - p q / (λ + μ)`, with the load on `v` only. -/
theorem C74_system [CharZero K] {spaces : Dict String (FSpace (PElem K X))}
    {fs : Elasticity.Data K X} {iel : Nat} {u : PElem K X} {p : Tab K} {rhs : X → Nat → Nat → K}
    {mu lam : X → Nat → K} (hf : Fits u) (h : Input spaces fs iel u p 2 rhs mu lam)
    (alpha : Nat → K) :
    ∃ r j, evaluateForm (some spaces) (some fs) iel alpha = .ok (r, j) ∧
      r.n = dofs u p ∧ j.n = dofs u p ∧
      (∀ a < r.n, r.val a = ∑ b ∈ Finset.range (dofs u p),
        mixedMatrix u p mu lam a b * alpha b + mixedLoad u rhs a) ∧
      ∀ a < j.n, ∀ b < j.n, j.val a b = mixedMatrix u p mu lam a b := by
  obtain ⟨r, h1, h2, h3⟩ := form_spec hf p rhs mu lam (adVar alpha)
  obtain ⟨h4, h5⟩ := valDer_affine _ _ alpha h2 h3
  refine ⟨(valDer r).1, (valDer r).2, ?_, h2, h2, ?_, ?_⟩
  · rw [evaluateForm_eq h, h1]; rfl
  · intro a ha; exact h4 a (h2 ▸ ha)
  · intro a ha b hb; exact h5 a (h2 ▸ ha) b (h2 ▸ hb)

/-- C74: the matrix is symmetric. -/
theorem C74_symmetric (u : PElem K X) (p : Tab K) (mu lam : X → Nat → K) (a b : Nat) :
    mixedMatrix u p mu lam a b = mixedMatrix u p mu lam b a :=
  Finset.sum_congr rfl fun i _ => by rw [mixedPower_comm]

/-- C74: when the pressure of a field is `(λ + μ) div u` in the quadrature points, the pressure rows of
the system vanish and the displacement rows are those of the displacement form of linear elasticity
(C71): the two formulations agree. -/
theorem C74_elimination [CharZero K] (u : PElem K X) (p : Tab K) (mu lam : X → Nat → K)
    (v : Nat → K) (hne : ∀ i < u.nPts, lam u.x i + mu u.x i ≠ 0)
    (hv : ∀ i < u.nPts,
      fieldPressure u p v i = (lam u.x i + mu u.x i) * tr 2 (fieldGrad 2 u v i)) (a : Nat) :
    ∑ b ∈ Finset.range (dofs u p), mixedMatrix u p mu lam a b * v b =
      if a < u.tab.nPhi * 2 then
        ∑ b ∈ Finset.range (u.tab.nPhi * 2), elasticMatrix 2 u mu lam a b * v b
      else 0 := by
  rw [mixedMatrix_mul]
  split
  · next h =>
    rw [elasticMatrix_mul]
    refine Finset.sum_congr rfl fun i hi => ?_
    rw [hv i (Finset.mem_range.1 hi), gradOf_low h, pressureOf_low h]
    congr 1
    have h2 : (2 : K) ≠ 0 := two_ne_zero
    simp only [mixedPower, elasticPower, contract, deviator, sym, tr, Finset.sum_range_succ,
      Finset.sum_range_zero, zero_add, if_true, one_ne_zero, zero_ne_one, if_false, zero_mul,
      add_zero, zero_div, sub_zero]
    field_simp
    ring
  · next h =>
    refine Finset.sum_eq_zero fun i hi => ?_
    have h3 := hne i (Finset.mem_range.1 hi)
    rw [hv i (Finset.mem_range.1 hi), gradOf_high h, mixedPower, contract_dev_zero, tr_zero]
    field_simp
    ring

/-- A field with the sign of its pressure changed. -/
def flipPressure (u : PElem K X) (v : Nat → K) (a : Nat) : K :=
  if a < u.tab.nPhi * 2 then v a else - v a

theorem fieldGrad_flip (u : PElem K X) (v : Nat → K) (i : Nat) {k : Nat} (hk : k < 2) (l : Nat) :
    fieldGrad 2 u (flipPressure u v) i k l = fieldGrad 2 u v i k l := by
  rw [fieldGrad_eq u _ i hk, fieldGrad_eq u _ i hk]
  refine Finset.sum_congr rfl fun a ha => ?_
  rw [flipPressure, if_pos (Finset.mem_range.1 ha)]

theorem fieldPressure_flip (u : PElem K X) (p : Tab K) (v : Nat → K) (i : Nat) :
    fieldPressure u p (flipPressure u v) i = - fieldPressure u p v i := by
  unfold fieldPressure
  rw [← Finset.sum_neg_distrib]
  refine Finset.sum_congr rfl fun a _ => ?_
  rw [flipPressure, if_neg (by omega), neg_mul]

theorem flip_form [CharZero K] (u : PElem K X) (p : Tab K) (mu lam : X → Nat → K) (v : Nat → K) :
    ∑ a ∈ Finset.range (dofs u p), flipPressure u v a * ∑ b ∈ Finset.range (dofs u p),
        mixedMatrix u p mu lam a b * v b =
      ∑ i ∈ Finset.range u.nPts, u.det i * u.weights i *
        (2 * mu u.x i * contract 2 (deviator (fieldGrad 2 u v i)) (deviator (fieldGrad 2 u v i)) +
          fieldPressure u p v i ^ 2 / (lam u.x i + mu u.x i)) := by
  rw [mixedMatrix_form]
  refine Finset.sum_congr rfl fun i _ => ?_
  rw [fieldPressure_flip]
  congr 1
  simp only [mixedPower, contract, deviator, sym, tr, Finset.sum_range_succ, Finset.sum_range_zero,
    fieldGrad_flip u v i (show 0 < 2 by decide), fieldGrad_flip u v i (show 1 < 2 by decide)]
  ring

/-- C74: tested with the displacement and the negated pressure, the form gives
`∫ 2μ |dev ε(u)|² + p² / (λ + μ)`, which is not negative for `μ ≥ 0` and `λ + μ > 0`. -/
theorem C74_stability {K X : Type} [Field K] [LinearOrder K] [IsStrictOrderedRing K] (u : PElem K X)
    (p : Tab K) (mu lam : X → Nat → K)
    (h : ∀ i < u.nPts, 0 ≤ u.det i * u.weights i ∧ 0 ≤ mu u.x i ∧ 0 < lam u.x i + mu u.x i)
    (v : Nat → K) :
    ∑ a ∈ Finset.range (dofs u p), flipPressure u v a * ∑ b ∈ Finset.range (dofs u p),
        mixedMatrix u p mu lam a b * v b =
      ∑ i ∈ Finset.range u.nPts, u.det i * u.weights i *
        (2 * mu u.x i * contract 2 (deviator (fieldGrad 2 u v i)) (deviator (fieldGrad 2 u v i)) +
          fieldPressure u p v i ^ 2 / (lam u.x i + mu u.x i)) ∧
    0 ≤ ∑ a ∈ Finset.range (dofs u p), flipPressure u v a * ∑ b ∈ Finset.range (dofs u p),
        mixedMatrix u p mu lam a b * v b := by
  refine ⟨flip_form u p mu lam v, ?_⟩
  rw [flip_form]
  refine Finset.sum_nonneg fun i hi => ?_
  obtain ⟨h1, h2, h3⟩ := h i (Finset.mem_range.1 hi)
  have := Cosserat.contract_self_nonneg 2 (deviator (fieldGrad 2 u v i))
  positivity

/-- C74: a field in the kernel of the matrix has neither pressure nor deviatoric strain in the
quadrature points. -/
theorem C74_kernel {K X : Type} [Field K] [LinearOrder K] [IsStrictOrderedRing K] (u : PElem K X)
    (p : Tab K) (mu lam : X → Nat → K)
    (h : ∀ i < u.nPts, 0 < u.det i * u.weights i ∧ 0 < mu u.x i ∧ 0 < lam u.x i + mu u.x i)
    (v : Nat → K)
    (hv : ∀ a < dofs u p, ∑ b ∈ Finset.range (dofs u p), mixedMatrix u p mu lam a b * v b = 0) :
    ∀ i < u.nPts, fieldPressure u p v i = 0 ∧
      ∀ k < 2, ∀ l < 2, deviator (fieldGrad 2 u v i) k l = 0 := by
  have h0 := flip_form u p mu lam v
  rw [Finset.sum_eq_zero (fun a ha => by rw [hv a (Finset.mem_range.1 ha), mul_zero])] at h0
  have hpos : ∀ i ∈ Finset.range u.nPts, 0 ≤ u.det i * u.weights i *
      (2 * mu u.x i * contract 2 (deviator (fieldGrad 2 u v i)) (deviator (fieldGrad 2 u v i)) +
        fieldPressure u p v i ^ 2 / (lam u.x i + mu u.x i)) := by
    intro i hi
    obtain ⟨h1, h2, h3⟩ := h i (Finset.mem_range.1 hi)
    have := Cosserat.contract_self_nonneg 2 (deviator (fieldGrad 2 u v i))
    positivity
  intro i hi
  have e := (Finset.sum_eq_zero_iff_of_nonneg hpos).1 h0.symm i (Finset.mem_range.2 hi)
  obtain ⟨h1, h2, h3⟩ := h i hi
  have e2 := (mul_eq_zero.1 e).resolve_left h1.ne'
  have b0 := Cosserat.contract_self_nonneg 2 (deviator (fieldGrad 2 u v i))
  have b1 : 0 ≤ 2 * mu u.x i *
      contract 2 (deviator (fieldGrad 2 u v i)) (deviator (fieldGrad 2 u v i)) := by positivity
  have b2 : 0 ≤ fieldPressure u p v i ^ 2 / (lam u.x i + mu u.x i) := by positivity
  have c1 := (mul_eq_zero.1 (le_antisymm (by linarith) b1)).resolve_left (by positivity)
  have c2 := (div_eq_zero_iff.1 (le_antisymm (by linarith) b2)).resolve_right h3.ne'
  exact ⟨pow_eq_zero_iff (two_ne_zero) |>.1 c2, Cosserat.contract_eq_zero c1⟩

/-- C74: on a plane cell another number of displacements is refused with `ValueError`; a cell of
another dimension ends in the `assert False`. -/
theorem C74_refused {spaces : Dict String (FSpace (PElem K X))} {fs : Elasticity.Data K X}
    {iel : Nat} {u : PElem K X} {p : Tab K} {uComp : Nat} {rhs : X → Nat → Nat → K}
    {mu lam : X → Nat → K} (h : Input spaces fs iel u p uComp rhs mu lam)
    (hd : u.tab.nDer = u.dim) (hc : u.dim ≠ 2 ∨ uComp ≠ 2) (hp : 0 < u.tab.nPhi) (hn : 0 < u.nPts)
    (alpha : Nat → K) :
    evaluateForm (some spaces) (some fs) iel alpha =
      .error (if u.dim = 2 then .valueError else .assertionError) := by
  rw [evaluateForm_eq h, form_error hd p hc hp hn]
  rfl

/-- C74: a missing space or missing functions are refused with `ValueError`, a space without the
pressure with `KeyError`. -/
theorem C74_unset_refused (space : Option (Dict String (FSpace (PElem K X))))
    (functions : Option (Elasticity.Data K X)) (iel : Nat) (alpha : Nat → K) :
    (space = none ∨ functions = none → evaluateForm space functions iel alpha = .error .valueError) ∧
    (∀ spaces fs us, space = some spaces → functions = some fs → spaces.getItem "u" = .ok us →
      spaces.getItem "p" = .error .keyError →
      evaluateForm space functions iel alpha = .error .keyError) := by
  constructor
  · rintro (rfl | rfl)
    · rfl
    · cases space <;> rfl
  · rintro spaces fs us rfl rfl h1 h2
    unfold evaluateForm
    simp only [h1, h2, Res.bind_ok]
    rfl

/-! ### Examples -/

/-- The spaces of the example: two displacements and a pressure on the triangle. -/
def triangleSpaces : Dict String (FSpace (PElem ℚ Unit)) :=
  [("u", ⟨2, [triangle]⟩), ("p", ⟨1, [triangle]⟩)]

/-- The data of the example. -/
def mixedData : Elasticity.Data ℚ Unit :=
  ⟨some fun _ _ _ => 3, some fun _ _ => 2, some fun _ _ => 1, none⟩

theorem triangle_fits : Fits triangle := ⟨rfl, rfl⟩

theorem mixed_input : Input triangleSpaces mixedData 0 triangle triangle.tab 2 (fun _ _ _ => 3)
    (fun _ _ => 1) (fun _ _ => 2) :=
  ⟨⟨_, rfl, rfl, rfl⟩, ⟨_, _, rfl, rfl, rfl⟩, rfl, rfl, rfl⟩

example : ∃ r j, evaluateForm (some triangleSpaces) (some mixedData) 0 (fun _ => 0) = .ok (r, j) ∧
    r.n = 9 ∧ r.val 2 = 1 / 2 ∧ r.val 7 = 0 ∧ j.val 2 2 = 1 / 2 ∧ j.val 2 7 = 1 / 6 ∧
    j.val 7 7 = - 1 / 54 := by
  obtain ⟨r, j, h, hn, hm, hr, hj⟩ := C74_system triangle_fits mixed_input (fun _ => 0)
  have h0 := triangle_grad 0 1 0 (by decide)
  have h1 := triangle_grad 0 1 1 (by decide)
  have e1 : ∀ i k l, gradOf triangle i 2 k l = if k = 0 then gradAt triangle i 1 l else 0 := by
    intro i k l
    simp [gradOf, basisGrad, triangle, eq_comm]
  have e2 : ∀ i k l, gradOf triangle i 7 k l = 0 := by
    intro i k l
    simp [gradOf, triangle]
  have e3 : ∀ i, pressureOf triangle triangle.tab i 2 = 0 := by
    intro i
    simp [pressureOf, triangle]
  have e4 : ∀ i, pressureOf triangle triangle.tab i 7 = 1 / 3 := by
    intro i
    simp [pressureOf, triangle]
  refine ⟨r, j, h, hn, ?_, ?_, ?_, ?_, ?_⟩
  · rw [hr 2 (by rw [hn]; decide)]
    simp [mixedLoad, bodyLoad, triangle]
  · rw [hr 7 (by rw [hn]; decide)]
    simp [mixedLoad, triangle]
  · rw [hj 2 (by rw [hm]; decide) 2 (by rw [hm]; decide)]
    simp only [mixedMatrix, mixedPower, contract, tr, sym, deviator, e1, e3]
    simp [Finset.sum_range_succ, h0, h1, show triangle.nPts = 1 from rfl,
      show triangle.det 0 = 1 from rfl, show triangle.weights 0 = 1 / 2 from rfl]
    norm_num
  · rw [hj 2 (by rw [hm]; decide) 7 (by rw [hm]; decide)]
    simp only [mixedMatrix, mixedPower, contract, tr, sym, deviator, e1, e2, e3, e4]
    simp [Finset.sum_range_succ, h0, h1, show triangle.nPts = 1 from rfl,
      show triangle.det 0 = 1 from rfl, show triangle.weights 0 = 1 / 2 from rfl]
    norm_num
  · rw [hj 7 (by rw [hm]; decide) 7 (by rw [hm]; decide)]
    simp only [mixedMatrix, mixedPower, contract, tr, sym, deviator, e2, e4]
    simp [show triangle.nPts = 1 from rfl,
      show triangle.det 0 = 1 from rfl, show triangle.weights 0 = 1 / 2 from rfl]
    norm_num

/-- A field whose pressure is `(λ + μ) div u` in the point of the triangle: `u = (x, 0)` and `p = 3`. -/
example : ∀ i < triangle.nPts,
    fieldPressure triangle triangle.tab (fun a => if a = 2 then 1 else if 6 ≤ a then 3 else 0) i =
      ((2 : ℚ) + 1) * tr 2 (fieldGrad 2 triangle
        (fun a => if a = 2 then 1 else if 6 ≤ a then 3 else 0) i) := by
  intro i _
  simp only [fieldPressure, fieldGrad, tr, show triangle.tab.nPhi = 3 from rfl,
    Finset.sum_range_succ, Finset.sum_range_zero, triangle_grad _ _ 0 (by decide),
    triangle_grad _ _ 1 (by decide)]
  norm_num [triangle]

example : ∀ i < triangle.nPts, 0 < triangle.det i * triangle.weights i ∧ (0 : ℚ) < 1 ∧
    (0 : ℚ) < 2 + 1 := by
  intro i _
  norm_num [triangle]

/-- Three displacements on a plane cell. -/
example : evaluateForm (some [("u", ⟨3, [triangle]⟩), ("p", ⟨1, [triangle]⟩)]) (some mixedData) 0
    (fun _ => (0 : ℚ)) = .error .valueError :=
  C74_refused (u := triangle) (p := triangle.tab) (uComp := 3)
    ⟨⟨_, rfl, rfl, rfl⟩, ⟨_, _, rfl, rfl, rfl⟩, rfl, rfl, rfl⟩ rfl (by decide) (by decide) (by decide) _

/-- A cell of dimension three. -/
def solid : PElem ℚ Unit := { triangle with dim := 3, tab := { triangle.tab with nDer := 3 } }

example : evaluateForm (some [("u", ⟨3, [solid]⟩), ("p", ⟨1, [solid]⟩)]) (some mixedData) 0
    (fun _ => (0 : ℚ)) = .error .assertionError :=
  C74_refused (u := solid) (p := solid.tab) (uComp := 3)
    ⟨⟨_, rfl, rfl, rfl⟩, ⟨_, _, rfl, rfl, rfl⟩, rfl, rfl, rfl⟩ rfl (by decide) (by decide) (by decide) _

#print axioms C74_system
#print axioms C74_symmetric
#print axioms C74_elimination
#print axioms C74_stability
#print axioms C74_kernel
#print axioms C74_refused
#print axioms C74_unset_refused

end Verif.TaylorHood
