/-
Property theorems C75, C76 and C77: the degenerate elliptic form, the unscaled form, and the projection
of the scaled fields to the physical ones.
-/
import Verif.Lemmas.Degenerate
import Verif.Props.Elasticity
import Verif.Props.Laplace

namespace Verif.Degenerate
open Assembly L2Form Laplace

variable {K X : Type} [Field K] [LinearOrder K]

/-- What the forms read for the element `iel`; `f`, `g` are the names of the fields. -/
structure Input (f g : String) (spaces : Dict String (FSpace (Elem K X))) (fs : Data K X) (iel : Nat)
    (v : Elem K X) (q : Tab K) (vComp qComp : Nat) (rhs : X → Nat → Nat → K) (phi delta : X → Nat → K)
    (grad : X → Nat → Nat → K) : Prop where
  flux : ∃ vs, spaces.getItem f = .ok vs ∧ vs.elements[iel]? = some v ∧ vs.nComp = vComp
  pressure : ∃ qs e, spaces.getItem g = .ok qs ∧ qs.elements[iel]? = some e ∧ e.tab = q ∧
    qs.nComp = qComp
  source : fs.rhs = some rhs
  porosity : fs.porosity = some phi
  factor : fs.dPhi = some delta
  gradient : fs.gradDPhi = some grad

/-! ### The scaled form -/

theorem evaluateForm_eq {spaces : Dict String (FSpace (Elem K X))} {fs : Data K X} {iel : Nat}
    {v : Elem K X} {q : Tab K} {vComp qComp : Nat} {rhs : X → Nat → Nat → K} {phi delta : X → Nat → K}
    {grad : X → Nat → Nat → K} (h : Input "v" "q" spaces fs iel v q vComp qComp rhs phi delta grad)
    (root : K → K) (alpha : Nat → K) :
    evaluateForm root (some spaces) (some fs) iel alpha =
      (form root v q vComp qComp rhs phi delta grad (adVar alpha)).map valDer := by
  obtain ⟨vs, h1, h2, h3⟩ := h.flux
  obtain ⟨qs, e, h4, h5, h6, h7⟩ := h.pressure
  unfold evaluateForm
  simp only [h1, h4, h.source, h.porosity, h.factor, h.gradient, entry, Res.bind_ok, getIdx_of h2,
    getIdx_of h5, h3, h6, h7]
  cases form root v q vComp qComp rhs phi delta grad (adVar alpha) <;> rfl

/-- C75: with scalar pressures and one vector valued flux, `evaluate_form` returns the residual and the
matrix of `∫ v · ψ - q D(ψ) + D(v) w + q w - f w`, where `D(ψ) = (δ div ψ + ∇δ · ψ) / √φ` in points with
a porosity above `1e-8`, and zero elsewhere. -/
theorem C75_system [IsStrictOrderedRing K] {spaces : Dict String (FSpace (Elem K X))} {fs : Data K X}
    {iel : Nat} {v : Elem K X} {q : Tab K} {rhs : X → Nat → Nat → K} {phi delta : X → Nat → K}
    {grad : X → Nat → Nat → K} (hs : MixedShapes v q)
    (h : Input "v" "q" spaces fs iel v q 1 1 rhs phi delta grad) (root : K → K) (alpha : Nat → K) :
    ∃ r j, evaluateForm root (some spaces) (some fs) iel alpha = .ok (r, j) ∧
      r.n = v.tab.nPhi + q.nPhi ∧ j.n = v.tab.nPhi + q.nPhi ∧
      (∀ a < r.n, r.val a = ∑ b ∈ Finset.range (v.tab.nPhi + q.nPhi),
          systemMatrix v q (fun _ => 1) (fun _ => 1) (scaledDiv root v phi delta grad) a b * alpha b -
        sourceTerm v q (fun _ => 1) rhs a) ∧
      ∀ a < j.n, ∀ b < j.n, j.val a b =
        systemMatrix v q (fun _ => 1) (fun _ => 1) (scaledDiv root v phi delta grad) a b := by
  obtain ⟨r, h1, h2, h3⟩ := form_spec hs root rhs phi delta grad (adVar alpha)
  refine ⟨(valDer r).1, (valDer r).2, ?_, h2, h2, ?_, ?_⟩
  · rw [evaluateForm_eq h, h1]; rfl
  · intro a ha
    show (r.val a).fst = _
    rw [h3 a (h2 ▸ ha), fst_affine]
  · intro a ha b hb
    show (r.val a).snd b = _
    rw [h3 a (h2 ▸ ha), snd_affine _ _ _ _ _ (h2 ▸ hb)]

/-- C75: whatever the porosity, the quadratic form of the matrix is `∫ |v|² + q²`: it does not
degenerate.  In particular a field in the kernel vanishes in the quadrature points. -/
theorem C75_energy [IsStrictOrderedRing K] (v : Elem K X) (q : Tab K) (div : Nat → Nat → K) (n : Nat)
    (x : Nat → K) :
    (∑ a ∈ Finset.range n, x a * ∑ b ∈ Finset.range n,
        systemMatrix v q (fun _ => 1) (fun _ => 1) div a b * x b =
      ∑ i ∈ Finset.range v.nPts, v.det i * v.weights i *
        (∑ d ∈ Finset.range v.dim, (combine n x (dofFields v q div i)).vel d ^ 2 +
          (combine n x (dofFields v q div i)).pres ^ 2)) ∧
    ((∀ i < v.nPts, 0 < v.det i * v.weights i) →
      (∀ a < n, ∑ b ∈ Finset.range n,
        systemMatrix v q (fun _ => 1) (fun _ => 1) div a b * x b = 0) →
      ∀ i < v.nPts, (∀ d < v.dim, (combine n x (dofFields v q div i)).vel d = 0) ∧
        (combine n x (dofFields v q div i)).pres = 0) := by
  have key : ∑ a ∈ Finset.range n, x a * ∑ b ∈ Finset.range n,
        systemMatrix v q (fun _ => 1) (fun _ => 1) div a b * x b =
      ∑ i ∈ Finset.range v.nPts, v.det i * v.weights i *
        (∑ d ∈ Finset.range v.dim, (combine n x (dofFields v q div i)).vel d ^ 2 +
          (combine n x (dofFields v q div i)).pres ^ 2) := by
    rw [systemMatrix_form]
    refine Finset.sum_congr rfl fun i _ => ?_
    rw [pairing_self, one_mul, one_mul]
  refine ⟨key, ?_⟩
  intro hw hz i hi
  rw [Finset.sum_eq_zero (fun a ha => by rw [hz a (Finset.mem_range.1 ha), mul_zero])] at key
  have hpos : ∀ i ∈ Finset.range v.nPts, 0 ≤ v.det i * v.weights i *
      (∑ d ∈ Finset.range v.dim, (combine n x (dofFields v q div i)).vel d ^ 2 +
        (combine n x (dofFields v q div i)).pres ^ 2) := fun i hi =>
    mul_nonneg (hw i (Finset.mem_range.1 hi)).le
      (add_nonneg (Finset.sum_nonneg fun d _ => sq_nonneg _) (sq_nonneg _))
  have e := (Finset.sum_eq_zero_iff_of_nonneg hpos).1 key.symm i (Finset.mem_range.2 hi)
  have e2 := (mul_eq_zero.1 e).resolve_left (hw i hi).ne'
  have b1 : 0 ≤ ∑ d ∈ Finset.range v.dim, (combine n x (dofFields v q div i)).vel d ^ 2 :=
    Finset.sum_nonneg fun d _ => sq_nonneg _
  have b2 := sq_nonneg (combine n x (dofFields v q div i)).pres
  refine ⟨fun d hd => ?_, ?_⟩
  · have e3 := (Finset.sum_eq_zero_iff_of_nonneg (fun d _ => sq_nonneg _)).1
      (le_antisymm (by linarith) b1) d (Finset.mem_range.2 hd)
    exact pow_eq_zero_iff two_ne_zero |>.1 e3
  · exact pow_eq_zero_iff two_ne_zero |>.1 (le_antisymm (by linarith) b2)

/-- C75: where the porosity is at most `1e-8`, flux and pressure decouple. -/
theorem C75_decoupled (root : K → K) (v : Elem K X) (q : Tab K) (phi delta : X → Nat → K)
    (grad : X → Nat → Nat → K) (h : ∀ i < v.nPts, phi v.x i ≤ 1 / 10 ^ 8) {a b : Nat}
    (hab : (a < v.tab.nPhi ↔ ¬ b < v.tab.nPhi)) :
    systemMatrix v q (fun _ => 1) (fun _ => 1) (scaledDiv root v phi delta grad) a b = 0 := by
  refine Finset.sum_eq_zero fun i hi => ?_
  have hd : ∀ a, scaledDiv root v phi delta grad i a = 0 := fun a => by
    unfold scaledDiv
    rw [if_neg (not_lt.2 (h i (Finset.mem_range.1 hi)))]
  unfold pairing dofFields
  by_cases ha : a < v.tab.nPhi
  · simp [ha, hab.1 ha, hd]
  · have hb : b < v.tab.nPhi := by
      by_contra hb
      exact ha (hab.2 hb)
    simp [ha, hb, hd]

/-- C75: the boundary term is `∫ (δ/√φ) q_D ψ · n` in the degrees of freedom of the facet, when the
porosity of the facet is above `1e-8`, and no matrix. -/
theorem C75_boundary_partial [IsStrictOrderedRing K] (root : K → K) {nPts nPhi comps dim : Nat}
    (weights det : Nat → K) {trace : Tab K} {dofs : List Nat} (normal : Nat → K) (qD : Nat → Nat → K)
    (phi delta : Nat → K) (hd : ∀ d ∈ dofs, d < trace.nPhi) (hl : dofs.length = nPhi)
    (hv : dim ≤ trace.nVal) (hp : ∀ i < nPts, 1 / 10 ^ 8 < phi i) :
    ∃ r j, boundary root nPts nPhi comps dim weights det trace dofs normal qD phi delta = .ok (r, j) ∧
      r.n = nPhi * comps ∧ j.n = nPhi * comps ∧ (∀ a b, j.val a b = 0) ∧
      ∀ a d, dofs[a]? = some d → ∀ c < comps, r.val (a * comps + c) =
        ∑ i ∈ Finset.range nPts, det i * weights i * (delta i / root (phi i) * qD i c) *
          ∑ k ∈ Finset.range dim, trace.val 0 i d k * normal k := by
  obtain ⟨r, j, h1, h2, h3, h4, h5⟩ := C65_boundary (nPts := nPts) (uComp := comps) weights det normal
    (fun i c => boundaryDatum root (qD i c) (phi i) (delta i)) hd hl hv
  refine ⟨r, j, h1, h2, h3, h4, ?_⟩
  intro a d ha c hc
  rw [h5 a d ha c hc]
  unfold boundaryFlux
  refine Finset.sum_congr rfl fun i hi => ?_
  unfold boundaryDatum
  dsimp only
  rw [if_pos ((positive_iff _).2 (hp i (Finset.mem_range.1 hi)))]
  ring

/-- C75 fails on facets without porosity: there the datum is taken with the factor one, while the
divergences, with which it has to match, have the factor zero. -/
theorem C75_boundary_violated [IsStrictOrderedRing K] (root : K → K) (qD delta phi : K)
    (hp : phi ≤ 1 / 10 ^ 8) (v : Elem K X) (grad : X → Nat → Nat → K) (i a : Nat) :
    boundaryDatum root qD phi delta = qD ∧
      scaledDiv root v (fun _ _ => phi) (fun _ _ => delta) grad i a = 0 := by
  constructor
  · unfold boundaryDatum
    rw [if_neg fun h => not_lt.2 hp ((positive_iff phi).1 h)]
  · unfold scaledDiv
    rw [if_neg (not_lt.2 hp)]

/-- C75: more than one component in a field is refused. -/
theorem C75_components_refused [IsStrictOrderedRing K] {spaces : Dict String (FSpace (Elem K X))}
    {fs : Data K X} {iel : Nat} {v : Elem K X} {q : Tab K} {vComp qComp : Nat}
    {rhs : X → Nat → Nat → K} {phi delta : X → Nat → K} {grad : X → Nat → Nat → K}
    (h : Input "v" "q" spaces fs iel v q vComp qComp rhs phi delta grad) (hn : 0 < v.nPts)
    (hv : v.dim ≤ v.tab.nVal)
    (hc : v.tab.nPhi ≠ v.tab.nPhi * vComp ∨ q.nPhi ≠ q.nPhi * qComp) (root : K → K)
    (alpha : Nat → K) :
    evaluateForm root (some spaces) (some fs) iel alpha = .error .valueError := by
  rw [evaluateForm_eq h, form_error hn hv hc]
  rfl

/-- C75, C76, C77: a missing space or missing functions are refused. -/
theorem C75_unset_refused (root : K → K) (threshold : K)
    (space : Option (Dict String (FSpace (Elem K X)))) (functions : Option (Data K X)) (iel : Nat)
    (alpha scaled : Nat → K) (h : space = none ∨ functions = none) :
    evaluateForm root space functions iel alpha = .error .valueError ∧
    evaluateUnscaled root threshold space functions iel alpha = .error .valueError ∧
    evaluateProjection root space functions iel alpha scaled = .error .valueError := by
  rcases h with rfl | rfl
  · exact ⟨rfl, rfl, rfl⟩
  · cases space <;> exact ⟨rfl, rfl, rfl⟩

/-- C75, C76: both spaces and all four functions must be there, also where they are not used. -/
theorem C75_missing_data (root : K → K) (threshold : K) {spaces : Dict String (FSpace (Elem K X))}
    (fs : Data K X) (h : fs.rhs = none ∨ fs.porosity = none ∨ fs.dPhi = none ∨ fs.gradDPhi = none)
    {vs qs us ps : FSpace (Elem K X)} (iel : Nat) (alpha : Nat → K) :
    (spaces.getItem "v" = .ok vs → spaces.getItem "q" = .ok qs →
      evaluateForm root (some spaces) (some fs) iel alpha = .error .keyError) ∧
    (spaces.getItem "u" = .ok us → spaces.getItem "p" = .ok ps →
      evaluateUnscaled root threshold (some spaces) (some fs) iel alpha = .error .keyError) := by
  constructor
  · intro h1 h2
    unfold evaluateForm
    simp only [h1, h2, Res.bind_ok]
    rcases fs with ⟨a, b, c, d⟩
    rcases h with h | h | h | h <;> cases h
    · rfl
    · cases a <;> rfl
    · cases a <;> cases b <;> rfl
    · cases a <;> cases b <;> cases c <;> rfl
  · intro h1 h2
    unfold evaluateUnscaled
    simp only [h1, h2, Res.bind_ok]
    rcases fs with ⟨a, b, c, d⟩
    rcases h with h | h | h | h <;> cases h
    · rfl
    · cases a <;> rfl
    · cases a <;> cases b <;> rfl
    · cases a <;> cases b <;> cases c <;> rfl

/-! ### The unscaled form -/

theorem evaluateUnscaled_eq {spaces : Dict String (FSpace (Elem K X))} {fs : Data K X} {iel : Nat}
    {u : Elem K X} {p : Tab K} {uComp pComp : Nat} {rhs : X → Nat → Nat → K} {phi delta : X → Nat → K}
    {grad : X → Nat → Nat → K} (h : Input "u" "p" spaces fs iel u p uComp pComp rhs phi delta grad)
    (root : K → K) (threshold : K) (alpha : Nat → K) :
    evaluateUnscaled root threshold (some spaces) (some fs) iel alpha =
      (unscaledForm root threshold u p uComp pComp rhs phi delta (adVar alpha)).map
        fun r => (withNan u uComp phi (valDer r).1, (valDer r).2) := by
  obtain ⟨vs, h1, h2, h3⟩ := h.flux
  obtain ⟨qs, e, h4, h5, h6, h7⟩ := h.pressure
  unfold evaluateUnscaled
  simp only [h1, h4, h.source, h.porosity, h.factor, h.gradient, entry, Res.bind_ok, getIdx_of h2,
    getIdx_of h5, h3, h6, h7]
  cases unscaledForm root threshold u p uComp pComp rhs phi delta (adVar alpha) <;> rfl

/-- C76: the threshold must be positive; then the coefficients of the form are positive. -/
theorem C76_threshold [IsStrictOrderedRing K] (value : K) :
    (0 < value → setThreshold value = .ok value ∧ ∀ x, 0 < clamp value x) ∧
    (value ≤ 0 → setThreshold value = .error .valueError) := by
  refine ⟨fun h => ⟨?_, fun x => ?_⟩, fun h => ?_⟩
  · unfold setThreshold
    rw [if_neg (not_le.2 h)]
  · unfold clamp
    split
    · exact h
    · next hx =>
      rw [not_or] at hx
      have h1 := hx.1
      have h2 := not_lt.1 hx.2
      unfold vanishing at h1
      simp only [decide_eq_true_eq, not_le] at h1
      rcases h2.eq_or_lt with h3 | h3
      · rw [← h3, abs_zero] at h1
        have : (0 : K) < 1 / 10 ^ 8 := by positivity
        exact absurd h1 (not_lt.2 this.le)
      · exact h3
  · unfold setThreshold
    rw [if_pos h]

/-- C76: without negative porosities, `evaluate_form` returns the residual and the matrix of
`∫ δ⁻² u · ψ - p div ψ + div u w + φ p w - √φ f w`, with `φ` and `δ` replaced by the threshold in the
matrix where they vanish. -/
theorem C76_system_partial {spaces : Dict String (FSpace (Elem K X))} {fs : Data K X}
    {iel : Nat} {u : Elem K X} {p : Tab K} {rhs : X → Nat → Nat → K} {phi delta : X → Nat → K}
    {grad : X → Nat → Nat → K} (hs : MixedShapes u p)
    (h : Input "u" "p" spaces fs iel u p 1 1 rhs phi delta grad) (root : K → K) (threshold : K)
    (hphi : ∀ i < u.nPts, 0 ≤ phi u.x i) (alpha : Nat → K) :
    ∃ r j, evaluateUnscaled root threshold (some spaces) (some fs) iel alpha = .ok (r, j) ∧
      r.n = u.tab.nPhi + p.nPhi ∧ j.n = u.tab.nPhi + p.nPhi ∧
      (∀ a < r.n, r.val a = some (∑ b ∈ Finset.range (u.tab.nPhi + p.nPhi),
          systemMatrix u p
            (fun i => 1 / (clamp threshold (delta u.x i) * clamp threshold (delta u.x i)))
            (fun i => clamp threshold (phi u.x i)) (divAt u) a b * alpha b -
        sourceTerm u p (fun i => root (phi u.x i)) rhs a)) ∧
      ∀ a < j.n, ∀ b < j.n, j.val a b = systemMatrix u p
        (fun i => 1 / (clamp threshold (delta u.x i) * clamp threshold (delta u.x i)))
        (fun i => clamp threshold (phi u.x i)) (divAt u) a b := by
  obtain ⟨r, h1, h2, h3⟩ := unscaledForm_spec hs root threshold rhs phi delta (adVar alpha)
  refine ⟨withNan u 1 phi (valDer r).1, (valDer r).2, ?_, h2, h2, ?_, ?_⟩
  · rw [evaluateUnscaled_eq h, h1]; rfl
  · intro a ha
    have hn : (List.range u.nPts).any (fun i => decide (phi u.x i < 0)) = false := by
      rw [List.any_eq_false]
      intro i hi
      simpa using hphi i (List.mem_range.1 hi)
    unfold withNan
    dsimp only
    rw [if_neg (by rw [hn]; simp)]
    show some (r.val a).fst = _
    rw [h3 a (h2 ▸ ha), fst_affine]
  · intro a ha b hb
    show (r.val a).snd b = _
    rw [h3 a (h2 ▸ ha), snd_affine _ _ _ _ _ (h2 ▸ hb)]

/-- C76 fails for a negative porosity: the matrix is computed with the threshold, but every residual
of the pressure is `nan`. -/
theorem C76_negative_violated {spaces : Dict String (FSpace (Elem K X))} {fs : Data K X}
    {iel : Nat} {u : Elem K X} {p : Tab K} {rhs : X → Nat → Nat → K} {phi delta : X → Nat → K}
    {grad : X → Nat → Nat → K} (hs : MixedShapes u p)
    (h : Input "u" "p" spaces fs iel u p 1 1 rhs phi delta grad) (root : K → K) (threshold : K)
    (hphi : ∃ i < u.nPts, phi u.x i < 0) (alpha : Nat → K) :
    ∃ r j, evaluateUnscaled root threshold (some spaces) (some fs) iel alpha = .ok (r, j) ∧
      ∀ a, u.tab.nPhi ≤ a → r.val a = none := by
  obtain ⟨r, h1, h2, h3⟩ := unscaledForm_spec hs root threshold rhs phi delta (adVar alpha)
  refine ⟨withNan u 1 phi (valDer r).1, (valDer r).2, ?_, ?_⟩
  · rw [evaluateUnscaled_eq h, h1]; rfl
  · intro a ha
    obtain ⟨i, hi, hlt⟩ := hphi
    unfold withNan
    dsimp only
    rw [if_pos ⟨by omega, List.any_eq_true.2 ⟨i, List.mem_range.2 hi, by simpa using hlt⟩⟩]

/-- C76: more than one component in a field is refused. -/
theorem C76_components_refused {spaces : Dict String (FSpace (Elem K X))}
    {fs : Data K X} {iel : Nat} {u : Elem K X} {p : Tab K} {uComp pComp : Nat}
    {rhs : X → Nat → Nat → K} {phi delta : X → Nat → K} {grad : X → Nat → Nat → K}
    (h : Input "u" "p" spaces fs iel u p uComp pComp rhs phi delta grad) (hn : 0 < u.nPts)
    (hc : u.tab.nPhi ≠ u.tab.nPhi * uComp ∨ p.nPhi ≠ p.nPhi * pComp) (root : K → K) (threshold : K)
    (alpha : Nat → K) :
    evaluateUnscaled root threshold (some spaces) (some fs) iel alpha = .error .valueError := by
  rw [evaluateUnscaled_eq h, unscaledForm_error hn hc]
  rfl

/-- C76: the quadratic form of the matrix is `∫ δ⁻² |u|² + φ p²` with the replaced coefficients; it is
not negative for a positive threshold. -/
theorem C76_energy [IsStrictOrderedRing K] (u : Elem K X) (p : Tab K) (phi delta : X → Nat → K)
    {threshold : K} (ht : 0 < threshold) (hw : ∀ i < u.nPts, 0 ≤ u.det i * u.weights i) (n : Nat)
    (x : Nat → K) :
    ∑ a ∈ Finset.range n, x a * ∑ b ∈ Finset.range n, systemMatrix u p
        (fun i => 1 / (clamp threshold (delta u.x i) * clamp threshold (delta u.x i)))
        (fun i => clamp threshold (phi u.x i)) (divAt u) a b * x b =
      ∑ i ∈ Finset.range u.nPts, u.det i * u.weights i *
        (1 / (clamp threshold (delta u.x i) * clamp threshold (delta u.x i)) *
            ∑ d ∈ Finset.range u.dim, (combine n x (dofFields u p (divAt u) i)).vel d ^ 2 +
          clamp threshold (phi u.x i) * (combine n x (dofFields u p (divAt u) i)).pres ^ 2) ∧
    0 ≤ ∑ a ∈ Finset.range n, x a * ∑ b ∈ Finset.range n, systemMatrix u p
        (fun i => 1 / (clamp threshold (delta u.x i) * clamp threshold (delta u.x i)))
        (fun i => clamp threshold (phi u.x i)) (divAt u) a b * x b := by
  have key := systemMatrix_form u p
    (fun i => 1 / (clamp threshold (delta u.x i) * clamp threshold (delta u.x i)))
    (fun i => clamp threshold (phi u.x i)) (divAt u) n x x
  simp only [pairing_self] at key
  refine ⟨key, ?_⟩
  rw [key]
  refine Finset.sum_nonneg fun i hi => ?_
  have h1 := ((C76_threshold threshold).1 ht).2 (delta u.x i)
  have h2 := ((C76_threshold threshold).1 ht).2 (phi u.x i)
  have h3 := hw i (Finset.mem_range.1 hi)
  have h4 : 0 ≤ ∑ d ∈ Finset.range u.dim, (combine n x (dofFields u p (divAt u) i)).vel d ^ 2 :=
    Finset.sum_nonneg fun d _ => sq_nonneg _
  positivity

/-- The scaled fields of `(v, q)` where `v` has the divergence `s.dv`: what the scaled form uses. -/
def scaledFields (dim : Nat) (root phi delta : K) (grad : Nat → K) (s : Fields K) : Fields K :=
  ⟨s.vel, (delta * s.dv + ∑ d ∈ Finset.range dim, grad d * s.vel d) / root, s.pres⟩

/-- The physical fields `δ v` and `q / √φ` of `(v, q)`, with the divergence of the product. -/
def physicalFields (dim : Nat) (root phi delta : K) (grad : Nat → K) (s : Fields K) : Fields K :=
  ⟨fun d => delta * s.vel d, delta * s.dv + ∑ d ∈ Finset.range dim, grad d * s.vel d, s.pres / root⟩

/-- C76: where porosity and `δ` are above `1e-8`, the unscaled form of the physical fields is the
scaled form of the scaled fields, and so are the sources. -/
theorem C76_scaling [IsStrictOrderedRing K] (dim : Nat) {root phi delta threshold : K} (grad : Nat → K)
    (hphi : 1 / 10 ^ 8 < phi) (hdelta : 1 / 10 ^ 8 < delta) (hroot : root * root = phi)
    (s t : Fields K) (f : K) :
    pairing dim (1 / (clamp threshold delta * clamp threshold delta)) (clamp threshold phi)
        (physicalFields dim root phi delta grad s) (physicalFields dim root phi delta grad t) =
      pairing dim 1 1 (scaledFields dim root phi delta grad s)
        (scaledFields dim root phi delta grad t) ∧
    root * f * (physicalFields dim root phi delta grad t).pres =
      1 * f * (scaledFields dim root phi delta grad t).pres := by
  have h8 : (0 : K) < 1 / 10 ^ 8 := by positivity
  have hc : ∀ x : K, 1 / 10 ^ 8 < x → clamp threshold x = x := by
    intro x hx
    unfold clamp vanishing
    have h0 := h8.trans hx
    rw [if_neg]
    rw [not_or]
    refine ⟨?_, not_lt.2 h0.le⟩
    simp only [decide_eq_true_eq, not_le]
    rwa [abs_of_pos h0]
  have hr : root ≠ 0 := by
    rintro rfl
    rw [mul_zero] at hroot
    exact absurd (h8.trans hphi) (by rw [← hroot]; exact lt_irrefl _)
  have hd : delta ≠ 0 := (h8.trans hdelta).ne'
  rw [hc _ hphi, hc _ hdelta, ← hroot]
  refine ⟨?_, ?_⟩
  · unfold pairing physicalFields scaledFields
    dsimp only
    have e : ∑ d ∈ Finset.range dim, delta * s.vel d * (delta * t.vel d) =
        delta * delta * ∑ d ∈ Finset.range dim, s.vel d * t.vel d := by
      rw [Finset.mul_sum]
      exact Finset.sum_congr rfl fun d _ => by ring
    rw [e]
    field_simp
  · unfold physicalFields scaledFields
    dsimp only
    field_simp

/-! ### The projection -/

/-- C77: `evaluate_form` returns the residual `∫ (u - δ v) · ψ + (p - q/√φ) w` and the mass matrix,
where points without positive porosity take `v` and `q` themselves. -/
theorem C77_system {spaces : Dict String (FSpace (Elem K X))} {fs : Data K X}
    {iel : Nat} {v : Elem K X} {q : Tab K} {phi delta : X → Nat → K} {vs qs : FSpace (Elem K X)}
    {e : Elem K X} (hs : MixedShapes v q)
    (h1 : spaces.getItem "v" = .ok vs ∧ vs.elements[iel]? = some v ∧ vs.nComp = 1)
    (h2 : spaces.getItem "q" = .ok qs ∧ qs.elements[iel]? = some e ∧ e.tab = q ∧ qs.nComp = 1)
    (h3 : fs.porosity = some phi) (h4 : fs.dPhi = some delta) (root : K → K)
    (alpha scaled : Nat → K) :
    ∃ r j, evaluateProjection root (some spaces) (some fs) iel alpha scaled = .ok (r, j) ∧
      r.n = v.tab.nPhi + q.nPhi ∧ j.n = v.tab.nPhi + q.nPhi ∧
      (∀ a < r.n, r.val a = ∑ b ∈ Finset.range (v.tab.nPhi + q.nPhi), l2Matrix v q a b * alpha b -
        physicalMoment root v q phi delta scaled a) ∧
      ∀ a < j.n, ∀ b < j.n, j.val a b = l2Matrix v q a b := by
  obtain ⟨r, e1, e2, e3⟩ := projectionForm_spec hs root phi delta scaled (adVar alpha)
  refine ⟨(valDer r).1, (valDer r).2, ?_, e2, e2, ?_, ?_⟩
  · unfold evaluateProjection
    simp only [h1.1, h2.1, h3, h4, entry, Res.bind_ok, getIdx_of h1.2.1, getIdx_of h2.2.1, h1.2.2,
      h2.2.2.1, h2.2.2.2]
    rw [e1]
    rfl
  · intro a ha
    show (r.val a).fst = _
    rw [e3 a (e2 ▸ ha), fst_affine]
  · intro a ha b hb
    show (r.val a).snd b = _
    rw [e3 a (e2 ▸ ha), snd_affine _ _ _ _ _ (e2 ▸ hb)]

/-- C77: when the space contains the physical fields, their coefficients have no residual, and any
other solution has the same values in the quadrature points. -/
theorem C77_projection [IsStrictOrderedRing K] (root : K → K) (v : Elem K X) (q : Tab K)
    (phi delta : X → Nat → K) (scaled x : Nat → K)
    (hvel : ∀ i < v.nPts, ∀ d < v.dim,
      (combine (v.tab.nPhi + q.nPhi) x (dofFields v q (fun _ _ => 0) i)).vel d =
        (physical root (phi v.x i) (delta v.x i) (combine (v.tab.nPhi + q.nPhi) scaled
          (dofFields v q (fun _ _ => 0) i))).vel d)
    (hpres : ∀ i < v.nPts,
      (combine (v.tab.nPhi + q.nPhi) x (dofFields v q (fun _ _ => 0) i)).pres =
        (physical root (phi v.x i) (delta v.x i) (combine (v.tab.nPhi + q.nPhi) scaled
          (dofFields v q (fun _ _ => 0) i))).pres) :
    (∀ a, ∑ b ∈ Finset.range (v.tab.nPhi + q.nPhi), l2Matrix v q a b * x b =
      physicalMoment root v q phi delta scaled a) ∧
    ((∀ i < v.nPts, 0 < v.det i * v.weights i) → ∀ y : Nat → K,
      (∀ a < v.tab.nPhi + q.nPhi, ∑ b ∈ Finset.range (v.tab.nPhi + q.nPhi), l2Matrix v q a b * y b =
        physicalMoment root v q phi delta scaled a) →
      ∀ i < v.nPts, (∀ d < v.dim,
        (combine (v.tab.nPhi + q.nPhi) y (dofFields v q (fun _ _ => 0) i)).vel d =
          (combine (v.tab.nPhi + q.nPhi) x (dofFields v q (fun _ _ => 0) i)).vel d) ∧
        (combine (v.tab.nPhi + q.nPhi) y (dofFields v q (fun _ _ => 0) i)).pres =
          (combine (v.tab.nPhi + q.nPhi) x (dofFields v q (fun _ _ => 0) i)).pres) := by
  have hx : ∀ a, ∑ b ∈ Finset.range (v.tab.nPhi + q.nPhi), l2Matrix v q a b * x b =
      physicalMoment root v q phi delta scaled a := by
    intro a
    unfold l2Matrix physicalMoment
    rw [systemMatrix_mul]
    refine Finset.sum_congr rfl fun i hi => ?_
    congr 1
    have hi := Finset.mem_range.1 hi
    have hz : (dofFields v q (fun _ _ => 0) i a).dv = 0 := by
      unfold dofFields
      split <;> rfl
    have hz2 : (combine (v.tab.nPhi + q.nPhi) x (dofFields v q (fun _ _ => 0) i)).dv = 0 := by
      show ∑ b ∈ Finset.range (v.tab.nPhi + q.nPhi),
        x b * (dofFields v q (fun _ _ => 0) i b).dv = 0
      refine Finset.sum_eq_zero fun b _ => ?_
      have : (dofFields v q (fun _ _ => 0) i b).dv = 0 := by
        unfold dofFields
        split <;> rfl
      rw [this, mul_zero]
    have hz3 : (physical root (phi v.x i) (delta v.x i) (combine (v.tab.nPhi + q.nPhi) scaled
          (dofFields v q (fun _ _ => 0) i))).dv = 0 := by
      unfold physical
      split <;> rfl
    unfold pairing
    have e : ∑ d ∈ Finset.range v.dim,
        (combine (v.tab.nPhi + q.nPhi) x (dofFields v q (fun _ _ => 0) i)).vel d *
          (dofFields v q (fun _ _ => 0) i a).vel d =
        ∑ d ∈ Finset.range v.dim, (physical root (phi v.x i) (delta v.x i)
          (combine (v.tab.nPhi + q.nPhi) scaled (dofFields v q (fun _ _ => 0) i))).vel d *
          (dofFields v q (fun _ _ => 0) i a).vel d :=
      Finset.sum_congr rfl fun d hd => by rw [hvel i hi d (Finset.mem_range.1 hd)]
    rw [hz, hz2, hz3, hpres i hi, e]
  refine ⟨hx, ?_⟩
  intro hw y hy i hi
  have hk := (C75_energy v q (fun _ _ => 0) (v.tab.nPhi + q.nPhi) (fun b => y b - x b)).2 hw (by
    intro a ha
    have e := hy a ha
    rw [← hx a] at e
    simp only [mul_sub, Finset.sum_sub_distrib]
    exact sub_eq_zero.2 e) i hi
  refine ⟨fun d hd => ?_, ?_⟩
  · have := hk.1 d hd
    simp only [combine, sub_mul, Finset.sum_sub_distrib] at this
    exact sub_eq_zero.1 this
  · have := hk.2
    simp only [combine, sub_mul, Finset.sum_sub_distrib] at this
    exact sub_eq_zero.1 this

/-! ### Examples -/

/-- The data of the examples: porosity 4, `δ = 3`, `∇δ = 1`. -/
def exampleData : Data ℚ Unit :=
  ⟨some fun _ _ _ => 5, some fun _ _ => 4, some fun _ _ => 3, some fun _ _ _ => 1⟩

/-- The root of the examples: that of 4. -/
def exampleRoot : ℚ → ℚ := fun _ => 2

theorem example_input (f g : String) :
    Input f g [(f, ⟨1, [interval]⟩), (g, ⟨1, [interval]⟩)] exampleData 0 interval interval.tab 1 1
      (fun _ _ _ => 5) (fun _ _ => 4) (fun _ _ => 3) (fun _ _ _ => 1) := by
  refine ⟨⟨⟨1, [interval]⟩, ?_, rfl, rfl⟩, ⟨⟨1, [interval]⟩, interval, ?_, rfl, rfl, rfl⟩, rfl, rfl,
    rfl, rfl⟩
  · simp [Dict.getItem, Dict.get?]
  · simp [Dict.getItem, Dict.get?]

/-- One flux and one pressure function on the interval: `D(ψ) = (3 + 1) / 2 = 2`. -/
example : ∃ r j, evaluateForm exampleRoot (some [("v", ⟨1, [interval]⟩), ("q", ⟨1, [interval]⟩)])
    (some exampleData) 0 (fun a => if a = 0 then 1 else 7) = .ok (r, j) ∧ r.n = 2 ∧
    j.val 0 0 = 1 ∧ j.val 0 1 = - 2 ∧ j.val 1 0 = 2 ∧ j.val 1 1 = 1 ∧ r.val 0 = 1 - 14 ∧
    r.val 1 = 2 + 7 - 5 := by
  obtain ⟨r, j, h, hn, hm, hr, hj⟩ := C75_system interval_shapes
    (example_input "v" "q") exampleRoot (fun a => if a = 0 then 1 else 7)
  have hn : r.n = 2 := hn
  have hm : j.n = 2 := hm
  refine ⟨r, j, h, hn, ?_, ?_, ?_, ?_, ?_, ?_⟩
  · rw [hj 0 (by omega) 0 (by omega)]
    norm_num [systemMatrix, pairing, dofFields, interval]
  · rw [hj 0 (by omega) 1 (by omega)]
    norm_num [systemMatrix, pairing, dofFields, interval, scaledDiv, exampleRoot, divAt]
  · rw [hj 1 (by omega) 0 (by omega)]
    norm_num [systemMatrix, pairing, dofFields, interval, scaledDiv, exampleRoot, divAt]
  · rw [hj 1 (by omega) 1 (by omega)]
    norm_num [systemMatrix, pairing, dofFields, interval]
  · rw [hr 0 (by omega)]
    norm_num [systemMatrix, pairing, dofFields, interval, scaledDiv, exampleRoot, divAt, sourceTerm,
      Finset.sum_range_succ]
  · rw [hr 1 (by omega)]
    norm_num [systemMatrix, pairing, dofFields, interval, scaledDiv, exampleRoot, divAt, sourceTerm,
      Finset.sum_range_succ]

/-- The unscaled form on the interval. -/
example : ∃ r j, evaluateUnscaled exampleRoot (1 / 10 ^ 16)
    (some [("u", ⟨1, [interval]⟩), ("p", ⟨1, [interval]⟩)]) (some exampleData) 0
    (fun a => if a = 0 then 9 else 7) = .ok (r, j) ∧
    j.val 0 0 = 1 / 9 ∧ j.val 0 1 = - 1 ∧ j.val 1 0 = 1 ∧ j.val 1 1 = 4 ∧
    r.val 0 = some (1 - 7) ∧ r.val 1 = some (9 + 28 - 10) := by
  obtain ⟨r, j, h, hn, hm, hr, hj⟩ := C76_system_partial interval_shapes
    (example_input "u" "p") exampleRoot (1 / 10 ^ 16) (fun i _ => by norm_num)
    (fun a => if a = 0 then 9 else 7)
  have hn : r.n = 2 := hn
  have hm : j.n = 2 := hm
  have c3 : clamp (1 / 10 ^ 16) (3 : ℚ) = 3 := by norm_num [clamp, vanishing]
  have c4 : clamp (1 / 10 ^ 16) (4 : ℚ) = 4 := by norm_num [clamp, vanishing]
  rw [c3, c4] at hr hj
  refine ⟨r, j, h, ?_, ?_, ?_, ?_, ?_, ?_⟩
  · rw [hj 0 (by omega) 0 (by omega)]
    norm_num [systemMatrix, pairing, dofFields, interval]
  · rw [hj 0 (by omega) 1 (by omega)]
    norm_num [systemMatrix, pairing, dofFields, interval, divAt]
  · rw [hj 1 (by omega) 0 (by omega)]
    norm_num [systemMatrix, pairing, dofFields, interval, divAt]
  · rw [hj 1 (by omega) 1 (by omega)]
    norm_num [systemMatrix, pairing, dofFields, interval]
  · rw [hr 0 (by omega)]
    norm_num [systemMatrix, pairing, dofFields, interval, exampleRoot, divAt, sourceTerm,
      Finset.sum_range_succ]
  · rw [hr 1 (by omega)]
    norm_num [systemMatrix, pairing, dofFields, interval, exampleRoot, divAt, sourceTerm,
      Finset.sum_range_succ]

/-- Porosity -1: the residual of the pressure is `nan`. -/
example : ∃ r j, evaluateUnscaled exampleRoot (1 / 10 ^ 16)
    (some [("u", ⟨1, [interval]⟩), ("p", ⟨1, [interval]⟩)])
    (some { exampleData with porosity := some fun _ _ => -1 }) 0 (fun _ => 0) = .ok (r, j) ∧
    r.val 1 = none := by
  obtain ⟨r, j, h, hr⟩ := C76_negative_violated (u := interval) (p := interval.tab)
    (rhs := fun _ _ _ => 5) (phi := fun _ _ => -1) (delta := fun _ _ => 3) (grad := fun _ _ _ => 1)
    (spaces := [("u", ⟨1, [interval]⟩), ("p", ⟨1, [interval]⟩)])
    (fs := { exampleData with porosity := some fun _ _ => -1 }) (iel := 0) interval_shapes
    ⟨⟨⟨1, [interval]⟩, rfl, rfl, rfl⟩, ⟨⟨1, [interval]⟩, interval, rfl, rfl, rfl, rfl⟩, rfl, rfl,
      rfl, rfl⟩ exampleRoot (1 / 10 ^ 16) ⟨0, by decide, by norm_num⟩ (fun _ => 0)
  exact ⟨r, j, h, hr 1 (by decide)⟩

example : (1 : ℚ) / 10 ^ 8 < 4 ∧ (1 : ℚ) / 10 ^ 8 < 3 ∧ (2 : ℚ) * 2 = 4 := by norm_num

/-- Two components of the pressure are refused. -/
example : evaluateUnscaled exampleRoot (1 / 10 ^ 16)
    (some [("u", ⟨1, [interval]⟩), ("p", ⟨2, [interval]⟩)]) (some exampleData) 0 (fun _ => 0) =
    .error .valueError :=
  C76_components_refused (u := interval) (p := interval.tab) (rhs := fun _ _ _ => 5)
    (phi := fun _ _ => 4) (delta := fun _ _ => 3) (grad := fun _ _ _ => 1)
    ⟨⟨⟨1, [interval]⟩, rfl, rfl, rfl⟩, ⟨⟨2, [interval]⟩, interval, rfl, rfl, rfl, rfl⟩, rfl, rfl,
      rfl, rfl⟩ (by decide) (.inr (by decide)) _ _ _

/-- The gradient must be there. -/
example : evaluateForm exampleRoot (some [("v", ⟨1, [interval]⟩), ("q", ⟨1, [interval]⟩)])
    (some { exampleData with gradDPhi := none }) 0 (fun _ => 0) = .error .keyError :=
  (C75_missing_data (us := ⟨1, []⟩) (ps := ⟨1, []⟩) exampleRoot 0 _ (.inr (.inr (.inr rfl))) 0 _).1
    rfl rfl

/-- Without porosity the boundary datum is not scaled. -/
example : boundaryDatum exampleRoot (5 : ℚ) 0 0 = 5 :=
  (C75_boundary_violated exampleRoot 5 0 0 (by norm_num) interval (fun _ _ _ => 1) 0 0).1

example : boundaryDatum exampleRoot (5 : ℚ) 4 3 = 15 / 2 := by
  norm_num [boundaryDatum, vanishing, exampleRoot]

/-- The projection of `v = 1`, `q = 7` on the interval is `u = 3`, `p = 7/2`. -/
example : ∃ r j, evaluateProjection exampleRoot
    (some [("v", ⟨1, [interval]⟩), ("q", ⟨1, [interval]⟩)]) (some exampleData) 0
    (fun a => if a = 0 then 3 else 7 / 2) (fun a => if a = 0 then 1 else 7) = .ok (r, j) ∧
    r.val 0 = 0 ∧ r.val 1 = 0 := by
  obtain ⟨r, j, h, hn, hm, hr, hj⟩ := C77_system (v := interval) (q := interval.tab)
    (vs := ⟨1, [interval]⟩) (qs := ⟨1, [interval]⟩) (e := interval)
    (spaces := [("v", ⟨1, [interval]⟩), ("q", ⟨1, [interval]⟩)]) (fs := exampleData) (iel := 0)
    interval_shapes ⟨rfl, rfl, rfl⟩ ⟨rfl, rfl, rfl, rfl⟩ rfl rfl exampleRoot
    (fun a => if a = 0 then 3 else 7 / 2) (fun a => if a = 0 then 1 else 7)
  have hn : r.n = 2 := hn
  have hp := C77_projection exampleRoot interval interval.tab (fun _ _ => 4) (fun _ _ => 3)
    (fun a => if a = 0 then 1 else 7) (fun a => if a = 0 then 3 else 7 / 2)
    (by
      intro i _ d _
      norm_num [combine, physical, dofFields, interval, Finset.sum_range_succ])
    (by
      intro i _
      norm_num [combine, physical, dofFields, interval, Finset.sum_range_succ, exampleRoot])
  refine ⟨r, j, h, ?_, ?_⟩
  · rw [hr 0 (by omega)]
    exact sub_eq_zero.2 (hp.1 0)
  · rw [hr 1 (by omega)]
    exact sub_eq_zero.2 (hp.1 1)

example : ∀ i < interval.nPts, 0 < interval.det i * interval.weights i := by
  intro i _
  norm_num [interval]

#print axioms C75_system
#print axioms C75_energy
#print axioms C75_decoupled
#print axioms C75_boundary_partial
#print axioms C75_boundary_violated
#print axioms C75_components_refused
#print axioms C75_unset_refused
#print axioms C75_missing_data
#print axioms C76_threshold
#print axioms C76_system_partial
#print axioms C76_negative_violated
#print axioms C76_components_refused
#print axioms C76_energy
#print axioms C76_scaling
#print axioms C77_system
#print axioms C77_projection

end Verif.Degenerate
