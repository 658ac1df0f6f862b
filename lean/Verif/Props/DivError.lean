/-
Property theorems C82: errors and norms of divergences (src/postprocess/l2_error_post_processor.py,
src/postprocess/solution_norms_post_processor.py), in exact arithmetic.
-/
import Verif.Lemmas.DivError
import Verif.Props.L2Error
import Mathlib.Tactic.NormNum
import Mathlib.Tactic.Linarith

namespace Verif.DivError
open Assembly L2Form MeshGraph Trace L2Error

variable {X : Type} {dim : Nat} {fe : DFe X} {fs : Funs X} {alpha : List ℝ} {skip : List String}

/-- C82: the divergence error of every vector field that is not skipped, in their order, is the root
of the quadrature of `|f - div f_h|²` over the elements of the dimension, where `f` has an array of
`n_comp` values.  Scalar values are left out, see `C82_scalar_violated`; in dimension one the fields
are those of the Lagrange family. -/
theorem C82_error_partial (hr : fe.quadrature[dim]? = some (some ()))
    (h : ∀ q ∈ fields (errorFamily dim) skip fe.spaces, Ready dim fe alpha.length q ∧
      Weighted dim q ∧ ∃ f, fs.exact.get? ("div_" ++ q.1) = some f ∧ f.cols = some q.2.nComp) :
    ∃ r, divError dim fe fs alpha skip = .ok r ∧
      List.Forall₂ (fun q v => ∃ f, fs.exact.get? ("div_" ++ q.1) = some f ∧
        v = some (Real.sqrt (divErrorSq (basisDiv dim) dim fe f alpha q)))
        (fields (errorFamily dim) skip fe.spaces) r := by
  let F : String → DExact X := fun name => (fs.exact.get? ("div_" ++ name)).getD ⟨none, fun _ _ _ => 0⟩
  have hF : ∀ q ∈ fields (errorFamily dim) skip fe.spaces,
      fs.exact.get? ("div_" ++ q.1) = some (F q.1) ∧ (F q.1).cols = some q.2.nComp := by
    intro q hq
    obtain ⟨-, -, f, h1, h2⟩ := h q hq
    have : F q.1 = f := by simp [F, h1]
    rw [this]; exact ⟨h1, h2⟩
  have hov := overSpaces_spec dim (errorFamily dim) skip (fun name => do
    let f ← fs.exact.getItem ("div_" ++ name)
    pure (some (contribution fe alpha name f (divStar dim))))
    (fun name => contribution fe alpha name (F name) (divStar dim))
    (fun q p => ∑ i ∈ Finset.range p.1.nPts, ∑ c ∈ Finset.range q.2.nComp, p.1.det i * p.1.weights i *
        ((F q.1).val p.1.x c i - discreteDiv (basisDiv dim) fe alpha q p i c) ^ 2) fe.spaces
    (fun q hq => by simp [Dict.getItem, (hF q hq).1, bind, Except.bind, pure, Except.pure])
    (fun q hq p hp => contribution_spec (h q hq).1 (hF q hq).2
      (fun p hp i a => divStar_eq ((h q hq).1.vals p hp) ((h q hq).1.ders p hp) i a) hp)
  refine ⟨_, by rw [divError, rule_ok hr]; exact hov, ?_⟩
  rw [List.forall₂_map_right_iff, List.forall₂_same]
  intro q hq
  exact ⟨F q.1, (hF q hq).1, npSqrt_nonneg (integralSq_nonneg (h q hq).2.1 _)⟩

/-- C82: with `l` and `grad_l` the error is that of `div (l f_h) = l div f_h + ∇l · f_h`. -/
theorem C82_scaled_partial {gamma : X → Nat → ℝ} {grad : Nat × (X → Nat → Nat → ℝ)}
    (hg : fs.scale.gamma = some gamma) (hd : fs.scale.grad = some grad) (hn : dim ≤ grad.1)
    (hr : fe.quadrature[dim]? = some (some ()))
    (h : ∀ q ∈ fields vecFamily skip fe.spaces, Ready dim fe alpha.length q ∧
      Weighted dim q ∧ ∃ f, fs.exact.get? ("div_" ++ q.1) = some f ∧ f.cols = some q.2.nComp) :
    ∃ r, divScaledError dim fe fs alpha skip = .ok r ∧
      List.Forall₂ (fun q v => ∃ f, fs.exact.get? ("div_" ++ q.1) = some f ∧
        v = some (Real.sqrt (divErrorSq (scaledDiv dim gamma grad.2) dim fe f alpha q)))
        (fields vecFamily skip fe.spaces) r := by
  let F : String → DExact X := fun name => (fs.exact.get? ("div_" ++ name)).getD ⟨none, fun _ _ _ => 0⟩
  have hF : ∀ q ∈ fields vecFamily skip fe.spaces,
      fs.exact.get? ("div_" ++ q.1) = some (F q.1) ∧ (F q.1).cols = some q.2.nComp := by
    intro q hq
    obtain ⟨-, -, f, h1, h2⟩ := h q hq
    have : F q.1 = f := by simp [F, h1]
    rw [this]; exact ⟨h1, h2⟩
  have hov := overSpaces_spec dim vecFamily skip (fun name => do
    let f ← fs.exact.getItem ("div_" ++ name)
    match fs.scale.gamma, fs.scale.grad with
    | some gamma, some grad =>
      pure (some (contribution fe alpha name f fun el => scaledStar dim el gamma grad))
    | _, _ => pure none)
    (fun name => contribution fe alpha name (F name) fun el => scaledStar dim el gamma grad)
    (fun q p => ∑ i ∈ Finset.range p.1.nPts, ∑ c ∈ Finset.range q.2.nComp, p.1.det i * p.1.weights i *
        ((F q.1).val p.1.x c i - discreteDiv (scaledDiv dim gamma grad.2) fe alpha q p i c) ^ 2) fe.spaces
    (fun q hq => by simp [Dict.getItem, (hF q hq).1, hg, hd, bind, Except.bind, pure, Except.pure])
    (fun q hq p hp => contribution_spec (h q hq).1 (hF q hq).2
      (fun p hp i a => scaledStar_eq ((h q hq).1.vals p hp) ((h q hq).1.ders p hp) gamma hn i a) hp)
  refine ⟨_, by rw [divScaledError, rule_ok hr]; exact hov, ?_⟩
  rw [List.forall₂_map_right_iff, List.forall₂_same]
  intro q hq
  exact ⟨F q.1, (hF q hq).1, npSqrt_nonneg (integralSq_nonneg (h q hq).2.1 _)⟩

/-- C82: a field whose exact divergence is not scaled (no `l` or no `grad_l`) has no entry. -/
theorem C82_unscaled (hs : fs.scale.gamma = none ∨ fs.scale.grad = none)
    (hr : fe.quadrature[dim]? = some (some ()))
    (h : ∀ q ∈ fields vecFamily skip fe.spaces, (fs.exact.get? ("div_" ++ q.1)).isSome) :
    divScaledError dim fe fs alpha skip = .ok [] := by
  rw [divScaledError, rule_ok hr]
  refine overSpaces_none _ _ _ _ _ fun q hq => ?_
  obtain ⟨f, hf⟩ := Option.isSome_iff_exists.1 (h q hq)
  simp only [Dict.getItem, hf, Res.bind_ok]
  rcases hs with hs | hs
  · rw [hs]; rfl
  · rw [hs]; cases fs.scale.gamma <;> rfl

/-- C82: the norm of the exact divergence of every vector field that is not skipped. -/
theorem C82_norm (hr : fe.quadrature[dim]? = some (some ()))
    (h : ∀ q ∈ fields vecFamily skip fe.spaces, Weighted dim q ∧
      ∃ f, fs.exact.get? ("div_" ++ q.1) = some f ∧ f.cols.getD 1 = q.2.nComp) :
    ∃ r, divNorm dim fe fs skip = .ok r ∧
      List.Forall₂ (fun q v => ∃ f, fs.exact.get? ("div_" ++ q.1) = some f ∧
        v = some (Real.sqrt (integralSq dim q fun p i c => f.val p.1.x c i)))
        (fields vecFamily skip fe.spaces) r := by
  let F : String → DExact X := fun name => (fs.exact.get? ("div_" ++ name)).getD ⟨none, fun _ _ _ => 0⟩
  have hF : ∀ q ∈ fields vecFamily skip fe.spaces,
      fs.exact.get? ("div_" ++ q.1) = some (F q.1) ∧ (F q.1).cols.getD 1 = q.2.nComp := by
    intro q hq
    obtain ⟨-, f, h1, h2⟩ := h q hq
    have : F q.1 = f := by simp [F, h1]
    rw [this]; exact ⟨h1, h2⟩
  have hov := overSpaces_spec dim vecFamily skip (fun name => do
    let f ← fs.exact.getItem ("div_" ++ name)
    pure (some fun _ el => pure (sheetSq el (exactSheet f el.x))))
    (fun name _ el => pure (sheetSq el (exactSheet (F name) el.x)))
    (fun q p => ∑ i ∈ Finset.range p.1.nPts, ∑ c ∈ Finset.range q.2.nComp, p.1.det i * p.1.weights i *
        (F q.1).val p.1.x c i ^ 2) fe.spaces
    (fun q hq => by simp [Dict.getItem, (hF q hq).1, bind, Except.bind, pure, Except.pure])
    (fun q hq p hp => by
      simp only [Res.pure_eq, sheetSq, exactSheet, (hF q hq).2]
      congr 1
      rw [Finset.sum_comm]
      exact Finset.sum_congr rfl fun i _ => Finset.sum_congr rfl fun c _ => by ring)
  refine ⟨_, by rw [divNorm, rule_ok hr]; exact hov, ?_⟩
  rw [List.forall₂_map_right_iff, List.forall₂_same]
  intro q hq
  exact ⟨F q.1, (hF q hq).1, npSqrt_nonneg (integralSq_nonneg (h q hq).1 _)⟩

/-- C82: the error vanishes iff the divergences agree in all points. -/
theorem C82_zero_iff {div : Laplace.Elem ℝ X → Nat → Nat → ℝ} {f : DExact X} {q : String × DSpace X}
    (h : Weighted dim q) : Real.sqrt (divErrorSq div dim fe f alpha q) = 0 ↔
      ∀ p ∈ cells dim q.2, ∀ i < p.1.nPts, ∀ c < q.2.nComp,
        discreteDiv div fe alpha q p i c = f.val p.1.x c i := by
  rw [divErrorSq, Real.sqrt_eq_zero (integralSq_nonneg h _), integralSq_eq_zero h]
  exact ⟨fun g p hp i hi c hc => (sub_eq_zero.1 (g p hp i hi c hc)).symm,
    fun g p hp i hi c hc => sub_eq_zero.2 (g p hp i hi c hc).symm⟩

/-- C82: without coefficients the error is the norm, so that errors divided by norms are relative
errors. -/
theorem C82_relative {n : Nat} (hd : dim ≠ 1) (hr : fe.quadrature[dim]? = some (some ()))
    (h : ∀ q ∈ fields vecFamily skip fe.spaces, Ready dim fe n q ∧
      Weighted dim q ∧ ∃ f, fs.exact.get? ("div_" ++ q.1) = some f ∧ f.cols = some q.2.nComp) :
    divError dim fe fs (List.replicate n 0) skip = divNorm dim fe fs skip := by
  have e0 : errorFamily dim = vecFamily := by funext f; simp [errorFamily, hd]
  obtain ⟨r, h1, h2⟩ := C82_error_partial (fs := fs) (alpha := List.replicate n 0) hr
    (by rw [e0, List.length_replicate]; exact h)
  obtain ⟨r', g1, g2⟩ := C82_norm (fs := fs) (skip := skip) hr fun q hq => by
    obtain ⟨-, k2, f, k3, k4⟩ := h q hq
    exact ⟨k2, f, k3, by rw [k4]; rfl⟩
  rw [h1, g1]
  rw [e0] at h2
  congr 1
  refine List.ext_getElem (h2.length_eq.symm.trans g2.length_eq) fun i hi hi' => ?_
  obtain ⟨f, a1, a2⟩ := (List.forall₂_iff_get.1 h2).2 i (h2.length_eq ▸ hi) hi
  obtain ⟨f', b1, b2⟩ := (List.forall₂_iff_get.1 g2).2 i (g2.length_eq ▸ hi') hi'
  rw [a1] at b1
  obtain rfl := Option.some.inj b1
  rw [List.get_eq_getElem, List.get_eq_getElem] at a2 b2
  refine a2.trans (Eq.trans ?_ b2.symm)
  have hz : ∀ k, (List.replicate n (0 : ℝ)).getD k 0 = 0 := fun k => by
    rw [List.getD_eq_getElem?_getD, List.getElem?_replicate]
    split <;> rfl
  simp only [divErrorSq, discreteDiv, coef, hz, mul_zero, Finset.sum_const_zero, sub_zero]

/-- C82: a vector field without an exact divergence raises. -/
theorem C82_missing {q : String × DSpace X} {rest : List (String × DSpace X)}
    (hr : fe.quadrature[dim]? = some (some ()))
    (hq : fields vecFamily skip fe.spaces = q :: rest)
    (hf : fs.exact.get? ("div_" ++ q.1) = none) :
    divNorm dim fe fs skip = .error .keyError ∧
      divScaledError dim fe fs alpha skip = .error .keyError ∧
      (dim ≠ 1 → divError dim fe fs alpha skip = .error .keyError) := by
  refine ⟨?_, ?_, fun hd => ?_⟩
  · rw [divNorm, rule_ok hr]
    exact overSpaces_error _ _ _ _ _ hq (.inl (by simp only [Dict.getItem, hf]; rfl))
  · rw [divScaledError, rule_ok hr]
    exact overSpaces_error _ _ _ _ _ hq (.inl (by simp only [Dict.getItem, hf]; rfl))
  · have e0 : errorFamily dim = vecFamily := by funext f; simp [errorFamily, hd]
    rw [divError, rule_ok hr, e0]
    exact overSpaces_error _ _ _ _ _ hq (.inl (by simp only [Dict.getItem, hf]; rfl))

/-- C82: an exact divergence with another number of values, neither one, raises. -/
theorem C82_shape {q : String × DSpace X} {rest : List (String × DSpace X)}
    {p : Laplace.Elem ℝ X × Nat} {ps : List (Laplace.Elem ℝ X × Nat)} {f : DExact X} {k : Nat}
    (hr : fe.quadrature[dim]? = some (some ()))
    (hq : fields (errorFamily dim) skip fe.spaces = q :: rest)
    (hp : cells dim q.2 = p :: ps) (hd : Ready dim fe alpha.length q)
    (hf : fs.exact.get? ("div_" ++ q.1) = some f) (hk : f.cols = some k) (h1 : k ≠ q.2.nComp)
    (h2 : k ≠ 1) (h3 : q.2.nComp ≠ 1) :
    divError dim fe fs alpha skip = .error .valueError := by
  rw [divError, rule_ok hr]
  refine overSpaces_error _ _ _ _ _ hq (.inr
    ⟨contribution fe alpha q.1 f (divStar dim), p, ps, ?_, hp, ?_⟩)
  · simp only [Dict.getItem, hf]; rfl
  · obtain ⟨d, l, a1, a2, a3, a4⟩ := hd.dest p (hp ▸ List.mem_cons_self)
    obtain ⟨al, a5, a6, a7⟩ := fancy_coefs a4
    have e1 : splitCols al.length p.1.tab.nPhi = .ok q.2.nComp := by
      rw [a6, a3]; exact splitCols_ok (hd.phi p (hp ▸ List.mem_cons_self))
    unfold contribution
    simp only [a1, Dict.getItem, a2, a5, e1, Res.bind_ok]
    unfold diff
    simp only [hk, bdim, if_neg h1, if_neg h2, if_neg h3]
    rfl

/-- C82: without a quadrature rule of the dimension the functions raise. -/
theorem C82_no_rule {e : Err} (hr : rule fe.quadrature dim = .error e) :
    divError dim fe fs alpha skip = .error e ∧ divScaledError dim fe fs alpha skip = .error e ∧
      divNorm dim fe fs skip = .error e := by
  refine ⟨?_, ?_, ?_⟩
  · rw [divError, hr]; rfl
  · rw [divScaledError, hr]; rfl
  · rw [divNorm, hr]; rfl

/-- C82: the fields that are reported: those of Raviart-Thomas and Brezzi-Douglas-Marini elements, in
dimension one the errors of Lagrange elements. -/
theorem C82_fields {q : String × DSpace X} {spaces : Dict String (DSpace X)} :
    (q ∈ fields vecFamily skip spaces ↔
      q ∈ spaces ∧ q.1 ∉ skip ∧ (q.2.family = .rt ∨ q.2.family = .bdm)) ∧
    (q ∈ fields (errorFamily dim) skip spaces ↔ q ∈ spaces ∧ q.1 ∉ skip ∧
      if dim = 1 then q.2.family = .lagrange else q.2.family = .rt ∨ q.2.family = .bdm) := by
  constructor
  · simp [fields, vecFamily, and_comm]
  · by_cases h : dim = 1 <;> simp [fields, errorFamily, vecFamily, h, and_comm]

/-! ### Example: a field of two points with divergence `i + 1` in the point `i` -/

/-- One element in the plane. -/
noncomputable def cell : Laplace.Elem ℝ Unit :=
  { dim := 2, nPts := 2, weights := fun _ => 1, det := fun _ => 1, x := ()
    tab := ⟨2, 1, 2, fun d i _ c => if d = 1 ∧ c = 0 then i + 1 else if d = 0 then 1 else 0⟩ }

/-- Its flux. -/
noncomputable def flux : String × DSpace Unit := ("q", ⟨1, .rt, [cell]⟩)

/-- A product space of the flux and a pressure. -/
noncomputable def feCell : DFe Unit :=
  { quadrature := [none, none, some (), none]
    spaces := [flux, ("p", ⟨1, .lagrange, [cell]⟩)]
    dests := fun _ => .ok [("q", [0])] }

/-- The divergence, as arrays of one value or as scalars. -/
noncomputable def exactDiv (cols : Option Nat) : Funs Unit :=
  ⟨[("div_q", ⟨cols, fun _ _ i => i + 1⟩)], ⟨some fun _ _ => 2, some (2, fun _ _ _ => 1)⟩⟩

theorem cell_cells : cells 2 flux.2 = [(cell, 0)] := rfl

theorem cell_ready : Ready 2 feCell 1 flux where
  dest := fun p hp => by
    rw [cell_cells, List.mem_singleton] at hp
    subst hp
    exact ⟨_, [0], rfl, rfl, rfl, by simp⟩
  phi := fun p hp => by
    rw [cell_cells, List.mem_singleton] at hp
    subst hp
    exact one_pos
  vals := fun p hp => by
    rw [cell_cells, List.mem_singleton] at hp
    subst hp
    exact le_rfl
  ders := fun p hp => by
    rw [cell_cells, List.mem_singleton] at hp
    subst hp
    exact le_rfl

theorem cell_weighted : Weighted 2 flux where
  pos := fun p hp i _ => by
    rw [cell_cells, List.mem_singleton] at hp
    subst hp
    simp [cell]

theorem cell_fields : fields vecFamily [] feCell.spaces = [flux] := by
  simp [fields, feCell, flux, vecFamily]

theorem cell_div (i : Nat) : discreteDiv (basisDiv 2) feCell [1] flux (cell, 0) i 0 = i + 1 := by
  have h1 : dofs feCell 0 "q" = [0] := rfl
  have h2 : basisDiv 2 cell i 0 = i + 1 := by
    simp [basisDiv, Dual.tabDiv, cell, Finset.sum_range_succ]
  show ∑ a ∈ Finset.range 1, basisDiv 2 cell i a * coef [1] (dofs feCell 0 "q") 1 0 a = _
  rw [Finset.sum_range_one, h1, h2]
  simp [coef]

/-! ### Disagreements -/

/-- C82: an exact divergence with scalar values is compared in every point with the values in all
points, though with one component `f - div f_h` is meant. -/
theorem C82_scalar_violated {q : String × DSpace X} (h1 : q.2.nComp = 1)
    (hd : Ready dim fe alpha.length q) {f : DExact X} (hk : f.cols = none)
    {p : Laplace.Elem ℝ X × Nat} (hp : p ∈ cells dim q.2) :
    contribution fe alpha q.1 f (divStar dim) p.2 p.1 =
      .ok (∑ i ∈ Finset.range p.1.nPts, ∑ j ∈ Finset.range p.1.nPts, p.1.det i * p.1.weights i *
        (f.val p.1.x 0 j - discreteDiv (basisDiv dim) fe alpha q p i 0) ^ 2) := by
  obtain ⟨d, l, a1, a2, a3, a4⟩ := hd.dest p hp
  obtain ⟨al, a5, a6, a7⟩ := fancy_coefs a4
  have hdo : dofs fe p.2 q.1 = l := by simp [dofs, a1, a2]
  have e1 : splitCols al.length p.1.tab.nPhi = .ok 1 := by
    rw [a6, a3, h1]; exact splitCols_ok (hd.phi p hp)
  have e2 : ∀ i, ∑ a ∈ Finset.range p.1.tab.nPhi, divStar dim p.1 i a * al.getD (a * 1 + 0) 0 =
      discreteDiv (basisDiv dim) fe alpha q p i 0 := by
    intro i
    unfold discreteDiv
    refine Finset.sum_congr rfl fun a ha => ?_
    have ha' := Finset.mem_range.1 ha
    rw [divStar_eq (hd.vals p hp) (hd.ders p hp), a7 _ (by rw [a3, h1]; omega), coef, hdo, h1]
  have e3 : bdim p.1.nPts 1 = .ok p.1.nPts := by
    unfold bdim
    by_cases h : p.1.nPts = 1
    · simp [h]
    · simp [h]
  unfold contribution
  simp only [a1, Dict.getItem, a2, a5, e1, Res.bind_ok]
  unfold diff
  simp only [hk, e3, Res.bind_ok, Res.pure_eq]
  congr 1
  unfold sheetSq
  dsimp only
  rw [Finset.sum_comm]
  refine Finset.sum_congr rfl fun i _ => Finset.sum_congr rfl fun c hc => ?_
  have hc' := Finset.mem_range.1 hc
  have hb : bpick p.1.nPts c = c := by
    unfold bpick
    split
    · omega
    · rfl
  have hb1 : bpick 1 c = 0 := by simp [bpick]
  rw [hb, hb1, e2 i]
  ring

/-- C82: `grad_error` raises as soon as the first field has an element of the dimension: it calls
`evaluate_basis` with one of its four arguments. -/
theorem C82_grad_violated {name : String} {s : DSpace X} {spaces : Dict String (DSpace X)}
    (hs : fe.spaces = (name, s) :: spaces) {p : Laplace.Elem ℝ X × Nat}
    {ps : List (Laplace.Elem ℝ X × Nat)} (hp : cells dim s = p :: ps)
    (rest : String → Nat → Laplace.Elem ℝ X → Res ℝ) :
    gradError dim fe rest = .error .typeError := by
  unfold gradError
  refine overSpaces_error (q := (name, s)) (rest := fields (fun _ => true) [] spaces) _ _ _ _ _
    (by rw [hs]; simp [fields]) (.inr ⟨_, p, ps, rfl, hp, rfl⟩)

/-- C82: the errors and norms of deviators raise for every product space whose quadrature was made,
a list of four rules. -/
theorem C82_deviator_violated (h : fe.quadrature.length = 4)
    (rest : Option Unit → Option Unit → Res (List (Option ℝ))) :
    deviator fe rest = .error .valueError := by
  obtain ⟨q, sp, ds⟩ := fe
  match q, h with
  | [a, b, c, d], _ => rfl

/-- C82: in dimension one the errors are those of the Lagrange fields and the norms those of the
vector fields: no field has both. -/
theorem C82_dimension_one_violated (q : String × DSpace X) (spaces : Dict String (DSpace X)) :
    ¬ (q ∈ fields (errorFamily 1) skip spaces ∧ q ∈ fields vecFamily skip spaces) := by
  rintro ⟨h1, h2⟩
  simp only [fields, List.mem_filter, errorFamily, vecFamily, decide_eq_true_eq] at h1 h2
  obtain ⟨-, h1, -⟩ := h1
  obtain ⟨-, h2, -⟩ := h2
  simp only [if_true] at h1
  have h1' : q.2.family = .lagrange := by simpa using h1
  rw [h1'] at h2
  simp at h2

/-- Arrays of one value: the discrete divergence is the exact one, the error is zero. -/
example : divError 2 feCell (exactDiv (some 1)) [1] [] = .ok [some 0] := by
  have e0 : errorFamily 2 = vecFamily := by funext f; simp [errorFamily]
  obtain ⟨r, h1, h2⟩ := C82_error_partial (fe := feCell) (fs := exactDiv (some 1)) (alpha := [1])
    (skip := []) (dim := 2) rfl fun q hq => by
      rw [e0, cell_fields, List.mem_singleton] at hq
      subst hq
      exact ⟨cell_ready, cell_weighted, _, rfl, rfl⟩
  rw [e0, cell_fields] at h2
  cases h2 with
  | cons h h' =>
    cases h'
    obtain ⟨f, h3, rfl⟩ := h
    obtain rfl := Option.some.inj h3
    rw [h1, (C82_zero_iff cell_weighted).2]
    intro p hp i hi c hc
    rw [cell_cells, List.mem_singleton] at hp
    subst hp
    obtain rfl : c = 0 := Nat.lt_one_iff.1 hc
    exact cell_div i

/-- Scalars: the same function gets the error `√2`. -/
theorem C82_scalar_witness_violated :
    divError 2 feCell (exactDiv none) [1] [] = .ok [some (Real.sqrt 2)] := by
  have e0 : errorFamily 2 = vecFamily := by funext f; simp [errorFamily]
  have e := overSpaces_spec 2 vecFamily [] (fun name => do
    let f ← (exactDiv none).exact.getItem ("div_" ++ name)
    pure (some (contribution feCell [1] name f (divStar 2))))
    (fun name => contribution feCell [1] name ⟨none, fun _ _ i => i + 1⟩ (divStar 2))
    (fun _ _ => 2) feCell.spaces
    (fun q hq => by
      rw [cell_fields, List.mem_singleton] at hq
      subst hq
      rfl)
    (fun q hq p hp => by
      rw [cell_fields, List.mem_singleton] at hq
      subst hq
      have hp' := hp
      rw [cell_cells, List.mem_singleton] at hp'
      rw [C82_scalar_violated rfl cell_ready rfl hp]
      subst hp'
      show Except.ok (∑ i ∈ Finset.range 2, ∑ j ∈ Finset.range 2, (1 : ℝ) * 1 *
        (((j : Nat) : ℝ) + 1 - discreteDiv (basisDiv 2) feCell [1] flux (cell, 0) i 0) ^ 2) = _
      simp only [cell_div, Finset.sum_range_succ, Finset.sum_range_zero]
      norm_num)
  rw [divError, rule_ok rfl, e0]
  refine e.trans ?_
  rw [cell_fields]
  simp only [List.map_cons, List.map_nil, cell_cells, List.sum_cons, List.sum_nil, add_zero]
  rw [npSqrt_nonneg (by norm_num)]

/-- The divergence of `2 f` where the gradient of the factor is `(1, 1)`. -/
example (i : Nat) : discreteDiv (scaledDiv 2 (fun _ _ => 2) (fun _ _ _ => 1)) feCell [1] flux (cell, 0) i 0 =
    2 * (i + 1) + 2 := by
  have h1 : dofs feCell 0 "q" = [0] := rfl
  have h2 : scaledDiv 2 (fun _ _ => 2) (fun _ _ _ => 1) cell i 0 = 2 * (i + 1) + 2 := by
    simp [scaledDiv, basisDiv, Dual.tabDiv, cell]
  show ∑ a ∈ Finset.range 1, scaledDiv 2 (fun _ _ => 2) (fun _ _ _ => 1) cell i a *
    coef [1] (dofs feCell 0 "q") 1 0 a = _
  rw [Finset.sum_range_one, h1, h2]
  simp [coef]

example : ∃ r, divScaledError 2 feCell (exactDiv (some 1)) [1] [] = .ok r ∧ r.length = 1 := by
  obtain ⟨r, h1, h2⟩ := C82_scaled_partial (fe := feCell) (fs := exactDiv (some 1)) (alpha := [1])
    (skip := []) (dim := 2) rfl rfl le_rfl rfl fun q hq => by
      rw [cell_fields, List.mem_singleton] at hq
      subst hq
      exact ⟨cell_ready, cell_weighted, _, rfl, rfl⟩
  exact ⟨r, h1, by rw [← h2.length_eq, cell_fields]; rfl⟩

example : divError 2 feCell (exactDiv (some 1)) (List.replicate 1 0) [] =
    divNorm 2 feCell (exactDiv (some 1)) [] :=
  C82_relative (by decide) rfl fun q hq => by
    rw [cell_fields, List.mem_singleton] at hq
    subst hq
    exact ⟨cell_ready, cell_weighted, _, rfl, rfl⟩

example : divScaledError 2 feCell { exactDiv none with scale := ⟨none, none⟩ } [1] [] = .ok [] :=
  C82_unscaled (.inl rfl) rfl fun q hq => by
    rw [cell_fields, List.mem_singleton] at hq
    subst hq
    rfl

example : divNorm 2 feCell ⟨[], ⟨none, none⟩⟩ [] = .error .keyError :=
  (C82_missing (alpha := []) rfl cell_fields rfl).1

/-- In dimension one an error is reported of the pressure. -/
example : divError 1 { feCell with quadrature := [none, some (), none, none] } (exactDiv none) [1] [] =
    .error .keyError := by
  rw [divError, rule_ok rfl]
  exact overSpaces_error (q := ("p", ⟨1, .lagrange, [cell]⟩)) (rest := []) _ _ _ _ _
    (by simp [fields, feCell, flux, errorFamily]) (.inl rfl)

example (rest : String → Nat → Laplace.Elem ℝ Unit → Res ℝ) :
    gradError 2 feCell rest = .error .typeError := C82_grad_violated rfl cell_cells rest

/-- Three values for a field of two components. -/
example : divError 2 { feCell with spaces := [("q", ⟨2, .bdm, [cell]⟩)], dests := fun _ => .ok [("q", [0, 1])] }
    (exactDiv (some 3)) [1, 1] [] = .error .valueError :=
  C82_shape (q := ("q", ⟨2, .bdm, [cell]⟩)) (rest := []) (p := (cell, 0)) (ps := []) (k := 3) rfl
    (by simp [fields, errorFamily, vecFamily]) rfl
    { dest := fun p hp => by
        obtain rfl : p = (cell, 0) := List.mem_singleton.1 hp
        exact ⟨_, [0, 1], rfl, rfl, rfl, by simp⟩
      phi := fun p hp => by
        obtain rfl : p = (cell, 0) := List.mem_singleton.1 hp
        exact one_pos
      vals := fun p hp => by
        obtain rfl : p = (cell, 0) := List.mem_singleton.1 hp
        exact le_rfl
      ders := fun p hp => by
        obtain rfl : p = (cell, 0) := List.mem_singleton.1 hp
        exact le_rfl } rfl rfl (by decide) (by decide) (by decide)

#print axioms C82_error_partial
#print axioms C82_scaled_partial
#print axioms C82_unscaled
#print axioms C82_norm
#print axioms C82_zero_iff
#print axioms C82_relative
#print axioms C82_missing
#print axioms C82_shape
#print axioms C82_no_rule
#print axioms C82_scalar_violated
#print axioms C82_grad_violated
#print axioms C82_deviator_violated
#print axioms C82_dimension_one_violated
#print axioms C82_scalar_witness_violated

#print axioms C82_fields

end Verif.DivError
