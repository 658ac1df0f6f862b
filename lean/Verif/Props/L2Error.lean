/-
Property theorems C67: L2 errors and norms (src/postprocess/l2_error_post_processor.py,
src/postprocess/solution_norms_post_processor.py), in exact arithmetic.
-/
import Verif.Lemmas.L2Error
import Verif.Props.L2Form
import Mathlib.Tactic.NormNum
import Mathlib.Tactic.Linarith

namespace Verif.L2Error
open Assembly L2Form MeshGraph Trace

variable {X : Type} {dim : Nat} {fe : FeSpace X} {functions : Dict String (Exact X)}
  {alpha beta : List ℝ} {skip : List String}

theorem rule_ok {q : List (Option Unit)} (h : q[dim]? = some (some ())) : rule q dim = .ok () := by
  simp [rule, getIdx, h, bind, Except.bind, pure, Except.pure]

/-- The contribution of one element to the error. -/
theorem error_contrib {q : String × ESpace X} {f : Exact X} (hq : HasCoefs dim fe alpha.length q)
    (hf : functions.get? q.1 = some f) (hs : IsExact dim q f) {p : Elem X × Nat}
    (hp : p ∈ cellsOf dim q.2) :
    (do
      let d ← fe.dests p.2
      let dest ← d.getItem q.1
      let al ← fancy alpha dest
      let f ← functions.getItem q.1
      let fh ← discreteTable dim q.2 p.1 al
      let diff ← bsub (exactTable dim q.2 p.1 f) fh
      pure (sumSq p.1 diff)) = .ok (quadSq dim q.2 p.1 fun i c d =>
        f.val p.1.x c d i - valueAt p.1 (coef alpha (destOf fe p.2 q.1) q.2.nComp c) i d) := by
  obtain ⟨d, l, al, t, h1, h2, -, -, h4, h5, h6, h7, h8⟩ := discreteTable_spec rfl hq hp
  obtain ⟨e1, e2, e3⟩ := exactTable_spec hq hs p.1
  obtain ⟨u, g1, g2, g3, g4⟩ := bsub_spec (e1.trans h6.symm) (e2.trans h7.symm)
  have : sumSq p.1 u = quadSq dim q.2 p.1 fun i c d =>
      f.val p.1.x c d i - valueAt p.1 (coef alpha (destOf fe p.2 q.1) q.2.nComp c) i d := by
    refine sumSq_spec (g2.trans h6) (g3.trans h7) fun i c hc d hd => ?_
    rw [g4 i c (h6 ▸ hc) d (h7 ▸ hd), e3 i c d hd, h8 i c hc d hd]
  simp [h1, Dict.getItem, h2, h4, hf, h5, g1, bind, Except.bind, pure, Except.pure, this]

/-- C67: the error of every field that is not skipped, in their order, is the root of the
quadrature of `|f - f_h|²` over the elements of the dimension.  Scalar fields with more components
than the dimension are left out here, see `C67_components_ignored_violated`. -/
theorem C67_error_partial (hr : fe.quadrature[dim]? = some (some ()))
    (h : ∀ q ∈ kept skip fe.spaces, HasCoefs dim fe alpha.length q ∧ NonNeg dim q ∧
      ∃ f, functions.get? q.1 = some f ∧ IsExact dim q f) :
    ∃ r, l2Error dim fe functions alpha skip = .ok r ∧
      List.Forall₂ (fun q v => ∃ f, functions.get? q.1 = some f ∧
        v = some (Real.sqrt (errorSq dim fe f alpha q))) (kept skip fe.spaces) r := by
  let g : String → ESpace X → Elem X × Nat → ℝ := fun name s p =>
    match functions.get? name with
    | some f => quadSq dim s p.1 fun i c d =>
        f.val p.1.x c d i - valueAt p.1 (coef alpha (destOf fe p.2 name) s.nComp c) i d
    | none => 0
  have hov := overFields_spec dim skip (fun name s i el => do
    let d ← fe.dests i
    let dest ← d.getItem name
    let al ← fancy alpha dest
    let f ← functions.getItem name
    let fh ← discreteTable dim s el al
    let diff ← bsub (exactTable dim s el f) fh
    pure (sumSq el diff)) g fe.spaces (by
      intro q hq p hp
      obtain ⟨h1, -, f, h2, h3⟩ := h q hq
      have := error_contrib (functions := functions) h1 h2 h3 hp
      simp only [g, h2]
      exact this)
  refine ⟨_, by rw [l2Error, rule_ok hr]; exact hov, ?_⟩
  rw [List.forall₂_map_right_iff, List.forall₂_same]
  intro q hq
  obtain ⟨h1, h0, f, h2, h3⟩ := h q hq
  refine ⟨f, h2, ?_⟩
  rw [npSqrt_nonneg]
  · simp only [g, h2]; rfl
  · simp only [g, h2]
    refine List.sum_nonneg fun v hv => ?_
    obtain ⟨p, hp, rfl⟩ := List.mem_map.1 hv
    exact quadSq_nonneg h0 hp _

theorem get?_mapVals (d : Dict String (List Nat)) (g : List Nat → List Nat) (k : String) :
    Dict.get? (List.map (fun r => (r.1, g r.2)) d) k = (d.get? k).map g := by
  induction d with
  | nil => rfl
  | cons r d ih =>
    obtain ⟨a, b⟩ := r
    simp only [List.map_cons, Dict.get?]
    split
    · rfl
    · exact ih

/-- C67: `l2_error_projected` returns the norms of the discrete fields whose coefficients start at
`dof_shift`. -/
theorem C67_projected_partial (shift : Nat) (hr : fe.quadrature[dim]? = some (some ()))
    (h : ∀ q ∈ kept skip fe.spaces, HasCoefs dim (shifted fe shift) alpha.length q ∧ NonNeg dim q) :
    l2ErrorProjected dim fe alpha skip shift = .ok ((kept skip fe.spaces).map fun q =>
      some (Real.sqrt (discreteSq dim (shifted fe shift) alpha q))) := by
  have hov := overFields_spec dim skip (fun name s i el => do
    let d ← fe.dests i
    let dest ← d.getItem name
    let al ← fancy alpha (dest.map (· + shift))
    let fh ← discreteTable dim s el al
    pure (sumSq el fh)) (fun name s p => quadSq dim s p.1 fun i c d =>
      valueAt p.1 (coef alpha (destOf (shifted fe shift) p.2 name) s.nComp c) i d) fe.spaces (by
      intro q hq p hp
      obtain ⟨h1, -⟩ := h q hq
      obtain ⟨d, l, al, t, a1, a2, -, -, a4, a5, a6, a7, a8⟩ := discreteTable_spec rfl h1 hp
      have b1 : ∃ d0, fe.dests p.2 = .ok d0 ∧ d = List.map (fun r => (r.1, r.2.map (· + shift))) d0 := by
        simp only [shifted] at a1
        cases hd : fe.dests p.2 with
        | error e => rw [hd] at a1; cases a1
        | ok d0 => rw [hd] at a1; exact ⟨d0, rfl, (Except.ok.inj a1).symm⟩
      obtain ⟨d0, hd0, rfl⟩ := b1
      rw [get?_mapVals] at a2
      obtain ⟨l0, hl0, rfl⟩ := Option.map_eq_some_iff.1 a2
      have := sumSq_spec (el := p.1) a6 a7 a8
      simp [hd0, Dict.getItem, hl0, a4, a5, bind, Except.bind, pure, Except.pure, this])
  rw [l2ErrorProjected, rule_ok hr]
  refine hov.trans ?_
  congr 1
  refine List.map_congr_left fun q hq => ?_
  rw [npSqrt_nonneg]
  · rfl
  · refine List.sum_nonneg fun v hv => ?_
    obtain ⟨p, hp, rfl⟩ := List.mem_map.1 hv
    exact quadSq_nonneg (h q hq).2 hp _

/-- C67: `l2_norm` returns the norms of the functions; a vector function must have exactly `dim`
spatial components. -/
theorem C67_norm_partial (hr : fe.quadrature[dim]? = some (some ()))
    (h : ∀ q ∈ kept skip fe.spaces, NonNeg dim q ∧ (q.2.lagrange = true → q.2.nComp ≤ dim) ∧
      ∃ f, functions.get? q.1 = some f ∧ f.rows = q.2.nComp ∧
        (q.2.lagrange = false → f.cols = dim)) :
    ∃ r, l2Norm dim fe functions skip = .ok r ∧
      List.Forall₂ (fun q v => ∃ f, functions.get? q.1 = some f ∧
        v = some (Real.sqrt (normSq dim f q))) (kept skip fe.spaces) r := by
  let g : String → ESpace X → Elem X × Nat → ℝ := fun name s p =>
    match functions.get? name with
    | some f => quadSq dim s p.1 fun i c d => f.val p.1.x c d i
    | none => 0
  have hov := overFields_spec dim skip (fun name s (_ : Nat) el => do
    let f ← functions.getItem name
    pure (sumSq el (normTable dim s el f))) g fe.spaces (by
      intro q hq p hp
      obtain ⟨-, h1, f, h2, h3, h4⟩ := h q hq
      have : sumSq p.1 (normTable dim q.2 p.1 f) =
          quadSq dim q.2 p.1 fun i c d => f.val p.1.x c d i := by
        by_cases hl : q.2.lagrange = true
        · refine sumSq_spec ?_ ?_ fun i c hc d hd => ?_
          · simp only [normTable, hl, if_true, h3]
            exact Nat.min_eq_right (h1 hl)
          · simp [normTable, dirs, hl]
          · have : d = 0 := by simp [dirs, hl] at hd; omega
            simp [normTable, hl, this]
        · have hl' : q.2.lagrange = false := by simpa using hl
          refine sumSq_spec ?_ ?_ fun i c hc d hd => ?_
          · simp [normTable, hl', h3]
          · simp [normTable, dirs, hl', h4 hl']
          · simp [normTable, hl']
      simp [Dict.getItem, h2, g, bind, Except.bind, pure, Except.pure, this])
  refine ⟨_, by rw [l2Norm, rule_ok hr]; exact hov, ?_⟩
  rw [List.forall₂_map_right_iff, List.forall₂_same]
  intro q hq
  obtain ⟨h0, -, f, h2, -⟩ := h q hq
  refine ⟨f, h2, ?_⟩
  rw [npSqrt_nonneg]
  · simp only [g, h2]; rfl
  · simp only [g, h2]
    refine List.sum_nonneg fun v hv => ?_
    obtain ⟨p, hp, rfl⟩ := List.mem_map.1 hv
    exact quadSq_nonneg h0 hp _

theorem list_sum_zero_iff {l : List ℝ} (h : ∀ x ∈ l, 0 ≤ x) : l.sum = 0 ↔ ∀ x ∈ l, x = 0 := by
  induction l with
  | nil => simp
  | cons a l ih =>
    have h1 := h a (by simp)
    have h2 : 0 ≤ l.sum := List.sum_nonneg fun x hx => h x (by simp [hx])
    rw [List.sum_cons, add_eq_zero_iff_of_nonneg h1 h2, ih fun x hx => h x (by simp [hx])]
    simp

/-- C67: with positive weights the error is zero exactly if the discrete function agrees with `f`
at all quadrature points. -/
theorem C67_zero_iff {q : String × ESpace X} (f : Exact X)
    (hw : ∀ p ∈ cellsOf dim q.2, ∀ i < p.1.nPts, 0 < p.1.det i * p.1.weights i) :
    Real.sqrt (errorSq dim fe f alpha q) = 0 ↔
      ∀ p ∈ cellsOf dim q.2, ∀ i < p.1.nPts, ∀ c < q.2.nComp, ∀ d < dirs dim q.2,
        valueAt p.1 (coef alpha (destOf fe p.2 q.1) q.2.nComp c) i d = f.val p.1.x c d i := by
  have hn : NonNeg dim q := fun p hp i hi => (hw p hp i hi).le
  have h0 : ∀ x ∈ (cellsOf dim q.2).map (fun p => quadSq dim q.2 p.1 fun i c d =>
      f.val p.1.x c d i - valueAt p.1 (coef alpha (destOf fe p.2 q.1) q.2.nComp c) i d), 0 ≤ x := by
    intro v hv
    obtain ⟨p, hp, rfl⟩ := List.mem_map.1 hv
    exact quadSq_nonneg hn hp _
  rw [errorSq, Real.sqrt_eq_zero (List.sum_nonneg h0), list_sum_zero_iff h0]
  simp only [List.forall_mem_map]
  refine forall₂_congr fun p hp => ?_
  unfold quadSq
  have hi0 := hn p hp
  rw [Finset.sum_eq_zero_iff_of_nonneg (fun i hi => Finset.sum_nonneg fun _ _ =>
    Finset.sum_nonneg fun _ _ => mul_nonneg (hi0 i (Finset.mem_range.1 hi)) (sq_nonneg _))]
  simp only [Finset.mem_range]
  refine forall₂_congr fun i hi => ?_
  rw [Finset.sum_eq_zero_iff_of_nonneg (fun c _ => Finset.sum_nonneg fun _ _ =>
    mul_nonneg (hi0 i hi) (sq_nonneg _))]
  simp only [Finset.mem_range]
  refine forall₂_congr fun c _ => ?_
  rw [Finset.sum_eq_zero_iff_of_nonneg (fun d _ => mul_nonneg (hi0 i hi) (sq_nonneg _))]
  simp only [Finset.mem_range]
  refine forall₂_congr fun d _ => ?_
  rw [mul_eq_zero, or_iff_right (hw p hp i hi).ne', sq_eq_zero_iff, sub_eq_zero, eq_comm]

/-- C67: without coefficients the error is the norm of `f`, without `f` it is the norm of the
discrete function. -/
theorem C67_reduces (q : String × ESpace X) (f : Exact X) (n : Nat) :
    errorSq dim fe f (List.replicate n 0) q = normSq dim f q ∧
    ∀ g : Exact X, (∀ x c d i, g.val x c d i = 0) → errorSq dim fe g alpha q = discreteSq dim fe alpha q := by
  have hz : ∀ k, (List.replicate n (0 : ℝ)).getD k 0 = 0 := by
    intro k
    simp only [List.getD_eq_getElem?_getD, List.getElem?_replicate]
    split <;> rfl
  constructor
  · unfold errorSq normSq
    congr 1
    refine List.map_congr_left fun p _ => ?_
    congr 1
    funext i c d
    simp only [valueAt, coef, hz, mul_zero, Finset.sum_const_zero, sub_zero]
  · intro g hg
    unfold errorSq discreteSq
    congr 1
    refine List.map_congr_left fun p _ => ?_
    simp [quadSq, hg]

theorem list_sum_comm {α : Type} (l : List α) (n : Nat) (F : α → Nat → ℝ) :
    (l.map fun p => ∑ g ∈ Finset.range n, F p g).sum =
      ∑ g ∈ Finset.range n, (l.map fun p => F p g).sum := by
  induction l with
  | nil => simp
  | cons a l ih => simp only [List.map_cons, List.sum_cons, ih, Finset.sum_add_distrib]

theorem list_sum_add {α : Type} (l : List α) (F G : α → ℝ) :
    (l.map fun p => F p + G p).sum = (l.map F).sum + (l.map G).sum := by
  induction l with
  | nil => simp
  | cons a l ih => simp only [List.map_cons, List.sum_cons, ih]; ring

theorem list_sum_mul {α : Type} (l : List α) (F : α → ℝ) (k : ℝ) :
    (l.map fun p => k * F p).sum = k * (l.map F).sum := by
  induction l with
  | nil => simp
  | cons a l ih => simp only [List.map_cons, List.sum_cons, ih]; ring

/-- The residual of the local system tested with a discrete function. -/
theorem cross_term {q : String × ESpace X} {p : Elem X × Nat} (hp : p ∈ cellsOf dim q.2)
    (f : Exact X) (y z : Nat → Nat → ℝ) :
    ∑ c ∈ Finset.range q.2.nComp, ∑ a ∈ Finset.range p.1.nPhi, z c a *
      (∑ b ∈ Finset.range p.1.nPhi, mass (form q.2) p.1.toElementTab a b * y c b
        - load (form q.2) p.1.toElementTab f.val c a) =
    ∑ i ∈ Finset.range p.1.nPts, ∑ c ∈ Finset.range q.2.nComp, ∑ d ∈ Finset.range (dirs dim q.2),
      p.1.det i * p.1.weights i *
        ((valueAt p.1 (y c) i d - f.val p.1.x c d i) * valueAt p.1 (z c) i d) := by
  have hd : nDir (form q.2) p.1.toElementTab = dirs dim q.2 := by
    simp only [nDir, form, dirs, cellsOf_dim hp]
  rw [Finset.sum_comm (s := Finset.range p.1.nPts)]
  refine Finset.sum_congr rfl fun c _ => ?_
  have h1 : ∀ a, ∑ b ∈ Finset.range p.1.nPhi, mass (form q.2) p.1.toElementTab a b * y c b
        - load (form q.2) p.1.toElementTab f.val c a =
      ∑ i ∈ Finset.range p.1.nPts, ∑ d ∈ Finset.range (dirs dim q.2),
        p.1.det i * p.1.weights i * p.1.phi i a d * (valueAt p.1 (y c) i d - f.val p.1.x c d i) := by
    intro a
    have := mass_mul (form q.2) p.1.toElementTab (y c) a
    rw [this, load, ← Finset.sum_sub_distrib, hd]
    refine Finset.sum_congr rfl fun i _ => ?_
    rw [← Finset.sum_sub_distrib]
    refine Finset.sum_congr rfl fun d _ => ?_
    have hv : interp p.1.toElementTab (y c) i d = valueAt p.1 (y c) i d :=
      Finset.sum_congr rfl fun a _ => mul_comm _ _
    rw [hv]
    ring
  simp only [h1]
  simp_rw [Finset.mul_sum]
  rw [Finset.sum_comm]
  refine Finset.sum_congr rfl fun i _ => ?_
  rw [Finset.sum_comm]
  refine Finset.sum_congr rfl fun d _ => ?_
  rw [valueAt, valueAt, Finset.mul_sum, Finset.mul_sum]
  refine Finset.sum_congr rfl fun a _ => ?_
  ring

/-- C67: the solution of the projection equations is the best approximation: the squared error of
any other coefficients is larger by the squared distance to the solution. -/
theorem C67_pythagoras {q : String × ESpace X} {f : Exact X} (h : Projects dim fe f alpha q)
    (hl : alpha.length = beta.length) :
    errorSq dim fe f beta q = errorSq dim fe f alpha q +
      discreteSq dim fe (List.zipWith (· - ·) beta alpha) q := by
  set delta := List.zipWith (· - ·) beta alpha with hdelta
  have hD : ∀ k, delta.getD k 0 = beta.getD k 0 - alpha.getD k 0 := by
    intro k
    simp only [hdelta, List.getD_eq_getElem?_getD, List.getElem?_zipWith]
    by_cases hk : k < alpha.length
    · simp [List.getElem?_eq_getElem hk, List.getElem?_eq_getElem (hl ▸ hk)]
    · simp [List.getElem?_eq_none (not_lt.1 hk), List.getElem?_eq_none (hl ▸ not_lt.1 hk)]
  have hco : ∀ (p : Elem X × Nat) c a, coef delta (destOf fe p.2 q.1) q.2.nComp c a =
      coef beta (destOf fe p.2 q.1) q.2.nComp c a - coef alpha (destOf fe p.2 q.1) q.2.nComp c a :=
    fun p c a => hD _
  have hval : ∀ (p : Elem X × Nat) c i d,
      valueAt p.1 (coef beta (destOf fe p.2 q.1) q.2.nComp c) i d =
        valueAt p.1 (coef alpha (destOf fe p.2 q.1) q.2.nComp c) i d +
        valueAt p.1 (coef delta (destOf fe p.2 q.1) q.2.nComp c) i d := by
    intro p c i d
    simp only [valueAt, ← Finset.sum_add_distrib]
    refine Finset.sum_congr rfl fun a _ => ?_
    rw [hco]
    ring
  let R : Elem X × Nat → Nat → Nat → ℝ := fun p c a =>
    ∑ b ∈ Finset.range p.1.nPhi, mass (form q.2) p.1.toElementTab a b *
        coef alpha (destOf fe p.2 q.1) q.2.nComp c b
      - load (form q.2) p.1.toElementTab f.val c a
  have hcross : ((cellsOf dim q.2).map fun p =>
      ∑ c ∈ Finset.range q.2.nComp, ∑ a ∈ Finset.range p.1.nPhi,
        coef delta (destOf fe p.2 q.1) q.2.nComp c a * R p c a).sum = 0 := by
    have e : ∀ p : Elem X × Nat, (∑ c ∈ Finset.range q.2.nComp, ∑ a ∈ Finset.range p.1.nPhi,
        coef delta (destOf fe p.2 q.1) q.2.nComp c a * R p c a) =
      ∑ g ∈ Finset.range delta.length, delta.getD g 0 *
        ∑ c ∈ Finset.range q.2.nComp, ∑ a ∈ Finset.range p.1.nPhi,
          if (destOf fe p.2 q.1).getD (a * q.2.nComp + c) 0 = g then R p c a else 0 := by
      intro p
      simp_rw [Finset.mul_sum]
      conv_rhs => rw [Finset.sum_comm]
      refine Finset.sum_congr rfl fun c _ => ?_
      rw [Finset.sum_comm]
      refine Finset.sum_congr rfl fun a _ => ?_
      simp only [mul_ite, mul_zero, coef]
      rw [Finset.sum_ite_eq]
      split
      · rfl
      · rename_i hk
        rw [List.getD_eq_getElem?_getD, List.getElem?_eq_none (by simpa using hk), Option.getD_none,
          zero_mul]
    simp only [e]
    rw [list_sum_comm]
    refine Finset.sum_eq_zero fun g _ => ?_
    rw [list_sum_mul, h g, mul_zero]
  have hsplit : ∀ p ∈ cellsOf dim q.2,
      quadSq dim q.2 p.1 (fun i c d =>
        f.val p.1.x c d i - valueAt p.1 (coef beta (destOf fe p.2 q.1) q.2.nComp c) i d) =
      quadSq dim q.2 p.1 (fun i c d =>
        f.val p.1.x c d i - valueAt p.1 (coef alpha (destOf fe p.2 q.1) q.2.nComp c) i d) +
      (quadSq dim q.2 p.1 (fun i c d =>
        valueAt p.1 (coef delta (destOf fe p.2 q.1) q.2.nComp c) i d) +
      2 * ∑ c ∈ Finset.range q.2.nComp, ∑ a ∈ Finset.range p.1.nPhi,
        coef delta (destOf fe p.2 q.1) q.2.nComp c a * R p c a) := by
    intro p hp
    rw [cross_term hp f (fun c => coef alpha (destOf fe p.2 q.1) q.2.nComp c)
      (fun c => coef delta (destOf fe p.2 q.1) q.2.nComp c)]
    simp only [quadSq, Finset.mul_sum, ← Finset.sum_add_distrib]
    refine Finset.sum_congr rfl fun i _ => Finset.sum_congr rfl fun c _ =>
      Finset.sum_congr rfl fun d _ => ?_
    rw [hval]
    ring
  unfold errorSq discreteSq
  rw [List.map_congr_left hsplit, list_sum_add, list_sum_add, list_sum_mul, hcross]
  ring

/-- C67: no coefficients give a smaller reported error than a solution of the projection
equations. -/
theorem C67_best_partial (hr : fe.quadrature[dim]? = some (some ()))
    (hl : alpha.length = beta.length)
    (h : ∀ q ∈ kept skip fe.spaces, HasCoefs dim fe alpha.length q ∧ NonNeg dim q ∧
      ∃ f, functions.get? q.1 = some f ∧ IsExact dim q f ∧ Projects dim fe f alpha q) :
    ∃ ra rb, l2Error dim fe functions alpha skip = .ok ra ∧
      l2Error dim fe functions beta skip = .ok rb ∧
      List.Forall₂ (fun v w => ∃ x y, v = some x ∧ w = some y ∧ x ≤ y) ra rb := by
  obtain ⟨ra, h1, h2⟩ := C67_error_partial (functions := functions) (alpha := alpha)
    (skip := skip) hr fun q hq => by
      obtain ⟨a, b, f, c, d, -⟩ := h q hq
      exact ⟨a, b, f, c, d⟩
  obtain ⟨rb, h3, h4⟩ := C67_error_partial (functions := functions) (alpha := beta)
    (skip := skip) hr fun q hq => by
      obtain ⟨a, b, f, c, d, -⟩ := h q hq
      exact ⟨hl ▸ a, b, f, c, d⟩
  refine ⟨ra, rb, h1, h3, ?_⟩
  rw [List.forall₂_iff_get] at h2 h4 ⊢
  refine ⟨h2.1.symm.trans h4.1, fun i ha hb => ?_⟩
  have hk : i < (kept skip fe.spaces).length := by rw [h2.1]; exact ha
  obtain ⟨f, hf, e1⟩ := h2.2 i hk ha
  obtain ⟨f', hf', e2⟩ := h4.2 i hk hb
  have hmem : (kept skip fe.spaces).get ⟨i, hk⟩ ∈ kept skip fe.spaces := List.get_mem _ _
  obtain ⟨-, hn, g, hg, -, hP⟩ := h _ hmem
  obtain rfl := Option.some.inj (hf.symm.trans hg)
  obtain rfl := Option.some.inj (hf.symm.trans hf')
  refine ⟨_, _, e1, e2, Real.sqrt_le_sqrt ?_⟩
  rw [C67_pythagoras hP hl]
  have : 0 ≤ discreteSq dim fe (List.zipWith (· - ·) beta alpha)
      ((kept skip fe.spaces).get ⟨i, hk⟩) := by
    refine List.sum_nonneg fun v hv => ?_
    obtain ⟨p, hp, rfl⟩ := List.mem_map.1 hv
    exact quadSq_nonneg hn hp _
  linarith

/-- C67: a dimension without quadrature is refused; a field without function, coefficients outside
of `alpha` and a function with a number of components other than that of the field (and other than
one) are refused at the first element; the fields before have raised no exception. -/
theorem C67_refused (hr : fe.quadrature[dim]? = some (some ())) {q : String × ESpace X}
    {pre post : Dict String (ESpace X)} (hs : fe.spaces = pre ++ q :: post) (hq : q.1 ∉ skip)
    (hpre : ∀ q ∈ kept skip pre, HasCoefs dim fe alpha.length q ∧
      ∃ f, functions.get? q.1 = some f ∧ IsExact dim q f)
    {p : Elem X × Nat} {ps : List (Elem X × Nat)} (hc : cellsOf dim q.2 = p :: ps) :
    (∀ d l, fe.dests p.2 = .ok d → d.get? q.1 = some l → ∀ before k after,
      l = before ++ k :: after → (∀ j ∈ before, j < alpha.length) → alpha.length ≤ k →
      l2Error dim fe functions alpha skip = .error .indexError) ∧
    (HasCoefs dim fe alpha.length q → functions.get? q.1 = none →
      l2Error dim fe functions alpha skip = .error .keyError) ∧
    (∀ f, HasCoefs dim fe alpha.length q → functions.get? q.1 = some f → q.2.lagrange = false →
      f.rows ≠ q.2.nComp → f.rows ≠ 1 → q.2.nComp ≠ 1 →
      l2Error dim fe functions alpha skip = .error .valueError) := by
  have hp : p ∈ cellsOf dim q.2 := by rw [hc]; simp
  have key : ∀ err, (do
      let d ← fe.dests p.2
      let dest ← d.getItem q.1
      let al ← fancy alpha dest
      let f ← functions.getItem q.1
      let fh ← discreteTable dim q.2 p.1 al
      let diff ← bsub (exactTable dim q.2 p.1 f) fh
      pure (sumSq p.1 diff)) = (.error err : Res ℝ) →
      l2Error dim fe functions alpha skip = .error err := by
    intro err he
    rw [l2Error, rule_ok hr, hs]
    refine overFields_error dim skip _ err q pre post hq ?_ p [] ps hc (by simp) he
    intro q' hq' p' hp'
    obtain ⟨h1, f, h2, h3⟩ := hpre q' hq'
    exact ⟨_, error_contrib (functions := functions) h1 h2 h3 hp'⟩
  refine ⟨?_, ?_, ?_⟩
  · intro d l h1 h2 before k after h3 h4 h5
    refine key _ ?_
    have : fancy alpha l = .error .indexError := by
      rw [h3]
      clear h2 h3
      induction before with
      | nil => simp [fancy, mapRes, getIdx, List.getElem?_eq_none h5, bind, Except.bind]
      | cons b before ih =>
        have hb : b < alpha.length := h4 b (by simp)
        have := ih fun j hj => h4 j (by simp [hj])
        simp only [fancy] at this
        simp [fancy, mapRes, getIdx, List.getElem?_eq_getElem hb, bind, Except.bind, this]
    simp [h1, Dict.getItem, h2, this, bind, Except.bind]
  · intro h1 h2
    obtain ⟨d, l, al, t, a1, a2, -, -, a4, -⟩ := discreteTable_spec rfl h1 hp
    refine key _ ?_
    simp [a1, Dict.getItem, a2, a4, h2, bind, Except.bind]
  · intro f h1 h2 hl hne hne1 hn1
    obtain ⟨d, l, al, t, a1, a2, -, -, a4, a5, a6, a7, -⟩ := discreteTable_spec rfl h1 hp
    refine key _ ?_
    have : bsub (exactTable dim q.2 p.1 f) t = .error .valueError := by
      simp [bsub, exactTable, hl, a6, bdim, hne, hne1, hn1, bind, Except.bind]
    simp [a1, Dict.getItem, a2, a4, h2, a5, this, bind, Except.bind]

/-- C67: destinations that do not split evenly over the basis functions are refused with
`ValueError`; for vector families, fewer coefficients per basis function than components are refused
with `IndexError`, and so are all fields without components with `ValueError`. -/
theorem C67_columns_refused (el : Elem X) (s : ESpace X) (al : List ℝ) (hp : 0 < el.nPhi) :
    (al.length % el.nPhi ≠ 0 → discreteTable dim s el al = .error .valueError) ∧
    (al.length % el.nPhi = 0 → s.lagrange = false → s.nComp = 0 →
      discreteTable dim s el al = .error .valueError) ∧
    (al.length % el.nPhi = 0 → s.lagrange = false → al.length < el.nPhi * s.nComp →
      discreteTable dim s el al = .error .indexError) := by
  have h0 : el.nPhi ≠ 0 := hp.ne'
  refine ⟨fun h => ?_, fun h hl hn => ?_, fun h hl hn => ?_⟩
  · simp [discreteTable, splitCols, h0, h, bind, Except.bind]
  · simp [discreteTable, splitCols, h0, h, hl, hn, bind, Except.bind]
  · have h1 : al.length / el.nPhi < s.nComp := (Nat.div_lt_iff_lt_mul hp).2 (by rwa [Nat.mul_comm])
    have h2 : s.nComp ≠ 0 := Nat.ne_of_gt (Nat.lt_of_le_of_lt (Nat.zero_le _) h1)
    simp [discreteTable, splitCols, h0, h, hl, h2, h1, bind, Except.bind]

/-- C67: dimensions without quadrature. -/
theorem C67_no_rule :
    (fe.quadrature[dim]? = none → l2Error dim fe functions alpha skip = .error .indexError) ∧
    (fe.quadrature[dim]? = some none → l2Error dim fe functions alpha skip = .error .typeError) := by
  constructor <;> intro h <;> simp [l2Error, rule, getIdx, h, bind, Except.bind]

/-- One interval with the constant function, one quadrature point. -/
def unitElem : Elem Unit := ⟨⟨1, 1, 1, fun _ => 1, fun _ => 1, fun _ _ _ => 1, ()⟩, 1⟩

/-- One field with `n` components on the interval. -/
def unitSpace (n : Nat) : FeSpace Unit :=
  ⟨[some (), some ()], [("u", ⟨n, true, [unitElem]⟩)], fun _ => .ok [("u", List.range n)]⟩

theorem unit_coefs : HasCoefs 1 (unitSpace 1) 1 ("u", ⟨1, true, [unitElem]⟩) where
  comps := by decide
  small := fun _ => le_refl _
  dest := by
    intro p hp
    obtain rfl : p = (unitElem, 0) := by simpa [cellsOf, unitElem] using hp
    exact ⟨[("u", [0])], [0], rfl, rfl, rfl, by simp⟩
  phi := by
    intro p hp
    obtain rfl : p = (unitElem, 0) := by simpa [cellsOf, unitElem] using hp
    exact Nat.one_pos
  vals := by intro h; cases h

theorem unit_nonneg : NonNeg 1 ("u", (⟨1, true, [unitElem]⟩ : ESpace Unit)) := by
  intro p hp i _
  obtain rfl : p = (unitElem, 0) := by simpa [cellsOf, unitElem] using hp
  simp [unitElem]

/-- The function 7 is approximated by 4 with error 3. -/
example : ∃ r, l2Error 1 (unitSpace 1) [("u", ⟨1, 1, fun _ _ _ _ => 7⟩)] [4] [] = .ok r ∧
    r = [some 3] := by
  obtain ⟨r, h1, h2⟩ := C67_error_partial (fe := unitSpace 1) (dim := 1) (alpha := [4]) (skip := [])
    (functions := [("u", ⟨1, 1, fun _ _ _ _ => 7⟩)]) rfl (by
      intro q hq
      obtain rfl : q = ("u", ⟨1, true, [unitElem]⟩) := by simpa [kept, unitSpace] using hq
      exact ⟨unit_coefs, unit_nonneg, _, rfl, rfl, by intro h; cases h⟩)
  refine ⟨r, h1, ?_⟩
  simp only [kept, unitSpace, List.not_mem_nil, not_false_eq_true, decide_true, List.filter_true] at h2
  cases h2 with
  | cons h h' =>
    cases h'
    obtain ⟨f, hf, rfl⟩ := h
    simp [Dict.get?] at hf
    subst hf
    have : errorSq 1 (unitSpace 1) ⟨1, 1, fun _ _ _ _ => 7⟩ [4] ("u", ⟨1, true, [unitElem]⟩) =
        3 ^ 2 := by
      simp [errorSq, cellsOf, unitElem, quadSq, dirs, valueAt, coef, destOf, unitSpace, Dict.get?]
      norm_num
    simp only [unitSpace] at this
    rw [this, Real.sqrt_sq (by norm_num)]

/-- The coefficient 7 solves the projection equations of the function 7. -/
example : Projects 1 (unitSpace 1) ⟨1, 1, fun _ _ _ _ => 7⟩ [7] ("u", ⟨1, true, [unitElem]⟩) := by
  intro g
  simp [cellsOf, unitElem, mass, load, nDir, form, coef, destOf, unitSpace, Dict.get?]

/-- C67 fails for scalar fields with more components than the dimension: a two-component function
on an interval is reported to have error 0 though its second component is wrong by 5. -/
theorem C67_components_ignored_violated :
    l2Error 1 (unitSpace 2) [("u", ⟨2, 1, fun _ c _ _ => if c = 0 then 1 else 0⟩)] [1, 5] [] =
        .ok [some 0] ∧
      errorSq 1 (unitSpace 2) ⟨2, 1, fun _ c _ _ => if c = 0 then 1 else 0⟩ [1, 5]
        ("u", ⟨2, true, [unitElem]⟩) = 25 := by
  constructor
  · simp [l2Error, rule, getIdx, unitSpace, overFields, unitElem, Dict.getItem, Dict.get?, fancy,
      mapRes, discreteTable, splitCols, bsub, exactTable, bdim, bpick, sumSq, npSqrt, bind,
      Except.bind, pure, Except.pure, List.range_succ]
  · simp [errorSq, cellsOf, unitElem, quadSq, dirs, valueAt, coef, destOf, unitSpace, Dict.get?,
      Finset.sum_range_succ, List.range_succ]
    norm_num

#print axioms C67_error_partial
#print axioms C67_projected_partial
#print axioms C67_norm_partial
#print axioms C67_zero_iff
#print axioms C67_reduces
#print axioms C67_pythagoras
#print axioms C67_best_partial
#print axioms C67_refused
#print axioms C67_no_rule
#print axioms C67_components_ignored_violated

#print axioms C67_columns_refused

end Verif.L2Error
