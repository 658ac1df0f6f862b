/-
Property theorems C24: the system assembled by `l2_projector` (src/postprocess/projectors.py).
-/
import Verif.Lemmas.Projector
import Verif.Props.Assembly
import Verif.Props.L2Form
import Mathlib.Algebra.BigOperators.Fin
import Mathlib.Tactic.NormNum
import Mathlib.Algebra.Order.Ring.Rat

namespace Verif.Projector
open Space Assembly MeshGraph

variable {K : Type} [Field K] [LinearOrder K]
  {basix : Basix} {data : Dict String FieldData} {disc : Dict String Bool}
  {tags bTags : Dict String (List (Option Int))} {p : Product}

theorem l2Assemble_cons {q : String × Space.Space} {rest : Dict String Space.Space}
    (h : p.spaces = q :: rest) (eval : Eval K) (dofShift : Nat) (sym : Bool) :
    l2Assemble p eval dofShift sym =
      match forEach (scatter { p with dofShift := 0 } eval dofShift sym p.nDof)
        (List.range q.2.elements.length) ⟨List.replicate p.nDof 0, ⟨p.nDof, fun _ _ => 0⟩⟩ with
      | (sys, none) => (p, .ok sys)
      | (_, some e) => ({ p with dofShift := 0 }, .error e) := by
  obtain ⟨spaces, dofs, nDof, sh⟩ := p
  simp only at h
  subst h
  rfl

/-- C24, as far as it holds: on a built space with `n` elements per field, `l2_projector` assembles
the sum of the local residuals, and of the local matrices without the entries that are close to
`1e-16` (below the diagonal nothing is stored with the symmetric option); the space, including
its shift, is as before. -/
theorem C24_assembled_partial (gb : GoodBasix basix) (hp : BuiltFrom basix data disc tags bTags p)
    (n : Nat) (hne : p.spaces ≠ []) (hn : ∀ q ∈ p.spaces, q.2.elements.length = n)
    (eval : Eval K) (sym : Bool) (cs : List (Contribution K)) (hcs : ElementsGive p eval n cs)
    (hfit : ∀ c ∈ cs, c.Fits p.nDof) :
    ∃ sys, l2Assemble p eval 0 sym = (p, .ok sys) ∧ sys.res.length = p.nDof ∧
      sys.jac.n = p.nDof ∧
      (∀ i < p.nDof, sys.res[i]? = some ((cs.map (·.resAt i)).sum)) ∧
      ∀ i j, sys.jac.val i j =
        if sym = true ∧ j < i then 0 else (cs.map fun c => (pruned c).jacAt i j).sum := by
  set p0 : Product := { p with dofShift := 0 } with hp0
  obtain ⟨q, rest, hsp⟩ := List.exists_cons_of_ne_nil hne
  -- one element after the other
  have loop : ∀ (cs' : List (Contribution K)) (k : Nat) (s : Sys K), k + cs'.length = n →
      s.res.length = p.nDof → s.jac.n = p.nDof →
      (∀ (i : Nat) c, cs'[i]? = some c → p0.destinationIndexes (k + i) none = .ok c.dest ∧
        eval (k + i) (List.replicate c.dest.length 0) = .ok (c.res, c.jac) ∧ c.Fits p.nDof) →
      ∃ sys, forEach (scatter p0 eval 0 sym p.nDof) (List.range' k cs'.length) s = (sys, none) ∧
        sys.res.length = p.nDof ∧ sys.jac.n = p.nDof ∧
        (∀ (i : Nat) x, s.res[i]? = some x → sys.res[i]? = some (x + (cs'.map (·.resAt i)).sum)) ∧
        ∀ i j, sys.jac.val i j = s.jac.val i j +
          if sym = true ∧ j < i then 0 else (cs'.map fun c => (pruned c).jacAt i j).sum := by
    intro cs'
    induction cs' with
    | nil =>
      intro k s _ h1 h2 _
      exact ⟨s, rfl, h1, h2, by simp, by simp⟩
    | cons c cs' ih =>
      intro k s hk h1 h2 h
      simp only [List.length_cons] at hk
      obtain ⟨hd, he, hf⟩ := h 0 c (by simp)
      rw [Nat.add_zero] at hd he
      obtain ⟨d, -, -, -, h3, h4, h5⟩ := C16_fields_disjoint gb hp 0 k (by
        intro q hq; rw [hn q hq]; omega)
      have hdn : c.dest.Nodup := by
        rw [h3] at hd
        rw [← Except.ok.inj hd]; exact h4
      obtain ⟨R, hR1, hR2, hR3⟩ := fancyAdd_ok c.dest c.res s.res hdn
        (fun x hx => by rw [h1]; exact hf.lt x hx) hf.res_length
      have hstep : scatter p0 eval 0 sym p.nDof k s =
          (⟨R, ⟨s.jac.n, fun i j => s.jac.val i j +
            ((triples c.dest c.dest c.jac).map (keptAt sym i j)).sum⟩⟩, none) := by
        have hmap : c.dest.map (· + 0) = c.dest := by simp
        simp only [scatter, hd, withRes, hmap, gather_zeros p.nDof c.dest hf.lt, he, hR1]
        exact setKept_ok sym c { s with res := R } (h2 ▸ hf)
      obtain ⟨sys, e1, e2, e3, e4, e5⟩ := ih (k + 1)
        ⟨R, ⟨s.jac.n, fun i j => s.jac.val i j +
          ((triples c.dest c.dest c.jac).map (keptAt sym i j)).sum⟩⟩ (by omega)
        (by simp only [hR2, h1]) h2 (by
          intro i c' hc'
          have := h (i + 1) c' (by simpa using hc')
          rwa [show k + (i + 1) = k + 1 + i by omega] at this)
      refine ⟨sys, ?_, e2, e3, ?_, ?_⟩
      · simp only [List.length_cons, List.range'_succ, forEach, hstep, e1]
      · intro i x hi
        rw [e4 i _ (hR3 i x hi)]
        simp [Contribution.resAt, add_assoc]
      · intro i j
        rw [e5]
        simp only [sum_keptAt]
        split <;> simp [add_assoc]
  obtain ⟨sys, e1, e2, e3, e4, e5⟩ := loop cs 0 ⟨List.replicate p.nDof 0, ⟨p.nDof, fun _ _ => 0⟩⟩
    (by rw [hcs.1]; omega) (by simp) rfl (by
      intro i c hc
      rw [Nat.zero_add]
      obtain ⟨h1, h2⟩ := hcs.2 i c hc
      exact ⟨h1, h2, hfit c (List.mem_of_getElem? hc)⟩)
  refine ⟨sys, ?_, e2, e3, ?_, ?_⟩
  · have hlen : q.2.elements.length = cs.length := by
      rw [hn q (by simp [hsp]), hcs.1]
    rw [l2Assemble_cons hsp, hlen, List.range_eq_range', e1]
  · intro i hi
    rw [e4 i 0 (by simp [hi])]
    simp
  · intro i j
    rw [e5]
    simp

/-- If only zero entries are dropped the pruned contribution is the contribution. -/
theorem pruned_eq (c : Contribution K) (h : ∀ row ∈ c.jac, ∀ v ∈ row, Negligible v → v = 0) :
    pruned c = c := by
  have : (c.jac.map fun row => row.map fun v => if Negligible v then 0 else v) = c.jac := by
    conv_rhs => rw [← List.map_id c.jac]
    apply List.map_congr_left
    intro row hrow
    conv_rhs => rw [id, ← List.map_id row]
    apply List.map_congr_left
    intro v hv
    by_cases hc : Negligible v
    · rw [if_pos hc, id, h row hrow v hv hc]
    · rw [if_neg hc, id]
  simp only [pruned, this]

/-- A symmetric local matrix. -/
def SymmetricLocal (c : Contribution K) : Prop :=
  ∀ (a b : Nat) (ra rb : List K), c.jac[a]? = some ra → c.jac[b]? = some rb → ra[b]? = rb[a]?

theorem sum_zip_range {α β M : Type} [AddCommMonoid M] (d : List α) (l : List β) (g : α × β → M)
    (h : l.length = d.length) : ((d.zip l).map g).sum =
      ∑ k : Fin d.length, g (d[k], l[k.1]'(by rw [h]; exact k.2)) := by
  rw [← List.sum_ofFn]
  congr 1
  apply List.ext_getElem
  · simp [h]
  · intro i h1 h2
    simp

omit [LinearOrder K] in
theorem jacAt_symm (c : Contribution K) (n : Nat) (hf : c.Fits n) (hs : SymmetricLocal c)
    (i j : Nat) : c.jacAt i j = c.jacAt j i := by
  have expand : ∀ i j, c.jacAt i j = ∑ a : Fin c.dest.length, ∑ b : Fin c.dest.length,
      if c.dest[a] = i ∧ c.dest[b] = j then
        (c.jac[a.1]'(by rw [hf.jac_length]; exact a.2))[b.1]'(by
          rw [hf.row_length _ (List.getElem_mem _)]; exact b.2) else 0 := by
    intro i j
    unfold Contribution.jacAt
    rw [sum_zip_range _ _ _ hf.jac_length]
    refine Finset.sum_congr rfl fun a _ => ?_
    rw [sum_zip_range _ _ _ (hf.row_length _ (List.getElem_mem _))]
  rw [expand i j, expand j i, Finset.sum_comm]
  refine Finset.sum_congr rfl fun b _ => Finset.sum_congr rfl fun a _ => ?_
  have ha : a.1 < c.jac.length := by rw [hf.jac_length]; exact a.2
  have hb : b.1 < c.jac.length := by rw [hf.jac_length]; exact b.2
  have h := hs a.1 b.1 c.jac[a.1] c.jac[b.1] (List.getElem?_eq_getElem ha)
    (List.getElem?_eq_getElem hb)
  rw [List.getElem?_eq_getElem (by rw [hf.row_length _ (List.getElem_mem _)]; exact b.2),
    List.getElem?_eq_getElem (by rw [hf.row_length _ (List.getElem_mem _)]; exact a.2)] at h
  have h := Option.some.inj h
  simp only [h]
  by_cases hc : c.dest[a] = i ∧ c.dest[b] = j
  · rw [if_pos hc, if_pos ⟨hc.2, hc.1⟩]
  · rw [if_neg hc, if_neg (fun h => hc ⟨h.2, h.1⟩)]

/-- C24 when no non-zero entry is close to `1e-16`: the stored matrix is the sum of the local
matrices; with the symmetric option its upper triangle is, and the mirrored upper triangle is the
full sum when the local matrices are symmetric. -/
theorem C24_exact_partial (gb : GoodBasix basix) (hp : BuiltFrom basix data disc tags bTags p)
    (n : Nat) (hne : p.spaces ≠ []) (hn : ∀ q ∈ p.spaces, q.2.elements.length = n)
    (eval : Eval K) (cs : List (Contribution K)) (hcs : ElementsGive p eval n cs)
    (hfit : ∀ c ∈ cs, c.Fits p.nDof)
    (hdrop : ∀ c ∈ cs, ∀ row ∈ c.jac, ∀ v ∈ row, Negligible v → v = 0) :
    (∃ sys, l2Assemble p eval 0 false = (p, .ok sys) ∧
      ∀ i j, sys.jac.val i j = (cs.map (·.jacAt i j)).sum) ∧
    ∃ sys, l2Assemble p eval 0 true = (p, .ok sys) ∧
      (∀ i j, i ≤ j → sys.jac.val i j = (cs.map (·.jacAt i j)).sum) ∧
      (∀ i j, j < i → sys.jac.val i j = 0) ∧
      ((∀ c ∈ cs, SymmetricLocal c) →
        ∀ i j, sys.jac.val (min i j) (max i j) = (cs.map (·.jacAt i j)).sum) := by
  have hpr : ∀ i j, (cs.map fun c => (pruned c).jacAt i j) = cs.map (·.jacAt i j) := by
    intro i j
    apply List.map_congr_left
    intro c hc
    rw [pruned_eq c (hdrop c hc)]
  constructor
  · obtain ⟨sys, h1, -, -, -, h2⟩ := C24_assembled_partial gb hp n hne hn eval false cs hcs hfit
    refine ⟨sys, h1, fun i j => ?_⟩
    rw [h2, hpr]
    simp
  · obtain ⟨sys, h1, -, -, -, h2⟩ := C24_assembled_partial gb hp n hne hn eval true cs hcs hfit
    have hup : ∀ i j, i ≤ j → sys.jac.val i j = (cs.map (·.jacAt i j)).sum := by
      intro i j hij
      rw [h2, hpr, if_neg (fun h => by omega)]
    refine ⟨sys, h1, hup, ?_, ?_⟩
    · intro i j hij
      rw [h2, if_pos ⟨rfl, hij⟩]
    · intro hs i j
      rw [hup _ _ (min_le_max)]
      congr 1
      apply List.map_congr_left
      intro c hc
      rcases Nat.le_total i j with h | h
      · rw [min_eq_left h, max_eq_right h]
      · rw [min_eq_right h, max_eq_left h, jacAt_symm c p.nDof (hfit c hc) (hs c hc)]

/-- C24: the shift parameter of `l2_projector` must be 0: with a positive one the destinations of
the last degrees of freedom leave the system, and the exception leaves the space with shift 0. -/
theorem C24_shift_rejected (gb : GoodBasix basix) (hp : BuiltFrom basix data disc tags bTags p)
    (n : Nat) (hne : p.spaces ≠ []) (hn : ∀ q ∈ p.spaces, q.2.elements.length = n)
    (eval : Eval K) (sym : Bool) (dofShift : Nat) (hpos : 0 < dofShift) (hdof : 0 < p.nDof) :
    ∃ e, l2Assemble p eval dofShift sym = ({ p with dofShift := 0 }, .error e) := by
  set p0 : Product := { p with dofShift := 0 } with hp0
  obtain ⟨q, rest, hsp⟩ := List.exists_cons_of_ne_nil hne
  -- an element owning the last degree of freedom
  obtain ⟨i, hi, l, hl, hmem⟩ := C16_covers gb hp 0 n hn (p.nDof - 1) (by omega) (by omega)
  change p0.destinationIndexes i none = .ok l at hl
  have hfail : ∀ s : Sys K, ∃ s' e, scatter p0 eval dofShift sym p.nDof i s = (s', some e) := by
    intro s
    have hg : gather (List.replicate p.nDof (0 : K)) (l.map (· + dofShift)) = .error .indexError := by
      have : ∀ l : List Nat, (∃ x ∈ l, p.nDof ≤ x) →
          gather (List.replicate p.nDof (0 : K)) l = .error .indexError := by
        intro l
        induction l with
        | nil => rintro ⟨x, hx, -⟩; simp at hx
        | cons y l ih =>
          rintro ⟨x, hx, hge⟩
          by_cases hy : y < p.nDof
          · have hxl : x ∈ l := by
              rcases List.mem_cons.1 hx with rfl | h
              · omega
              · exact h
            have := ih ⟨x, hxl, hge⟩
            have hy' : getIdx (List.replicate p.nDof (0 : K)) y = .ok 0 := by simp [getIdx, hy]
            unfold gather at this ⊢
            simp only [MeshGraph.mapRes, hy', this, bind, Except.bind]
          · have hy' : getIdx (List.replicate p.nDof (0 : K)) y = .error .indexError := by
              simp [getIdx, hy]
            unfold gather
            simp only [MeshGraph.mapRes, hy', bind, Except.bind]
      exact this _ ⟨p.nDof - 1 + dofShift, List.mem_map.2 ⟨_, hmem, rfl⟩, by omega⟩
    refine ⟨s, .indexError, ?_⟩
    simp only [scatter, hl, withRes, hg]
  have hloop : ∀ (l : List Nat) (s : Sys K), i ∈ l →
      ∃ s' e, forEach (scatter p0 eval dofShift sym p.nDof) l s = (s', some e) := by
    intro l
    induction l with
    | nil => intro s h; simp at h
    | cons k l ih =>
      intro s h
      simp only [forEach]
      rcases hk : scatter p0 eval dofShift sym p.nDof k s with ⟨s', _ | e⟩
      · rcases List.mem_cons.1 h with rfl | h
        · obtain ⟨s'', e, h'⟩ := hfail s
          rw [hk] at h'; simp at h'
        · exact ih s' h
      · exact ⟨s', e, rfl⟩
  obtain ⟨s', e, h⟩ := hloop (List.range q.2.elements.length)
    ⟨List.replicate p.nDof 0, ⟨p.nDof, fun _ _ => 0⟩⟩
    (by rw [hn q (by simp [hsp])]; simpa using hi)
  refine ⟨e, ?_⟩
  rw [l2Assemble_cons hsp, h]

/-! ### A violation -/

/-- The example space with one element and 9 degrees of freedom; local matrix with the single
non-zero entry `v`. -/
def exampleEval (v : ℚ) : Eval ℚ := fun _ _ =>
  .ok (List.replicate 9 0, (v :: List.replicate 8 0) :: List.replicate 8 (List.replicate 9 0))

/-- The sum of the local matrices for `exampleEval v`. -/
def exampleContributions (v : ℚ) : List (Contribution ℚ) :=
  [⟨[0, 1, 2, 3, 4, 5, 6, 7, 8], List.replicate 9 0,
    (v :: List.replicate 8 0) :: List.replicate 8 (List.replicate 9 0)⟩]

theorem exampleProduct_facts : ∃ p, exampleProduct = .ok p ∧ p.nDof = 9 ∧
    p.spaces ≠ [] ∧ (∀ q ∈ p.spaces, q.2.elements.length = 1) ∧
    BuiltFrom exampleBasix exampleData [] [("u", [some 1]), ("p", [some 1])] [("p", [some 2])] p ∧
    ({ p with dofShift := 0 } : Product).destinationIndexes 0 none =
      .ok [0, 1, 2, 3, 4, 5, 6, 7, 8] := by
  refine ⟨_, rfl, rfl, by simp, ?_, ⟨by decide, ?_, _, rfl, rfl⟩, rfl⟩
  · intro q hq
    rcases List.mem_cons.1 hq with rfl | hq
    · rfl
    · rcases List.mem_cons.1 hq with rfl | hq
      · rfl
      · simp at hq
  · intro q hq
    have : q.2.mesh = ⟨2, MeshGraph.exampleCells⟩ := by
      simp only [exampleData, List.mem_cons, List.not_mem_nil, or_false] at hq
      rcases hq with rfl | rfl <;> rfl
    rw [this]
    exact ⟨exampleCells_wf.1, exampleCells_wf.2.2, exampleCells_wf.2.1⟩

theorem exampleGives (v : ℚ) : ∃ p, p.nDof = 9 ∧
    p.spaces ≠ [] ∧ (∀ q ∈ p.spaces, q.2.elements.length = 1) ∧
    BuiltFrom exampleBasix exampleData [] [("u", [some 1]), ("p", [some 1])] [("p", [some 2])] p ∧
    ElementsGive p (exampleEval v) 1 (exampleContributions v) ∧
    ∀ c ∈ exampleContributions v, c.Fits 9 := by
  obtain ⟨p, -, h1, h2, h3, h4, h5⟩ := exampleProduct_facts
  refine ⟨p, h1, h2, h3, h4, ⟨rfl, ?_⟩, ?_⟩
  · intro i c hc
    cases i with
    | zero =>
      simp only [exampleContributions, List.getElem?_cons_zero, Option.some.injEq] at hc
      rw [← hc]
      exact ⟨h5, rfl⟩
    | succ i => simp [exampleContributions] at hc
  · intro c hc
    simp only [exampleContributions, List.mem_singleton] at hc
    rw [hc]
    refine ⟨by simp, rfl, rfl, ?_⟩
    intro row hrow
    rcases List.mem_cons.1 hrow with rfl | h
    · rfl
    · rw [(List.mem_replicate.1 h).2]; rfl

/-- C24 is violated: a diagonal entry of size `1e-9` is dropped from the matrix. -/
theorem C24_small_entries_dropped : ∃ (p : Product) (sys : Sys ℚ) (cs : List (Contribution ℚ)),
    ElementsGive p (exampleEval (1 / 10 ^ 9)) 1 cs ∧
    l2Assemble p (exampleEval (1 / 10 ^ 9)) 0 false = (p, .ok sys) ∧
    (cs.map (·.jacAt 0 0)).sum = 1 / 10 ^ 9 ∧ sys.jac.val 0 0 = 0 := by
  obtain ⟨p, h1, h2, h3, h4, h5, h6⟩ := exampleGives (1 / 10 ^ 9)
  obtain ⟨sys, e1, -, -, -, e2⟩ := C24_assembled_partial exampleBasix_good h4 1 h2 h3
    (exampleEval (1 / 10 ^ 9)) false _ h5 (h1 ▸ h6)
  refine ⟨p, sys, _, h5, e1, ?_, ?_⟩
  · simp [exampleContributions, Contribution.jacAt]
  · rw [e2]
    have hclose : Negligible (1 / 10 ^ 9 : ℚ) := by
      simp only [Negligible]
      rw [abs_of_nonneg (by norm_num)]
      norm_num
    have hclose' : Negligible ((10 ^ 9)⁻¹ : ℚ) := by rw [← one_div]; exact hclose
    simp [exampleContributions, Contribution.jacAt, pruned, hclose']

/-- The hypotheses of `C24_exact_partial` are satisfiable, with a non-zero matrix. -/
example : ∀ c ∈ exampleContributions 3, ∀ row ∈ c.jac, ∀ v ∈ row, Negligible v → v = 0 := by
  intro c hc row hrow v hv hclose
  obtain rfl := List.mem_singleton.1 hc
  have hv3 : v = 3 ∨ v = 0 := by
    rcases List.mem_cons.1 hrow with rfl | h
    · rcases List.mem_cons.1 hv with rfl | h'
      · exact .inl rfl
      · exact .inr (List.mem_replicate.1 h').2
    · rw [(List.mem_replicate.1 h).2] at hv
      exact .inr (List.mem_replicate.1 hv).2
  rcases hv3 with rfl | rfl
  · exfalso
    simp only [Negligible] at hclose
    rw [abs_of_nonneg (by norm_num)] at hclose
    norm_num at hclose
  · rfl

#print axioms C24_assembled_partial
#print axioms C24_exact_partial
#print axioms C24_shift_rejected
#print axioms C24_small_entries_dropped

end Verif.Projector
