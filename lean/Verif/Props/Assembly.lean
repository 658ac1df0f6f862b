/-
Property theorems C21-C23: assembly of residual and Jacobian
(src/assembly/ScatterFormData.py, src/assembly/SequentialAssembler.py), in exact arithmetic.
-/
import Verif.Lemmas.Assembly
import Verif.Props.Space

namespace Verif.Assembly
open Space

variable {K T : Type} [AddCommMonoid K]

/-- C21: scattering one element adds to each entry the sum of the local entries sent there, also
with repeated destinations. -/
theorem C21_scatter (c : Contribution K) (s : Sys K) (hn : s.res.length = s.jac.n)
    (hf : c.Fits s.jac.n) :
    ∃ s', scatterGeneric c.res c.jac c.dest s = (s', none) ∧ s'.res.length = s.res.length ∧
      s'.jac.n = s.jac.n ∧
      (∀ (i : Nat) x, s.res[i]? = some x → s'.res[i]? = some (x + c.resAt i)) ∧
      ∀ i j, s'.jac.val i j = s.jac.val i j + c.jacAt i j := by
  obtain ⟨s', h, ha⟩ := scatterGeneric_ok c s hn hf
  refine ⟨s', h, ha.length, ha.n, ?_, ?_⟩
  · intro i x hi; simpa using ha.res i x hi
  · intro i j; simpa using ha.jac i j

omit [AddCommMonoid K] in
theorem zip_map_zero [AddCommMonoid K] {β : Type} (f : Nat × β → K) (d : List Nat) (l : List β)
    (h : ∀ p, p.1 ∈ d → f p = 0) : ((d.zip l).map f).sum = 0 := by
  apply List.sum_eq_zero
  intro x hx
  obtain ⟨p, hp, rfl⟩ := List.mem_map.1 hx
  exact h p (List.of_mem_zip hp).1

/-- C21: entries that are not a destination (row or column) do not change. -/
theorem C21_untouched (c : Contribution K) (i j : Nat) :
    (i ∉ c.dest → c.resAt i = 0) ∧ (i ∉ c.dest ∨ j ∉ c.dest → c.jacAt i j = 0) := by
  constructor
  · intro hi
    apply zip_map_zero
    intro p hp
    rw [if_neg]
    rintro rfl
    exact hi hp
  · intro h
    apply zip_map_zero
    intro r hr
    apply zip_map_zero
    intro p hp
    rw [if_neg]
    rintro ⟨rfl, rfl⟩
    exact h.elim (fun h => h hr) (fun h => h hp)

/-- C21 without repeated destinations: the local entry itself is added. -/
theorem C21_distinct (c : Contribution K) (n : Nat) (hf : c.Fits n) (hd : c.dest.Nodup) (a : Nat)
    (ha : a < c.dest.length) :
    c.resAt c.dest[a] = c.res[a]'(by rw [hf.res_length]; exact ha) ∧
    ∀ (b : Nat) (hb : b < c.dest.length), c.jacAt c.dest[a] c.dest[b] =
      (c.jac[a]'(by rw [hf.jac_length]; exact ha))[b]'(by
        rw [hf.row_length _ (List.getElem_mem _)]; exact hb) := by
  -- a sum over a duplicate free list of keys picks one term
  have pick : ∀ {β : Type} (d : List Nat) (l : List β) (g : β → K), d.Nodup →
      ∀ (k : Nat) (hk : k < d.length) (hl : l.length = d.length),
      ((d.zip l).map fun p => if p.1 = d[k] then g p.2 else 0).sum =
        g (l[k]'(by rw [hl]; exact hk)) := by
    intro β d
    induction d with
    | nil => intro l g _ k hk; simp at hk
    | cons x d ih =>
      intro l g hn k hk hl
      cases l with
      | nil => simp at hl
      | cons y l =>
        simp only [List.nodup_cons] at hn
        cases k with
        | zero =>
          simp only [List.zip_cons_cons, List.map_cons, List.sum_cons, List.getElem_cons_zero,
            if_true]
          rw [zip_map_zero, add_zero]
          intro p hp
          rw [if_neg]
          rintro rfl
          exact hn.1 hp
        | succ k =>
          simp only [List.length_cons] at hk hl
          simp only [List.zip_cons_cons, List.map_cons, List.sum_cons, List.getElem_cons_succ]
          rw [if_neg, zero_add, ih l g hn.2 k (by omega) (by omega)]
          rintro rfl
          exact hn.1 (List.getElem_mem _)
  constructor
  · exact pick c.dest c.res id hd a ha hf.res_length
  · intro b hb
    have hrow : ∀ r ∈ c.dest.zip c.jac,
        ((c.dest.zip r.2).map fun p => if r.1 = c.dest[a] ∧ p.1 = c.dest[b] then p.2 else 0).sum =
        if r.1 = c.dest[a] then
          ((c.dest.zip r.2).map fun p => if p.1 = c.dest[b] then p.2 else 0).sum else 0 := by
      intro r _
      by_cases h : r.1 = c.dest[a] <;> simp [h]
    rw [Contribution.jacAt, List.map_congr_left hrow]
    rw [pick c.dest c.jac (fun row => ((c.dest.zip row).map
      fun p => if p.1 = c.dest[b] then p.2 else 0).sum) hd a ha hf.jac_length]
    exact pick c.dest _ id hd b hb (hf.row_length _ (List.getElem_mem _))

/-- C21, error case: the first destination outside the residual stops the scatter with an
`IndexError`, before the Jacobian is touched. -/
theorem C21_rejects (c : Contribution K) (s : Sys K) (pre : List Nat) (x : Nat) (post : List Nat)
    (hd : c.dest = pre ++ x :: post) (hpre : ∀ y ∈ pre, y < s.res.length)
    (hx : s.res.length ≤ x) (hl : c.res.length = c.dest.length) :
    ∃ s', scatterGeneric c.res c.jac c.dest s = (s', some .indexError) ∧ s'.jac = s.jac := by
  have key : ∀ (pre : List Nat) (k : Nat) (s : Sys K), (∀ y ∈ pre, y < s.res.length) →
      s.res.length ≤ x → k + pre.length < c.res.length →
      ∃ s', forEach (fun (p : Nat × Nat) => withRes (getIdx c.res p.2) fun v => addRes p.1 v)
        ((pre ++ x :: post).zipIdx k) s = (s', some .indexError) ∧ s'.jac = s.jac := by
    intro pre
    induction pre with
    | nil =>
      intro k s _ hx hk
      simp only [List.length_nil, Nat.add_zero] at hk
      refine ⟨s, ?_, rfl⟩
      simp [forEach, withRes, getIdx, hk, addRes, List.getElem?_eq_none hx]
    | cons y pre ih =>
      intro k s hp hx hk
      simp only [List.length_cons] at hk
      have hy := hp y (by simp)
      obtain ⟨s', h1, h2⟩ := ih (k + 1)
        { s with res := s.res.set y (s.res[y] + c.res[k]'(by omega)) }
        (fun z hz => by simpa using hp z (by simp [hz])) (by simpa using hx) (by omega)
      refine ⟨s', ?_, h2⟩
      have hk' : k < c.res.length := by omega
      simp only [List.cons_append, List.zipIdx_cons, forEach, withRes, getIdx,
        List.getElem?_eq_getElem hk', addRes, List.getElem?_eq_getElem hy]
      exact h1
  obtain ⟨s', h1, h2⟩ := key pre 0 s hpre hx (by rw [hl, hd]; simp)
  refine ⟨s', ?_, h2⟩
  unfold scatterGeneric Step.andThen scatterRhs
  rw [hd] at *
  rw [h1]

/-! ### C22 -/

/-- Every visit of the forms has a contribution that fits. -/
def AllFit (d : Dict String (Input K T)) (n : Nat) : Prop :=
  (∀ p ∈ d, p.2.Known) ∧ ∀ v ∈ visits d, ∃ c, Contributes v.1 v.2 c ∧ c.Fits n

/-- C22: the assembled system is the initial one plus the contributions of all visits. -/
theorem C22_sum (d : Dict String (Input K T)) (s : Sys K) (hn : s.res.length = s.jac.n)
    (hf : AllFit d s.jac.n) :
    ∃ s' cs, scatterForms (some d) s = (s', none) ∧
      List.Forall₂ (fun v c => Contributes v.1 v.2 c) (visits d) cs ∧ AddsUp s s' cs := by
  have hknown : ∀ v ∈ visits d, v.1.Known := by
    intro v hv
    obtain ⟨p, hp, hv⟩ := List.mem_flatMap.1 hv
    obtain ⟨idx, -, rfl⟩ := List.mem_map.1 hv
    exact hf.1 p hp
  obtain ⟨s', cs, h1, h2, h3⟩ := visits_ok (visits d) s hn (by
    intro v hv
    obtain ⟨c, hc, hfit⟩ := hf.2 v hv
    exact ⟨c, (localOf_iff v.1 (hknown v hv) v.2 c).2 hc, hfit⟩)
  refine ⟨s', cs, ?_, ?_, h3⟩
  · rw [scatterForms_visits d hf.1, h1]
  · have : ∀ (vs : List (Input K T × Idx)) (cs : List (Contribution K)),
        (∀ v ∈ vs, v.1.Known) → vs.map (fun v => localOf v.1 v.2) = cs.map Except.ok →
        List.Forall₂ (fun v c => Contributes v.1 v.2 c) vs cs := by
      intro vs
      induction vs with
      | nil => intro cs _ h; cases cs with
        | nil => exact .nil
        | cons => simp at h
      | cons v vs ih =>
        intro cs hk h
        cases cs with
        | nil => simp at h
        | cons c cs =>
          simp only [List.map_cons, List.cons.injEq] at h
          exact .cons ((localOf_iff v.1 (hk v (by simp)) v.2 c).1 h.1)
            (ih cs (fun w hw => hk w (by simp [hw])) h.2)
    exact this _ _ hknown h2

/-- Assembly only depends on the local contributions, up to order. -/
theorem scatterForms_perm (d d' : Dict String (Input K T)) (s : Sys K) (hn : s.res.length = s.jac.n)
    (hf : AllFit d s.jac.n) (hk : ∀ p ∈ d', p.2.Known)
    (hp : ((visits d).map fun v => localOf v.1 v.2).Perm
      ((visits d').map fun v => localOf v.1 v.2)) :
    scatterForms (some d) s = scatterForms (some d') s := by
  have hknown : ∀ v ∈ visits d, v.1.Known := by
    intro v hv
    obtain ⟨p, hp, hv⟩ := List.mem_flatMap.1 hv
    obtain ⟨idx, -, rfl⟩ := List.mem_map.1 hv
    exact hf.1 p hp
  have hloc : ∀ v ∈ visits d, ∃ c, localOf v.1 v.2 = .ok c ∧ c.Fits s.jac.n := by
    intro v hv
    obtain ⟨c, hc, hfit⟩ := hf.2 v hv
    exact ⟨c, (localOf_iff v.1 (hknown v hv) v.2 c).2 hc, hfit⟩
  obtain ⟨s₁, cs₁, h1, h2, h3⟩ := visits_ok (visits d) s hn hloc
  obtain ⟨s₂, cs₂, h1', h2', h3'⟩ := visits_ok (visits d') s hn (by
    intro v hv
    have hm : localOf v.1 v.2 ∈ (visits d').map fun v => localOf v.1 v.2 :=
      List.mem_map.2 ⟨v, hv, rfl⟩
    obtain ⟨w, hw, he⟩ := List.mem_map.1 (hp.mem_iff.2 hm)
    rw [← he]
    exact hloc w hw)
  have hperm : cs₁.Perm cs₂ := by
    rw [h2, h2'] at hp
    have hinj : Function.Injective (Except.ok : Contribution K → Res (Contribution K)) :=
      fun a b h => by simpa using h
    exact (List.map_perm_map_iff hinj).1 hp
  rw [scatterForms_visits d hf.1, scatterForms_visits d' hk, h1, h1', h3.unique h3' hperm]

/-- C22: any two lists of forms with the same visits up to order assemble the same system. -/
theorem C22_order (d d' : Dict String (Input K T)) (s : Sys K) (hn : s.res.length = s.jac.n)
    (hf : AllFit d s.jac.n) (hk : ∀ p ∈ d', p.2.Known) (hp : (visits d).Perm (visits d')) :
    scatterForms (some d) s = scatterForms (some d') s :=
  scatterForms_perm d d' s hn hf hk (hp.map _)

/-- C22: the order of the forms (`d'` instead of `d`) and of the entries of each sequence (`d''`
instead of `d'`) does not matter. -/
theorem C22_reorderings (d d' d'' : Dict String (Input K T)) (s : Sys K)
    (hn : s.res.length = s.jac.n) (hf : AllFit d s.jac.n) (hp : d.Perm d')
    (hs : List.Forall₂ (fun p q => ∃ qs : List Idx, qs.Perm p.2.seq ∧ q.2 = p.2.withSeq qs) d' d'') :
    scatterForms (some d) s = scatterForms (some d'') s := by
  have hk' : ∀ p ∈ d', p.2.Known := fun p h => hf.1 p (hp.mem_iff.2 h)
  have hk'' : ∀ p ∈ d'', p.2.Known := by
    clear hp
    induction hs with
    | nil => simp
    | @cons p q l l' h _ ih =>
      intro x hx
      rcases List.mem_cons.1 hx with rfl | hx
      · obtain ⟨qs, -, h⟩ := h
        have := hk' p (by simp)
        rw [h]
        revert this
        cases p.2 <;> exact id
      · exact ih (fun y hy => hk' y (by simp [hy])) x hx
  refine scatterForms_perm d d'' s hn hf hk'' (((hp.flatMap_right _).map _).trans ?_)
  clear hp hk' hk''
  induction hs with
  | nil => exact .refl _
  | @cons p q l l' h _ ih =>
    obtain ⟨qs, h1, h3⟩ := h
    have h2 : q.2.seq = qs := by rw [h3]; cases p.2 <;> rfl
    simp only [List.flatMap_cons, List.map_append, visits] at ih ⊢
    refine .append ?_ ih
    rw [List.map_map, List.map_map, h2]
    have hloc : ∀ idx, localOf q.2 idx = localOf p.2 idx := by
      intro idx
      rw [h3]
      cases p.2 <;> rfl
    have : ((fun v : Input K T × Idx => localOf v.1 v.2) ∘ fun idx => (q.2, idx)) =
        ((fun v : Input K T × Idx => localOf v.1 v.2) ∘ fun idx => (p.2, idx)) := by
      funext idx; exact hloc idx
    rw [this]
    exact (h1.map _).symm

omit [AddCommMonoid K] in
/-- C22, for the element forms on a built product space: with a system of at least
shift + `n_dof` rows every destination list fits, whatever the values. -/
theorem C22_destinations_fit {basix : Basix} (gb : GoodBasix basix)
    {data : Dict String FieldData} {disc : Dict String Bool}
    {tags bTags : Dict String (List (Option Int))} {p : Product}
    (hp : BuiltFrom basix data disc tags bTags p) (sh n : Nat) (hn : sh + p.nDof ≤ n) (i : Nat)
    (hi : ∀ q ∈ p.spaces, i < q.2.elements.length) :
    ∃ dest, ({ p with dofShift := sh } : Product).destinationIndexes i none = .ok dest ∧
      dest.Nodup ∧ (∀ x ∈ dest, x < n) ∧
      ∀ alpha : List K, alpha.length = n → ∃ al, gather alpha dest = .ok al ∧
        al.length = dest.length := by
  obtain ⟨d, -, -, -, h1, h2, h3⟩ := C16_fields_disjoint gb hp sh i hi
  refine ⟨_, h1, h2, fun x hx => by have := h3 x hx; omega, ?_⟩
  intro alpha ha
  generalize d.values.flatten = dest at h3
  have : ∀ x ∈ dest, x < alpha.length := fun x hx => by have := h3 x hx; omega
  clear h3 h2 h1
  induction dest with
  | nil => exact ⟨[], rfl, rfl⟩
  | cons x dest ih =>
    obtain ⟨al, h4, h5⟩ := ih (fun y hy => this y (by simp [hy]))
    have hx := this x (by simp)
    refine ⟨alpha[x] :: al, ?_, by simp [h5]⟩
    unfold gather at h4 ⊢
    simp [MeshGraph.mapRes, getIdx, hx, h4]

/-! ### C23 -/

/-- C23: a known form visits its sequence in order; an entry whose evaluation is described by
`Calls` is scattered to exactly those degrees of freedom, any other entry is an error that leaves
the system as it was. -/
theorem C23_dispatch (x : Input K T) (hk : x.Known) :
    ∃ g : Idx → Step (Sys K), (∀ s, scatterInput x s = forEach g x.seq s) ∧
      (∀ idx c, Contributes x idx c → g idx = scatterGeneric c.res c.jac c.dest) ∧
      ∀ idx, (¬ ∃ c, Contributes x idx c) → ∀ s, ∃ e, g idx s = (s, some e) := by
  refine ⟨visit x, scatterInput_known x hk, ?_, ?_⟩
  · intro idx c hc
    simp only [visit, (localOf_iff x hk idx c).2 hc, withRes_ok]
  · intro idx hno s
    cases h : localOf x idx with
    | ok c => exact absurd ⟨c, (localOf_iff x hk idx c).1 h⟩ hno
    | error e => exact ⟨e, by simp only [visit, h]; rfl⟩

/-- C23: an unknown type, or a tuple of the wrong size, is an error and the system is left as the
earlier forms made it; later forms are not assembled. -/
theorem C23_unknown (pre post : Dict String (Input K T)) (name : String) (x : Input K T)
    (hx : ¬ x.Known) (s s₁ : Sys K) (hpre : scatterForms (some pre) s = (s₁, none)) :
    ∃ e, (e = .keyError ∨ e = .valueError) ∧
      scatterForms (some (pre ++ (name, x) :: post)) s = (s₁, some e) := by
  have hstep : ∃ e, (e = Err.keyError ∨ e = .valueError) ∧ scatterInput x s₁ = (s₁, some e) := by
    cases x with
    | plain type q w alpha =>
      simp only [Input.Known, List.mem_cons, List.not_mem_nil, or_false, not_or] at hx
      unfold scatterInput
      split
      · exact ⟨.valueError, .inr rfl, rfl⟩
      · refine ⟨.keyError, .inl rfl, ?_⟩
        simp only [plainCallable, if_neg hx.1, if_neg hx.2.1, if_neg hx.2.2.1, if_neg hx.2.2.2]
        rfl
    | timed type q w alphas t =>
      obtain ⟨an, a⟩ := alphas
      simp only [Input.Known, List.mem_cons, List.not_mem_nil, or_false, not_or] at hx
      unfold scatterInput
      split
      · refine ⟨.keyError, .inl rfl, ?_⟩
        simp only [timedCallable, if_neg hx.1, if_neg hx.2]
        rfl
      · exact ⟨.valueError, .inr rfl, rfl⟩
  obtain ⟨e, he, hs⟩ := hstep
  refine ⟨e, he, ?_⟩
  simp only [scatterForms] at hpre ⊢
  rw [forEach_append, hpre]
  simp only [forEach, hs]

omit [AddCommMonoid K] in
/-- C23: nothing to assemble has been set. -/
theorem C23_no_inputs [AddCommMonoid K] (s : Sys K) :
    scatterForms (none : Option (Dict String (Input K T))) s = (s, some .attributeError) := rfl

/-! ### The hypotheses are satisfiable -/

/-- Two local rows sent to the same global row 1. -/
def exampleContribution : Contribution Int :=
  ⟨[1, 1, 0], [10, 20, 30], [[1, 2, 3], [4, 5, 6], [7, 8, 9]]⟩

example : exampleContribution.Fits 2 := ⟨by decide, rfl, rfl, by decide⟩
example : exampleContribution.resAt 1 = 30 ∧ exampleContribution.resAt 0 = 30 ∧
    exampleContribution.jacAt 1 1 = 12 ∧ exampleContribution.jacAt 1 0 = 9 ∧
    exampleContribution.jacAt 0 1 = 15 ∧ exampleContribution.jacAt 0 0 = 9 := by decide
example : ((scatterGeneric exampleContribution.res exampleContribution.jac
    exampleContribution.dest ⟨[100, 200], ⟨2, fun _ _ => 0⟩⟩).1.res = [130, 230]) ∧
    (scatterGeneric exampleContribution.res exampleContribution.jac
      exampleContribution.dest ⟨[100, 200], ⟨2, fun _ _ => 0⟩⟩).1.jac.val 1 1 = 12 := by decide

/-- The example product space of `Verif.Props.Space`. -/
def exampleProduct : Res Product := do
  let p ← Product.new exampleData
  p.buildStructures exampleBasix [("u", [some 1]), ("p", [some 1])] [("p", [some 2])]

/-- A form adding 1 per dof, on the element 0, and a boundary form adding 5. -/
def exampleInputs (p : Product) : Dict String (Input Int Unit) :=
  [("a", .plain "form" [.cell 0] ⟨p, fun _ => .ok (List.replicate 9 1, List.replicate 9 (List.replicate 9 1))⟩
      (List.replicate 9 0)),
   ("b", .timed "time_dependent_bc_form" [.cell 0] ⟨p, fun _ => .ok ([5, 5], [[1, 1], [1, 1]])⟩
      (List.replicate 9 0, []) ())]

example : ∃ p, exampleProduct = .ok p ∧
    (scatterForms (some (exampleInputs p)) ⟨List.replicate 9 0, ⟨9, fun _ _ => 0⟩⟩).1.res =
      [1, 1, 1, 1, 1, 1, 6, 6, 1] ∧
    AllFit (exampleInputs p) 9 := by
  refine ⟨_, rfl, by decide, ?_, ?_⟩
  · intro q hq
    rcases List.mem_cons.1 hq with rfl | hq
    · simp [Input.Known]
    · obtain rfl := List.mem_singleton.1 hq
      simp [Input.Known]
  · intro v hv
    rcases List.mem_cons.1 hv with rfl | hv
    · refine ⟨⟨_, _, _⟩, ⟨_, .form rfl rfl, rfl⟩, ?_⟩
      exact ⟨by decide, rfl, rfl, by decide⟩
    · obtain rfl := List.mem_singleton.1 hv
      refine ⟨⟨_, _, _⟩, ⟨_, .timeBc rfl rfl, rfl⟩, ?_⟩
      exact ⟨by decide, rfl, rfl, by decide⟩

example (p : Product) : ¬ (Input.plain "forms" [] ⟨p, fun _ => .error .valueError⟩ [] :
    Input Int Unit).Known := by simp [Input.Known]

#print axioms C21_scatter
#print axioms C21_untouched
#print axioms C21_distinct
#print axioms C21_rejects
#print axioms C22_sum
#print axioms C22_order
#print axioms C22_reorderings
#print axioms C22_destinations_fit
#print axioms C23_dispatch
#print axioms C23_unknown
#print axioms C23_no_inputs

end Verif.Assembly
