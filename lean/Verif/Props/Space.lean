/-
Property theorems C16-C20: product spaces and discrete spaces
(src/spaces/product_space.py, src/spaces/discrete_space.py).
-/
import Verif.Lemmas.Product
import Verif.Props.MeshGraph

namespace Verif.Space
open MeshBuild MeshGraph Dof

section C16
variable {basix : Basix} {data : Dict String FieldData} {disc : Dict String Bool}
  {tags bTags : Dict String (List (Option Int))} {p : Product}

/-- C16: `n_dof` is the sum over the fields, the fields are those asked for, in order; the
intervals of the fields are consecutive, starting at the shift and ending at shift + `n_dof`. -/
theorem C16_intervals (gb : GoodBasix basix) (hp : BuiltFrom basix data disc tags bTags p)
    (sh : Nat) :
    p.spaces.keys = data.keys ∧ fieldStart p.spaces sh 0 = sh ∧
      fieldStart p.spaces sh p.spaces.length = sh + p.nDof ∧
      ∀ (k : Nat) q, p.spaces[k]? = some q →
        fieldStart p.spaces sh (k + 1) = fieldStart p.spaces sh k + q.2.nDof := by
  obtain ⟨h, hk, -⟩ := prodOK gb hp
  refine ⟨hk, by simp [fieldStart], by simp [fieldStart, h.nDof], ?_⟩
  intro k q hq
  have : p.spaces.take (k + 1) = p.spaces.take k ++ [q] := by
    rw [List.take_add_one, hq]; rfl
  simp [fieldStart, this]; omega

theorem fieldStart_mono (spaces : Dict String Space) (sh : Nat) {j k : Nat} (h : j ≤ k) :
    fieldStart spaces sh j ≤ fieldStart spaces sh k := by
  have : (spaces.take j).Sublist (spaces.take k) := List.take_sublist_take_left h
  have := (this.map fun q => q.2.nDof).sum_le_sum (fun _ _ => Nat.zero_le _)
  unfold fieldStart; omega

/-- C16: for every element index valid in every field, each field gets pairwise distinct numbers
inside its own interval; the concatenation over the fields has no repetition. -/
theorem C16_fields_disjoint (gb : GoodBasix basix) (hp : BuiltFrom basix data disc tags bTags p)
    (sh i : Nat) (hi : ∀ q ∈ p.spaces, i < q.2.elements.length) :
    ∃ d, ({ p with dofShift := sh } : Product).spacesDest i = .ok d ∧ d.keys = data.keys ∧
      (∀ (k : Nat) name l, d[k]? = some (name, l) → l.Nodup ∧
        (∀ x ∈ l, fieldStart p.spaces sh k ≤ x ∧ x < fieldStart p.spaces sh (k + 1)) ∧
        ({ p with dofShift := sh } : Product).destinationIndexes i (some name) = .ok l) ∧
      ({ p with dofShift := sh } : Product).destinationIndexes i none = .ok d.values.flatten ∧
      d.values.flatten.Nodup ∧ ∀ x ∈ d.values.flatten, sh ≤ x ∧ x < sh + p.nDof := by
  obtain ⟨h, hkeys, -⟩ := prodOK gb hp
  obtain ⟨-, hs0, hsn, hstep⟩ := C16_intervals gb hp sh
  obtain ⟨d, hd, hlen, hk⟩ := h.spacesDest sh i hi
  have hint : ∀ (k : Nat) name l, d[k]? = some (name, l) → l.Nodup ∧
      (∀ x ∈ l, fieldStart p.spaces sh k ≤ x ∧ x < fieldStart p.spaces sh (k + 1)) := by
    intro k name l hkl
    have hlt : k < p.spaces.length := by
      have := (List.getElem?_eq_some_iff.1 hkl).1; omega
    obtain ⟨l', hl', hn, hb, hdk⟩ := hk k _ (List.getElem?_eq_getElem hlt)
    rw [hdk] at hkl
    simp only [Option.some.injEq, Prod.mk.injEq] at hkl
    obtain ⟨-, rfl⟩ := hkl
    have hst := hstep k _ (List.getElem?_eq_getElem hlt)
    refine ⟨hn.map (fun a b hab => by have : a + _ + sh = b + _ + sh := hab; omega), ?_⟩
    intro x hx
    obtain ⟨y, hy, rfl⟩ := List.mem_map.1 hx
    have := hb y hy
    rw [hst]
    unfold fieldStart
    omega
  have hkd : d.keys = p.spaces.keys := by
    apply List.ext_getElem?
    intro k
    simp only [Dict.keys, List.getElem?_map]
    by_cases hlt : k < p.spaces.length
    · obtain ⟨l', -, -, -, hdk⟩ := hk k _ (List.getElem?_eq_getElem hlt)
      rw [hdk, List.getElem?_eq_getElem hlt]; rfl
    · rw [List.getElem?_eq_none (by omega), List.getElem?_eq_none (by omega)]; rfl
  have hnd : d.keys.Nodup := by rw [hkd, hkeys]; exact hp.1
  have hne : d.values.length ≠ 0 := by
    simp only [Dict.values, List.length_map, hlen]
    intro h0; exact h.ne (List.length_eq_zero_iff.1 h0)
  refine ⟨d, hd, by rw [hkd, hkeys], ?_, ?_, ?_, ?_⟩
  · intro k name l hkl
    refine ⟨(hint k name l hkl).1, (hint k name l hkl).2, ?_⟩
    simp only [Product.destinationIndexes, hd, Res.bind_ok, pickField]
    exact Dict.getItem_of_get? (Dict.get?_of_mem_nodup hnd (List.mem_of_getElem? hkl))
  · simp only [Product.destinationIndexes, hd, Res.bind_ok, pickField, if_neg hne]
  · rw [List.nodup_flatten]
    constructor
    · intro l hl
      obtain ⟨⟨name, l⟩, hm, rfl⟩ := List.mem_map.1 hl
      obtain ⟨k, hkl⟩ := List.mem_iff_getElem?.1 hm
      exact (hint k _ _ hkl).1
    · rw [Dict.values, List.pairwise_iff_getElem]
      intro j k hj hk' hjk x hx hy
      simp only [List.length_map] at hj hk'
      simp only [List.getElem_map] at hx hy
      have h1 := (hint j _ _ (List.getElem?_eq_getElem hj)).2 x hx
      have h2 := (hint k _ _ (List.getElem?_eq_getElem hk')).2 x hy
      have := fieldStart_mono p.spaces sh (show j + 1 ≤ k by omega)
      omega
  · intro x hx
    obtain ⟨l, hl, hx⟩ := List.mem_flatten.1 hx
    obtain ⟨⟨name, l⟩, hm, rfl⟩ := List.mem_map.1 hl
    obtain ⟨k, hkl⟩ := List.mem_iff_getElem?.1 hm
    have h1 := (hint k _ _ hkl).2 x hx
    have hlt := (List.getElem?_eq_some_iff.1 hkl).1
    have h2 := fieldStart_mono p.spaces sh (Nat.zero_le k)
    have h3 := fieldStart_mono p.spaces sh (show k + 1 ≤ p.spaces.length by omega)
    omega

/-- C16: every number of `[shift, shift + n_dof)` is a destination of some element, when the
fields have the same number of elements. -/
theorem C16_covers (gb : GoodBasix basix) (hp : BuiltFrom basix data disc tags bTags p)
    (sh n : Nat) (hn : ∀ q ∈ p.spaces, q.2.elements.length = n) (x : Nat) (h1 : sh ≤ x)
    (h2 : x < sh + p.nDof) :
    ∃ i < n, ∃ l, ({ p with dofShift := sh } : Product).destinationIndexes i none = .ok l ∧
      x ∈ l := by
  obtain ⟨h, -, -⟩ := prodOK gb hp
  obtain ⟨-, hs0, hsn, hstep⟩ := C16_intervals gb hp sh
  -- the field whose interval contains x
  have hfield : ∀ m ≤ p.spaces.length, x < fieldStart p.spaces sh m → ∃ k < m,
      fieldStart p.spaces sh k ≤ x ∧ x < fieldStart p.spaces sh (k + 1) := by
    intro m
    induction m with
    | zero => intro _ hlt; omega
    | succ m ih =>
      intro hm hlt
      by_cases hx : x < fieldStart p.spaces sh m
      · obtain ⟨k, hk, hkk⟩ := ih (by omega) hx
        exact ⟨k, by omega, hkk⟩
      · exact ⟨m, by omega, by omega, hlt⟩
  obtain ⟨k, hk, hx1, hx2⟩ := hfield p.spaces.length (Nat.le_refl _) (by omega)
  have hq := List.getElem?_eq_getElem hk
  have hmem := List.mem_of_getElem? hq
  obtain ⟨hg, tg, btg, D, t, sel, ned, hF⟩ := h.fields _ hmem
  rw [hstep k _ hq, hF.nDof] at hx2
  obtain ⟨i, l, hi, hl, hxl⟩ := hF.cover hg.nodup (x := x - fieldStart p.spaces sh k) (by omega)
  have hin : i < n := by rw [← hn _ hmem]; exact hi
  have hall : ∀ q ∈ p.spaces, i < q.2.elements.length := fun q hq => by rw [hn q hq]; exact hin
  obtain ⟨d, hd, hlen, hdk⟩ := h.spacesDest sh i hall
  obtain ⟨d', hd', -, -, hcat, -, -⟩ := C16_fields_disjoint gb hp sh i hall
  obtain rfl : d = d' := by rw [hd] at hd'; simpa using hd'
  refine ⟨i, hin, _, hcat, ?_⟩
  obtain ⟨l', hl', -, -, hdk⟩ := hdk k _ hq
  obtain rfl : l = l' := by rw [hl] at hl'; simpa using hl'
  refine List.mem_flatten.2 ⟨_, List.mem_map.2 ⟨_, List.mem_of_getElem? hdk, rfl⟩, ?_⟩
  refine List.mem_map.2 ⟨_, hxl, ?_⟩
  unfold fieldStart at hx1 ⊢
  omega

/-- C16, error cases: an index too large for some field, and an unknown field name. -/
theorem C16_rejects (gb : GoodBasix basix) (hp : BuiltFrom basix data disc tags bTags p)
    (sh i : Nat) (field : Option String) :
    ((∃ q ∈ p.spaces, ¬ i < q.2.elements.length) →
      ({ p with dofShift := sh } : Product).destinationIndexes i field = .error .indexError) ∧
    ((∀ q ∈ p.spaces, i < q.2.elements.length) → ∀ name, name ∉ data.keys →
      ({ p with dofShift := sh } : Product).destinationIndexes i (some name) = .error .keyError) := by
  obtain ⟨h, -, -⟩ := prodOK gb hp
  constructor
  · intro hex
    have : ({ p with dofShift := sh } : Product).spacesDest i = .error .indexError := by
      refine fieldDests_error (retrieveDest · i) (fun _ => false) sh (strides p.dofs.values)
        .indexError p.spaces 0 (by have := h.strides_length; omega) ?_ ?_
      · intro q hq _
        obtain ⟨hg, tg, btg, D, t, sel, ned, hF⟩ := h.fields q hq
        by_cases hi : i < q.2.elements.length
        · exact .inl ⟨_, hF.retrieve hg.nodup (List.getElem?_eq_getElem hi)⟩
        · exact .inr (hF.retrieve_error hi)
      · obtain ⟨q, hq, hi⟩ := hex
        obtain ⟨hg, tg, btg, D, t, sel, ned, hF⟩ := h.fields q hq
        exact ⟨q, hq, rfl, hF.retrieve_error hi⟩
    simp only [Product.destinationIndexes, this, Res.bind_error]
  · intro hi name hname
    obtain ⟨d, hd, hk, -⟩ := C16_fields_disjoint gb hp sh i hi
    simp only [Product.destinationIndexes, hd, Res.bind_ok, pickField]
    rw [← hk] at hname
    simp only [Dict.getItem, Dict.get?_eq_none.2 hname]

end C16

/-! ### C17 -/

/-- C17: the setter accepts exactly the non-negative integers. -/
theorem C17_setter (p : Product) (v : PyVal) :
    (∀ q, p.setDofShift v = .ok q ↔ ∃ n : Nat, v = .int n ∧ q = { p with dofShift := n }) ∧
    (p.setDofShift v = .error .typeError ↔ v = .other) ∧
    (p.setDofShift v = .error .valueError ↔ ∃ n : Int, n < 0 ∧ v = .int n) := by
  cases v with
  | other => simp [Product.setDofShift]
  | int n =>
    by_cases hn : n < 0
    · simp only [Product.setDofShift, if_pos hn]
      refine ⟨fun q => ⟨(nomatch ·), ?_⟩, by simp, by simp [hn]⟩
      rintro ⟨m, hm, -⟩
      have : n = m := by simpa using hm
      omega
    · simp only [Product.setDofShift, if_neg hn]
      refine ⟨fun q => ⟨fun h => ⟨n.toNat, ?_, ?_⟩, ?_⟩, by simp, ⟨(nomatch ·), ?_⟩⟩
      · rw [Int.toNat_of_nonneg (by omega)]
      · cases h; rfl
      · rintro ⟨m, hm, rfl⟩
        obtain rfl : n = m := by simpa using hm
        rfl
      · rintro ⟨m, hm, he⟩
        obtain rfl : n = m := by simpa using he
        exact absurd hm hn

/-- A sequence of assignments, exceptions caught: a rejected one leaves the object as it is. -/
def assignAll (p : Product) (vs : List PyVal) : Product :=
  vs.foldl (fun p v => match p.setDofShift v with | .ok q => q | .error _ => p) p

/-- Is the value accepted? -/
def Accepted : PyVal → Prop
  | .int n => 0 ≤ n
  | .other => False

instance : DecidablePred Accepted := fun v => by cases v <;> unfold Accepted <;> infer_instance

/-- C17: after any history of assignments the shift is the last accepted value (the old one if
there was none), and nothing else changed. -/
theorem C17_history (p : Product) (vs : List PyVal) :
    (∀ v ∈ vs, ¬ Accepted v) ∧ assignAll p vs = p ∨
    ∃ (pre : List PyVal) (n : Nat) (post : List PyVal), vs = pre ++ .int (n : Int) :: post ∧ (∀ v ∈ post, ¬ Accepted v) ∧
      assignAll p vs = { p with dofShift := n } := by
  induction vs using List.reverseRecOn with
  | nil => exact .inl ⟨by simp, rfl⟩
  | append_singleton vs v ih =>
    have hstep : assignAll p (vs ++ [v]) =
        match (assignAll p vs).setDofShift v with | .ok q => q | .error _ => assignAll p vs := by
      simp [assignAll]
    by_cases ha : Accepted v
    · right
      cases v with
      | other => exact absurd ha (by simp [Accepted])
      | int n =>
        have hn : 0 ≤ n := ha
        refine ⟨vs, n.toNat, [], by simp [Int.toNat_of_nonneg hn], by simp, ?_⟩
        rw [hstep, Product.setDofShift, if_neg (by omega)]
        rcases ih with ⟨-, h⟩ | ⟨_, _, _, -, -, h⟩ <;> rw [h]
    · have hrej : assignAll p (vs ++ [v]) = assignAll p vs := by
        rw [hstep]
        cases v with
        | other => rfl
        | int n =>
          have : n < 0 := by simp only [Accepted] at ha; omega
          simp [Product.setDofShift, this]
      rcases ih with ⟨h1, h2⟩ | ⟨pre, n, post, h1, h2, h3⟩
      · refine .inl ⟨?_, by rw [hrej, h2]⟩
        intro w hw
        rcases List.mem_append.1 hw with hw | hw
        · exact h1 w hw
        · simp at hw; subst hw; exact ha
      · refine .inr ⟨pre, n, post ++ [v], by rw [h1]; simp, ?_, by rw [hrej, h3]⟩
        intro w hw
        rcases List.mem_append.1 hw with hw | hw
        · exact h2 w hw
        · simp at hw; subst hw; exact ha

theorem pickField_translate (n : Nat) (d : Dict String (List Nat)) (field : Option String) :
    pickField (translate n d) field = (pickField d field).map (fun l => l.map (· + n)) := by
  cases field with
  | none =>
    simp only [pickField, translate, Dict.values, List.length_map, List.map_map]
    split
    · rfl
    · simp only [Except.map, List.map_flatten, List.map_map]; rfl
  | some f =>
    simp only [pickField, Dict.getItem]
    have : (translate n d).get? f = (d.get? f).map (fun l => l.map (· + n)) := by
      induction d with
      | nil => rfl
      | cons a d ih =>
        simp only [translate, List.map_cons] at ih ⊢
        by_cases h : a.1 = f
        · simp [Dict.get?, h]
        · simp [Dict.get?, h, ih]
    rw [this]
    cases d.get? f <;> rfl

/-- C17: the shift is a translation; in particular errors do not depend on it. -/
theorem C17_translation (p : Product) (n i : Nat) (field : Option String) :
    ({ p with dofShift := n } : Product).destinationIndexes i field =
      (({ p with dofShift := 0 } : Product).destinationIndexes i field).map
        (fun l => l.map (· + n)) ∧
    ({ p with dofShift := n } : Product).bcDestinationIndexes i field =
      (({ p with dofShift := 0 } : Product).bcDestinationIndexes i field).map
        (fun l => l.map (· + n)) := by
  constructor
  · simp only [Product.destinationIndexes, Product.spacesDest]
    rw [fieldDests_shift]
    cases fieldDests (retrieveDest · i) (fun _ => false) 0 (strides p.dofs.values) 0 p.spaces with
    | error e => rfl
    | ok d => exact pickField_translate n d field
  · simp only [Product.bcDestinationIndexes, Product.spacesBcDest]
    rw [fieldDests_shift]
    cases fieldDests (retrieveBcDest · i) (fun s => s.bcElements.length == 0) 0
        (strides p.dofs.values) 0 p.spaces with
    | error e => rfl
    | ok d => exact pickField_translate n d field

/-! ### C18 -/

section C18
variable {basix : Basix} {data : Dict String FieldData} {disc : Dict String Bool}
  {tags bTags : Dict String (List (Option Int))} {p : Product}

/-- The boundary destinations of boundary element `i` of a field (empty if it has none). -/
def bcDestOf (s : Space) (i : Nat) : List Nat :=
  match retrieveBcDest s i with | .ok l => l | .error _ => []

/-- C18: field by field, the boundary destinations are numbers of a neighbour element, moved by
the offset of the field; fields without boundary elements contribute nothing and asking for one
of them by name is an error. -/
theorem C18_boundary_destinations (gb : GoodBasix basix)
    (hp : BuiltFrom basix data disc tags bTags p) (sh i : Nat)
    (hi : ∀ q ∈ p.spaces, q.2.bcElements ≠ [] → i < q.2.bcElements.length) :
    ∃ d, ({ p with dofShift := sh } : Product).spacesBcDest i = .ok d ∧
      d.keys = (p.spaces.filter fun q => q.2.bcElements ≠ []).map Prod.fst ∧
      (∀ (k : Nat) q, p.spaces[k]? = some q → q.2.bcElements ≠ [] →
        ∃ (b : List Nat) (f : Element) (e : Nat) (el : Element) (l : List Nat), retrieveBcDest q.2 i = .ok b ∧ q.2.bcElements[i]? = some f ∧
          q.2.elements[e]? = some el ∧ retrieveDest q.2 e = .ok l ∧
          SubEntity q.2.mesh.cells el.cell.id (q.2.dimension - 1) f.cell.id ∧
          b.Nodup ∧ (∀ x ∈ b, x ∈ l) ∧
          ({ p with dofShift := sh } : Product).bcDestinationIndexes i (some q.1) =
            .ok (b.map (· + fieldStart p.spaces sh k))) ∧
      (∀ name, (∀ q ∈ p.spaces, q.1 = name → q.2.bcElements = []) →
        ({ p with dofShift := sh } : Product).bcDestinationIndexes i (some name) =
          .error .keyError) ∧
      ((∀ q ∈ p.spaces, q.2.bcElements = []) →
        ({ p with dofShift := sh } : Product).bcDestinationIndexes i none = .error .valueError) ∧
      ((∃ q ∈ p.spaces, q.2.bcElements ≠ []) →
        ({ p with dofShift := sh } : Product).bcDestinationIndexes i none =
          .ok d.values.flatten) := by
  obtain ⟨h, hkeys, -⟩ := prodOK gb hp
  have hskip : ∀ s : Space, (s.bcElements.length == 0) = false ↔ s.bcElements ≠ [] := by
    intro s; simp
  have hr : ∀ q ∈ p.spaces, q.2.bcElements ≠ [] → ∃ (b : List Nat) (f : Element) (e : Nat) (el : Element) (l : List Nat), retrieveBcDest q.2 i = .ok b ∧
      q.2.bcElements[i]? = some f ∧
      q.2.elements[e]? = some el ∧ retrieveDest q.2 e = .ok l ∧
      SubEntity q.2.mesh.cells el.cell.id (q.2.dimension - 1) f.cell.id ∧
      b.Nodup ∧ (∀ x ∈ b, x ∈ l) := by
    intro q hq hne
    obtain ⟨hg, tg, btg, D, t, sel, ned, hF⟩ := h.fields q hq
    have hel := List.getElem?_eq_getElem (hi q hq hne)
    obtain ⟨b, e, el, l, h1, h2, h3, h4, -, h6, h7⟩ := hF.retrieveBc hg.nodup hg.closed hel
    exact ⟨b, _, e, el, l, h1, hel, h2, h3, h4, h6, h7⟩
  have hfd := fieldDests_ok (retrieveBcDest · i) (fun s => s.bcElements.length == 0) sh
    (strides p.dofs.values) (bcDestOf · i) p.spaces 0
    (by have := h.strides_length; omega) (by
      intro q hq hs
      obtain ⟨b, f, e, el, l, hb, -⟩ := hr q hq ((hskip _).1 hs)
      simp only [bcDestOf, hb])
  generalize hD : (List.zipIdx p.spaces 0).filterMap (fun q =>
      if (q.1.2.bcElements.length == 0) = true then none
      else some (q.1.1, (bcDestOf q.1.2 i).map
        (fun x => x + ((strides p.dofs.values).getD q.2 0) + sh))) = d at hfd
  change Dict String (List Nat) at d
  have hdk : d.keys = (p.spaces.filter fun q => q.2.bcElements ≠ []).map Prod.fst := by
    rw [← hD, Dict.keys, List.map_filterMap]
    have : p.spaces.filter (fun q => decide (q.2.bcElements ≠ [])) =
        ((List.zipIdx p.spaces 0).filter fun q => decide (q.1.2.bcElements ≠ [])).map Prod.fst := by
      rw [show (fun q : (String × Space) × Nat => decide (q.1.2.bcElements ≠ [])) =
        (fun q : String × Space => decide (q.2.bcElements ≠ [])) ∘ Prod.fst from rfl,
        ← List.filter_map, List.zipIdx_map_fst]
    rw [this, List.map_map, ← List.filterMap_eq_filter, ← List.filterMap_eq_map,
      List.filterMap_filterMap]
    apply List.filterMap_congr
    intro q _
    by_cases hq : q.1.2.bcElements = [] <;> simp [hq, Option.guard]
  have hpn : p.spaces.keys.Nodup := by rw [hkeys]; exact hp.1
  have hnd : d.keys.Nodup := by
    rw [hdk]
    exact hpn.sublist (List.filter_sublist.map _)
  refine ⟨d, hfd, hdk, ?_, ?_, ?_, ?_⟩
  · intro k q hk hne
    have hq := List.mem_of_getElem? hk
    obtain ⟨b, f, e, el, l, h1, h2, h3, h4, h5, h6, h7⟩ := hr q hq hne
    refine ⟨b, f, e, el, l, h1, h2, h3, h4, h5, h6, h7, ?_⟩
    have hlt := (List.getElem?_eq_some_iff.1 hk).1
    have hmem : (q.1, b.map (· + fieldStart p.spaces sh k)) ∈ d := by
      rw [← hD, List.mem_filterMap]
      refine ⟨(q, k), ?_, ?_⟩
      · rw [List.mem_zipIdx_iff_getElem?]; simpa using hk
      · have hz : (q.2.bcElements.length == 0) = false := (hskip _).2 hne
        simp only [hz, Bool.false_eq_true, if_false, bcDestOf, h1, List.getD_eq_getElem?_getD,
          h.strides basix k (by omega), Option.getD_some, Option.some.injEq, Prod.mk.injEq,
          true_and]
        apply List.map_congr_left
        intro x _
        unfold fieldStart; omega
    simp only [Product.bcDestinationIndexes, Product.spacesBcDest, hfd, Res.bind_ok, pickField]
    exact Dict.getItem_of_get? (Dict.get?_of_mem_nodup hnd hmem)
  · intro name hname
    simp only [Product.bcDestinationIndexes, Product.spacesBcDest, hfd, Res.bind_ok, pickField]
    have : name ∉ d.keys := by
      rw [hdk]
      intro hm
      obtain ⟨q, hq, rfl⟩ := List.mem_map.1 hm
      have := List.mem_filter.1 hq
      simp only [decide_eq_true_eq] at this
      exact this.2 (hname q this.1 rfl)
    simp only [Dict.getItem, Dict.get?_eq_none.2 this]
  · intro hall
    have : d.values.length = 0 := by
      have h1 : d.keys.length = 0 := by
        rw [hdk, List.length_eq_zero_iff, List.map_eq_nil_iff,
          List.filter_eq_nil_iff]
        intro q hq
        simp [hall q hq]
      simpa [Dict.keys, Dict.values] using h1
    simp only [Product.bcDestinationIndexes, Product.spacesBcDest, hfd, Res.bind_ok, pickField,
      if_pos this]
  · rintro ⟨q, hq, hne⟩
    have : d.values.length ≠ 0 := by
      have hm : q.1 ∈ d.keys := by
        rw [hdk]
        exact List.mem_map.2 ⟨q, List.mem_filter.2 ⟨hq, by simpa using hne⟩, rfl⟩
      intro h0
      have : d = [] := by
        simpa [Dict.values] using h0
      rw [this] at hm
      simp [Dict.keys] at hm
    simp only [Product.bcDestinationIndexes, Product.spacesBcDest, hfd, Res.bind_ok, pickField,
      if_neg this]

/-- C18, error case: an index too large for a field that has boundary elements. -/
theorem C18_rejects (gb : GoodBasix basix) (hp : BuiltFrom basix data disc tags bTags p)
    (sh i : Nat) (field : Option String)
    (hi : ∃ q ∈ p.spaces, q.2.bcElements ≠ [] ∧ ¬ i < q.2.bcElements.length) :
    ({ p with dofShift := sh } : Product).bcDestinationIndexes i field = .error .indexError := by
  obtain ⟨h, -, -⟩ := prodOK gb hp
  have : ({ p with dofShift := sh } : Product).spacesBcDest i = .error .indexError := by
    refine fieldDests_error (retrieveBcDest · i) (fun s => s.bcElements.length == 0) sh
      (strides p.dofs.values) .indexError p.spaces 0 (by have := h.strides_length; omega) ?_ ?_
    · intro q hq _
      obtain ⟨hg, tg, btg, D, t, sel, ned, hF⟩ := h.fields q hq
      by_cases hi : i < q.2.bcElements.length
      · obtain ⟨b, e, el, l, h1, -⟩ :=
          hF.retrieveBc hg.nodup hg.closed (List.getElem?_eq_getElem hi)
        exact .inl ⟨b, h1⟩
      · exact .inr (hF.retrieveBc_error hi)
    · obtain ⟨q, hq, hne, hi⟩ := hi
      obtain ⟨hg, tg, btg, D, t, sel, ned, hF⟩ := h.fields q hq
      exact ⟨q, hq, by simpa using hne, hF.retrieveBc_error hi⟩
  simp only [Product.bcDestinationIndexes, this, Res.bind_error]

end C18

/-! ### C19 -/

/-- `elements[i]` belongs to the cell with the `i`-th listed id. -/
theorem ids_eq_map {R : Nat → Element → Prop} (hR : ∀ id el, R id el → el.cell.id = id) :
    ∀ {ids : List Nat} {els : List Element}, List.Forall₂ R ids els →
      els.map (fun el => el.cell.id) = ids
  | _, _, .nil => rfl
  | _, _, .cons h t => by simp [hR _ _ h, ids_eq_map hR t]

theorem positions_iff {ids : List Nat} (h : ids.Nodup) (id i : Nat) :
    (positions ids).get? id = some i ↔ ids[i]? = some id := by
  rw [positions_get? h]
  constructor
  · intro hs
    split at hs
    · rename_i hm
      obtain rfl : ids.idxOf id = i := by simpa using hs
      rw [List.getElem?_eq_getElem (List.idxOf_lt_length_iff.2 hm)]
      simp
    · cases hs
  · intro hi
    have hm := List.mem_of_getElem? hi
    rw [if_pos hm]
    obtain ⟨hlt, rfl⟩ := List.getElem?_eq_some_iff.1 hi
    rw [h.idxOf_getElem]

/-- C19: elements, ids and the inverse dictionary. -/
theorem C19_elements {basix : Basix} (gb : GoodBasix basix) {tags bTags : List (Option Int)}
    {s : Space} (hb : IsBuilt basix tags bTags s) (hw : WellFormed s.mesh.cells) :
    s.elements.map (fun el => el.cell.id) = s.elementIds ∧ s.elementIds.Nodup ∧
      (∀ i, i ∈ s.elementIds ↔ Tagged s.mesh.cells tags s.dimension i) ∧
      (∀ el ∈ s.elements, Stored s.mesh.cells el.cell.id el.cell) ∧
      ∀ id i, s.idToElement.get? id = some i ↔ (s.elements.map fun el => el.cell.id)[i]? = some id := by
  obtain ⟨D, t, sel, ned, h⟩ := build_facts_space gb hb hw
  have hids := ids_eq_map (R := fun id el =>
    makeElement basix s.mesh.cells s.generator s.kOrder s.discontinuous id = .ok el)
    (fun id el hmk => hw.ids _ _ (makeElement_inv hmk).1) h.elements
  refine ⟨hids, h.idsNodup, h.ids, ?_, ?_⟩
  · intro el hel
    obtain ⟨i, hi⟩ := List.mem_iff_getElem?.1 hel
    exact (h.element hi).2.2
  · intro id i
    rw [h.idTo, hids]
    exact positions_iff h.idsNodup id i

/-- C19 for boundary elements: they are the facets of the space whose material is a boundary
tag; without boundary tags there are none. -/
theorem C19_boundary_elements {basix : Basix} (gb : GoodBasix basix)
    {tags bTags : List (Option Int)} {s : Space} (hb : IsBuilt basix tags bTags s)
    (hw : WellFormed s.mesh.cells) :
    s.bcElements.map (fun el => el.cell.id) = s.bcElementIds ∧ s.bcElementIds.Nodup ∧
      (∀ j, j ∈ s.bcElementIds ↔ (∃ i, Tagged s.mesh.cells tags s.dimension i ∧
        SubEntity s.mesh.cells i (s.dimension - 1) j) ∧
        ∃ b, Stored s.mesh.cells j b ∧ b.material ∈ bTags) ∧
      ∀ id i, s.idToBcElement.get? id = some i ↔
        (s.bcElements.map fun el => el.cell.id)[i]? = some id := by
  obtain ⟨D, t, sel, ned, h⟩ := build_facts_space gb hb hw
  rcases h.bc with ⟨rfl, h1, h2, h3⟩ | ⟨-, -, hn, hmem, hall, hpos⟩
  · rw [h1, h2, h3]
    exact ⟨rfl, List.nodup_nil, by simp, by simp [Dict.get?]⟩
  · have hids := ids_eq_map (fun id el hmk => hw.ids _ _ (makeElement_inv hmk).1) hall
    refine ⟨hids, hn, hmem, ?_⟩
    intro id i
    rw [hpos, hids]
    exact positions_iff hn id i

/-- C19, error case: a space of points has no boundary elements to build. -/
theorem C19_points_rejected (basix : Basix) (s : Space) (hd : s.dimension = 0)
    (bTags : List (Option Int)) (hb : bTags ≠ []) :
    s.buildBoundaryStructures basix bTags = .error .keyError := by
  have : bTags.length ≠ 0 := by simpa using hb
  simp [Space.buildBoundaryStructures, this, Space.buildBcElements, hd, throw, throwThe,
    MonadExceptOf.throw]

/-! ### C20 -/

/-- C20: the family used. -/
theorem C20_family (d : Nat) (f : Family) : effFamily d f = intendedFamily d f := by
  match d with
  | 0 => cases f <;> rfl
  | 1 => cases f <;> rfl
  | d + 2 => cases f <;> simp [effFamily, intendedFamily]

/-- C20: the boundary element chosen. -/
theorem C20_boundary (d : Nat) (f : Family) (k : Int) (disc : Bool) :
    bcChoice d f k disc = intendedBc d f k disc := by
  match d with
  | 0 => cases f <;> rfl
  | 1 => cases f <;> rfl
  | 2 => cases f <;> rfl
  | d + 3 => 
    have h2 : ¬ (((d + 3 : Nat) : Int) - 1 < 2) := by omega
    cases f <;> simp only [bcChoice, C20_family, intendedFamily, h2, if_false] <;> rfl

/-- C20: the names understood; "N2E" is silently treated as "N1E". -/
theorem C20_names (s : String) (f : Family) :
    familyByName s = .ok f ↔
      (s = "Lagrange" ∧ f = .P) ∨ (s = "BDM" ∧ f = .BDM) ∨ (s = "RT" ∧ f = .RT) ∨
      (s = "N1E" ∧ f = .N1E) ∨ (s = "N2E" ∧ f = .N1E) := by
  unfold familyByName
  split <;> rename_i h1
  · subst h1; simp [eq_comm]
  · split <;> rename_i h2
    · subst h2; simp [eq_comm]
    · split <;> rename_i h3
      · subst h3; simp [eq_comm]
      · split <;> rename_i h4
        · subst h4; simp [eq_comm]
        · split <;> rename_i h5
          · subst h5; simp [eq_comm]
          · simp [h1, h2, h3, h4, h5]

/-- C20 for built spaces: every element has the intended family, order and continuity, and so has
every boundary element. -/
theorem C20_elements {basix : Basix} (gb : GoodBasix basix) {tags bTags : List (Option Int)}
    {s : Space} (hb : IsBuilt basix tags bTags s) (hw : WellFormed s.mesh.cells) :
    (∀ el ∈ s.elements, el.family = intendedFamily s.dimension s.generator ∧ el.kOrder = s.kOrder ∧
      el.discontinuous = s.discontinuous) ∧
    ∀ el ∈ s.bcElements, (el.family, el.kOrder, el.discontinuous) =
      ((intendedFamily (s.dimension - 1)
        (intendedBc s.dimension s.generator s.kOrder s.discontinuous).1),
        (intendedBc s.dimension s.generator s.kOrder s.discontinuous).2) := by
  obtain ⟨D, t, sel, ned, h⟩ := build_facts_space gb hb hw
  constructor
  · intro el hel
    obtain ⟨i, hi⟩ := List.mem_iff_getElem?.1 hel
    obtain ⟨id, hid, hmk⟩ := (forall₂_get h.elements).2 i el hi
    obtain ⟨-, h1, h2, h3, -⟩ := makeElement_inv hmk
    have hd := ((h.sel_iff _).1 (h.element hi).2.1).2.1
    rw [hd, C20_family] at h1
    exact ⟨h1, h2, h3⟩
  · intro el hel
    obtain ⟨i, hi⟩ := List.mem_iff_getElem?.1 hel
    have hd := (h.bcElement hi).2.2.1
    rcases h.bc with ⟨-, h0, -⟩ | ⟨-, -, -, -, hall, -⟩
    · rw [h0] at hi; simp at hi
    · obtain ⟨id, hid, hmk⟩ := (forall₂_get hall).2 i el hi
      obtain ⟨-, h1, h2, h3, -⟩ := makeElement_inv hmk
      rw [C20_family, C20_boundary, show el.cell.dimension = s.dimension - 1 by omega] at h1
      rw [C20_boundary] at h2 h3
      rw [h1, h2, h3]

/-! ### The hypotheses are satisfiable: P1 with two fields on a triangle -/

/-- `num_entity_dofs` of Lagrange order 1 (and 0 on points). -/
def exampleBasix : Basix
  | .P, 0, _, _ => .ok [[1]]
  | .P, 1, 1, _ => .ok [[1, 1], [0]]
  | .P, 2, 1, _ => .ok [[1, 1, 1], [0, 0, 0], [0]]
  | _, _, _, _ => .error .valueError

theorem exampleBasix_good : GoodBasix exampleBasix := by
  intro f d k disc ned h
  unfold exampleBasix at h
  split at h <;> first
    | (cases h; exact ⟨rfl, by decide⟩)
    | cases h

def exampleData : Dict String FieldData :=
  [("u", ⟨2, 2, "Lagrange", 1, ⟨2, exampleCells⟩⟩), ("p", ⟨2, 1, "Lagrange", 1, ⟨2, exampleCells⟩⟩)]

/-- two fields on the triangle with id 6, boundary elements for "p" on the edge with id 5 -/
example : ∃ p, BuiltFrom exampleBasix exampleData [] [("u", [some 1]), ("p", [some 1])]
    [("p", [some 2])] p ∧ p.nDof = 9 ∧
    (∀ q ∈ p.spaces, q.2.elements.length = 1) ∧
    ({ p with dofShift := 100 } : Product).destinationIndexes 0 none =
      .ok [100, 101, 102, 103, 104, 105, 106, 107, 108] ∧
    ({ p with dofShift := 100 } : Product).destinationIndexes 0 (some "p") = .ok [106, 107, 108] ∧
    ({ p with dofShift := 100 } : Product).bcDestinationIndexes 0 none = .ok [107, 106] ∧
    p.bcDestinationIndexes 0 (some "u") = .error .keyError ∧
    p.bcDestinationIndexes 1 none = .error .indexError ∧
    p.destinationIndexes 1 none = .error .indexError := by
  refine ⟨_, ⟨by decide, ?_, _, rfl, rfl⟩, rfl, ?_, rfl, rfl, rfl, rfl, rfl, rfl⟩
  · intro q hq
    have : q.2.mesh = ⟨2, exampleCells⟩ := by
      simp only [exampleData, List.mem_cons, List.not_mem_nil, or_false] at hq
      rcases hq with rfl | rfl <;> rfl
    rw [this]
    exact ⟨exampleCells_wf.1, exampleCells_wf.2.2, exampleCells_wf.2.1⟩
  · intro q hq
    rcases List.mem_cons.1 hq with rfl | hq
    · rfl
    · rcases List.mem_cons.1 hq with rfl | hq
      · rfl
      · simp at hq

example : Product.new [("u", ⟨0, 1, "Lagrange", 0, ⟨2, exampleCells⟩⟩)] = .error .keyError := rfl

#print axioms C16_intervals
#print axioms C16_fields_disjoint
#print axioms C16_covers
#print axioms C16_rejects
#print axioms C17_setter
#print axioms C17_history
#print axioms C17_translation
#print axioms C18_boundary_destinations
#print axioms C18_rejects
#print axioms C19_elements
#print axioms C19_boundary_elements
#print axioms C19_points_rejected
#print axioms C20_family
#print axioms C20_boundary
#print axioms C20_names
#print axioms C20_elements

end Verif.Space
