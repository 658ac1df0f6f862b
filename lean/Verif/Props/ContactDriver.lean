/-
C154: the driver of the mixed-dimensional Cosserat problem.
-/
import Verif.Spec.ContactDriver
import Verif.Lemmas.Space
import Verif.Lemmas.Assembly
import Verif.Lemmas.Topology

namespace Verif.ContactDriver
open Assembly MeshGraph

/-! ### Statements in sequence -/

theorem forEach_record {α : Type} {f : α → Step (List Call)} {g : α → Call} {l : List α}
    (h : ∀ a ∈ l, ∀ s, f a s = (s ++ [g a], none)) (s : List Call) : forEach f l s = (s ++ l.map g, none) := by
  induction l generalizing s with
  | nil => simp [forEach]
  | cons a l ih =>
    rw [forEach, h a (by simp) s]
    simp only
    rw [ih (fun b hb => h b (by simp [hb]))]
    simp

theorem andThen_ok {σ : Type} {f g : Step σ} {s s' : σ} (h : f s = (s', none)) : f.andThen g s = g s' := by
  rw [Step.andThen, h]

theorem andThen_some {σ : Type} {f g : Step σ} {s s' : σ} {e : Err} (h : f s = (s', some e)) :
    f.andThen g s = (s', some e) := by
  rw [Step.andThen, h]

theorem withRes_ok {α σ : Type} {r : Res α} {a : α} {f : α → Step σ} (h : r = .ok a) : withRes r f = f a := by
  subst h; rfl

theorem withRes_error {α σ : Type} {r : Res α} {e : Err} {f : α → Step σ} (h : r = .error e) (s : σ) :
    withRes r f s = (s, some e) := by
  subst h; rfl

theorem call_fine {space : Dict String Field} {o : Outcome} (ho : o.Fine) {u t : Field}
    (hu : space.get? "u" = some u) (ht : space.get? "t" = some t) (c : Call) (s : List Call) :
    call space o c s = (s ++ [c], none) := by
  unfold call
  rw [withRes_ok (ho c).1, withRes_ok (Dict.getItem_of_get? hu), withRes_ok (Dict.getItem_of_get? ht),
    withRes_ok (ho c).2]

theorem callContact_fine {o : Outcome} (ho : o.Fine) (x : Nat × Nat) (s : List Call) :
    callContact o x s = (s ++ [.contact x.1 x.2], none) := by
  unfold callContact
  rw [withRes_ok (ho _).1, withRes_ok (ho _).2]

/-! ### The assembly -/

/-- With the fields `u`, `t` and `q`, and if nothing raises, every element is evaluated once, then the boundary elements
that are no clones, then those of the fracture, then the pairs of the interfaces. -/
theorem C154_calls_partial {cells : List Cell} {clones : Int} {bulk fracture : Dict String Field} {o : Outcome}
    (ho : o.Fine) {u₀ u₁ t₀ t₁ q₀ q₁ : Field}
    (hu₀ : bulk.get? "u" = some u₀) (hu₁ : fracture.get? "u" = some u₁)
    (ht₀ : bulk.get? "t" = some t₀) (ht₁ : fracture.get? "t" = some t₁)
    (hq₀ : bulk.get? "q" = some q₀) (hq₁ : fracture.get? "q" = some q₁)
    {ids ext : List Nat} (hi : external cells clones q₀ = .ok ids)
    (he : mapRes (Space.positions q₀.bcElementIds).getItem ids = .ok ext)
    {interfaces : List Interface} {ns : List (List Nat × List Nat × List Nat)}
    (hn : mapRes (numbers bulk fracture) interfaces = .ok ns) (s : List Call) :
    assembly cells clones bulk fracture o interfaces s
      = (s ++ intended u₀ u₁ q₁ ext (ns.flatMap contactPairs), none) := by
  have h1 : ∀ s, domainForms bulk fracture o s
      = (s ++ ((List.range u₀.elementIds.length).map (.form 0) ++ (List.range u₁.elementIds.length).map (.form 1)), none) := by
    intro s
    unfold domainForms
    rw [withRes_ok (Dict.getItem_of_get? hu₀), withRes_ok (Dict.getItem_of_get? hu₁),
      andThen_ok (forEach_record (g := Call.form 0) (fun i _ s => call_fine ho hu₀ ht₀ _ s) s),
      forEach_record (g := Call.form 1) (fun i _ s => call_fine ho hu₁ ht₁ _ s), List.append_assoc]
  have h2 : ∀ s, boundaryForms cells clones bulk fracture o s
      = (s ++ (ext.map (.bc 0) ++ (List.range q₁.bcElementIds.length).map (.bc 1)), none) := by
    intro s
    unfold boundaryForms
    rw [withRes_ok (Dict.getItem_of_get? hq₀), withRes_ok hi, withRes_ok he,
      andThen_ok (forEach_record (g := Call.bc 0) (fun i _ s => call_fine ho hu₀ ht₀ _ s) s),
      withRes_ok (Dict.getItem_of_get? hq₁),
      forEach_record (g := Call.bc 1) (fun i _ s => call_fine ho hu₁ ht₁ _ s), List.append_assoc]
  have h3 : ∀ (l : List Interface) ns, mapRes (numbers bulk fracture) l = .ok ns → ∀ s,
      interfaceForms bulk fracture o l s
        = (s ++ (ns.flatMap contactPairs).map fun x => Call.contact x.1 x.2, none) := by
    intro l
    induction l with
    | nil =>
      intro ns h s
      obtain rfl : [] = ns := by simpa [mapRes] using h
      simp [interfaceForms, forEach]
    | cons i l ih =>
      intro ns h s
      cases hi : numbers bulk fracture i with
      | error e => simp [mapRes, hi, bind, Except.bind] at h
      | ok t =>
        cases hl : mapRes (numbers bulk fracture) l with
        | error e => simp [mapRes, hi, hl, bind, Except.bind] at h
        | ok ts =>
          obtain rfl : t :: ts = ns := by simpa [mapRes, hi, hl, bind, Except.bind, pure, Except.pure] using h
          unfold interfaceForms
          rw [forEach, withRes_ok hi, forEach_record (g := fun x : Nat × Nat => Call.contact x.1 x.2)
            (fun x _ s => callContact_fine ho x s)]
          simp only
          have := ih ts hl (s ++ (contactPairs t).map fun x => Call.contact x.1 x.2)
          unfold interfaceForms at this
          rw [this]
          simp
  unfold assembly
  rw [andThen_ok (h1 s), andThen_ok (h2 _), h3 _ _ hn]
  simp [intended]

/-- The pairs are the sides of the fracture exactly if the numbers of the fracture elements are those of the negative
side. -/
theorem C154_pairs (t : List Nat × List Nat × List Nat) (h1 : t.2.1.length = t.1.length) (h2 : t.2.2.length = t.1.length) :
    contactPairs t = sides t ↔ t.1 = t.2.2 := by
  obtain ⟨c, p, n⟩ := t
  simp only at h1 h2
  induction c generalizing p n with
  | nil =>
    obtain rfl := List.length_eq_zero_iff.1 h1
    obtain rfl := List.length_eq_zero_iff.1 h2
    simp [contactPairs, sides]
  | cons a c ih =>
    match p, n, h1, h2 with
    | b :: p, d :: n, h1, h2 =>
      have := ih p n (by simpa using h1) (by simpa using h2)
      simp only [contactPairs, sides, List.zip_cons_cons, List.map_cons, List.cons.injEq, Prod.mk.injEq, true_and] at this ⊢
      rw [this]

/-! ### The names of the fields -/

theorem get?_two (a b k : String) (f g : Field) :
    (Dict.ofList [(a, f), (b, g)]).get? k = if k = b then some g else if k = a then some f else none := by
  by_cases hab : a = b
  · subst hab
    by_cases hk : k = a
    · subst hk; simp [Dict.ofList, Dict.set, Dict.get?]
    · simp [Dict.ofList, Dict.set, Dict.get?, hk, Ne.symm hk]
  · by_cases hk : k = b
    · subst hk
      simp [Dict.ofList, Dict.set, Dict.get?, hab]
    · by_cases hk2 : k = a
      · subst hk2; simp [Dict.ofList, Dict.set, Dict.get?, hab]
      · simp [Dict.ofList, Dict.set, Dict.get?, hab, hk, hk2, Ne.symm hk, Ne.symm hk2]

/-- Spaces exist in a mesh of dimension two only, of the dimensions of the tables; those of dimension zero are empty. -/
theorem C154_spaces (meshDim : Nat) (cells : List Cell) (dim : Nat) (a b : String) :
    (meshDim ≠ 2 → createProductSpace tables meshDim cells dim a b = .error .valueError)
    ∧ (3 ≤ dim → createProductSpace tables 2 cells dim a b = .error .indexError)
    ∧ (dim = 0 → createProductSpace tables 2 cells dim a b = .ok (Dict.ofList [(a, ⟨[], []⟩), (b, ⟨[], []⟩)]))
    ∧ (dim = 1 → createProductSpace tables 2 cells dim a b
        = .ok (Dict.ofList [(a, field cells 1 [50] [2, 4]), (b, field cells 1 [50] [2, 4])]))
    ∧ (dim = 2 → createProductSpace tables 2 cells dim a b
        = .ok (Dict.ofList [(a, field cells 2 [1] [2, 3, 4, 5]), (b, field cells 2 [1] [2, 3, 4, 5])])) := by
  refine ⟨fun h => by rw [createProductSpace, if_neg h], fun h => ?_, ?_, ?_, ?_⟩
  · obtain ⟨k, rfl⟩ := Nat.exists_eq_add_of_le' h
    rfl
  · rintro rfl
    show Except.ok (Dict.ofList [(a, field cells 0 [] []), (b, field cells 0 [] [])]) = _
    have : field cells 0 [] [] = ⟨[], []⟩ := by simp [field]
    rw [this]
  · rintro rfl; rfl
  · rintro rfl; rfl

theorem call_missing {space : Dict String Field} {o : Outcome} {c : Call}
    (h : space.get? "u" = none ∨ space.get? "t" = none) (s : List Call) :
    ∃ e, call space o c s = (s, some e) ∧ (o.Fine → e = .keyError) := by
  unfold call
  cases hb : o.before c with
  | error e => exact ⟨e, rfl, fun ho => by rw [(ho c).1] at hb; cases hb⟩
  | ok _ =>
    rw [withRes_ok rfl]
    cases hu : space.get? "u" with
    | none => exact ⟨.keyError, withRes_error (by simp [Dict.getItem, hu]) s, fun _ => rfl⟩
    | some u =>
      rw [withRes_ok (Dict.getItem_of_get? hu)]
      have ht : space.get? "t" = none := h.resolve_left (by rw [hu]; simp)
      exact ⟨.keyError, withRes_error (by simp [Dict.getItem, ht]) s, fun _ => rfl⟩

theorem forEach_kind {α : Type} {f : α → Step (List Call)} {P : Call → Prop}
    (h : ∀ a s, (∀ c ∈ s, P c) → ∀ c ∈ (f a s).1, P c) : ∀ (l : List α) (s : List Call), (∀ c ∈ s, P c) →
      ∀ c ∈ (forEach f l s).1, P c
  | [], _, hs => hs
  | a :: l, s, hs => by
    have := h a s hs
    rw [forEach]
    cases hf : f a s with
    | mk s' e =>
      rw [hf] at this
      cases e with
      | none => exact forEach_kind h l s' this
      | some e => exact this

theorem call_kind (space : Dict String Field) (o : Outcome) (d : Call) {P : Call → Prop} (hd : P d) (s : List Call)
    (hs : ∀ c ∈ s, P c) : ∀ c ∈ (call space o d s).1, P c := by
  have hres : ∀ {α : Type} (r : Res α) (f : α → Step (List Call)), (∀ a, ∀ c ∈ (f a s).1, P c) →
      ∀ c ∈ (withRes r f s).1, P c := by
    intro α r f hf
    cases r with
    | error e => exact hs
    | ok a => exact hf a
  unfold call
  refine hres _ _ fun _ => hres _ _ fun _ => hres _ _ fun _ => hres _ _ fun _ => ?_
  intro c hc
  rcases List.mem_append.1 hc with hc | hc
  · exact hs c hc
  · rw [List.mem_singleton.1 hc]; exact hd

/-- an evaluation in the interior -/
def Call.Inner : Call → Prop
  | .form _ _ => True
  | .bc _ _ => False
  | .contact _ _ => False

theorem domainForms_kind (bulk fracture : Dict String Field) (o : Outcome) :
    ∀ c ∈ (domainForms bulk fracture o []).1, c.Inner := by
  unfold domainForms
  cases bulk.getItem "u" with
  | error e => intro c hc; simp [withRes] at hc
  | ok u₀ =>
    cases fracture.getItem "u" with
    | error e => intro c hc; simp [withRes] at hc
    | ok u₁ =>
      simp only [withRes]
      have h1 := forEach_kind (P := Call.Inner) (f := fun i => call bulk o (.form 0 i))
        (fun i s hs => call_kind bulk o (.form 0 i) trivial s hs) (List.range u₀.elementIds.length) [] (by simp)
      rw [Step.andThen]
      cases hf : forEach (fun i => call bulk o (.form 0 i)) (List.range u₀.elementIds.length) [] with
      | mk s' e =>
        rw [hf] at h1
        cases e with
        | some e => exact h1
        | none =>
          exact forEach_kind (P := Call.Inner) (f := fun i => call fracture o (.form 1 i))
            (fun i s hs => call_kind fracture o (.form 1 i) trivial s hs) _ s' h1

/-- The driver never returns: for all tables, meshes, names and interfaces it raises. -/
theorem C154_returns_violated (t : Tables) (cells : List Cell) (names : String × String) (o : Outcome)
    (interfaces : List Interface) : (run t cells names o interfaces).2 ≠ none := by
  unfold run
  cases createProductSpace t 2 cells 2 names.1 names.2 with
  | error e => simp [withRes]
  | ok bulk =>
    cases createProductSpace t 2 cells 1 names.1 names.2 with
    | error e => simp [withRes]
    | ok fracture =>
      simp only [withRes, Step.andThen]
      cases assembly cells 50 bulk fracture o interfaces [] with
      | mk s e => cases e <;> simp

/-- No choice of the two names helps: the forms need `u` and `t`, the assembly needs `q`.  In a mesh with a cell the
boundary and the contact are never evaluated. -/
theorem C154_names_violated (cells : List Cell) (hc : ∃ c ∈ cells, c.dim = 2 ∧ c.tag = some 1) (names : String × String)
    (o : Outcome) (interfaces : List Interface) :
    (∀ c ∈ (run tables cells names o interfaces).1, c.Inner)
    ∧ (o.Fine → (run tables cells names o interfaces).2 = some .keyError) := by
  obtain ⟨a, b⟩ := names
  have hb := (C154_spaces 2 cells 2 a b).2.2.2.2 rfl
  have hf := (C154_spaces 2 cells 1 a b).2.2.2.1 rfl
  unfold run
  simp only
  rw [withRes_ok hb, withRes_ok hf]
  set u₀ := field cells 2 [1] [2, 3, 4, 5] with hu₀
  set u₁ := field cells 1 [50] [2, 4] with hu₁
  have g0 := fun k => get?_two a b k u₀ u₀
  have g1 := fun k => get?_two a b k u₁ u₁
  set bulk := Dict.ofList [(a, u₀), (b, u₀)]
  set fracture := Dict.ofList [(a, u₁), (b, u₁)]
  have hpos : 0 < u₀.elementIds.length := by
    obtain ⟨c, hm, hd, ht⟩ := hc
    rw [hu₀]
    simp only [field, List.length_map]
    exact List.length_pos_of_mem (List.mem_filter.2 ⟨hm, by simp [hd, ht]⟩)
  have hdom := domainForms_kind bulk fracture o
  -- what follows the interior forms
  have main : ∃ s e, assembly cells 50 bulk fracture o interfaces [] = (s, some e) ∧ (∀ c ∈ s, c.Inner)
      ∧ (o.Fine → e = .keyError) := by
    unfold assembly
    cases hd : domainForms bulk fracture o [] with
    | mk s e =>
      rw [hd] at hdom
      cases e with
      | some e =>
        refine ⟨s, e, andThen_some hd, hdom, fun ho => ?_⟩
        -- an exception of the interior forms is a missing name
        unfold domainForms at hd
        cases hu : bulk.get? "u" with
        | none =>
          rw [withRes_error (e := .keyError) (by simp [Dict.getItem, hu])] at hd
          simpa using (Prod.mk.inj hd).2.symm
        | some u =>
          have hu' : fracture.get? "u" = some u₁ := by
            rw [g0] at hu; rw [g1]
            split_ifs at hu ⊢ with h1 h2 <;> first | rfl | cases hu
          rw [withRes_ok (Dict.getItem_of_get? hu), withRes_ok (Dict.getItem_of_get? hu')] at hd
          obtain rfl : u = u₀ := by
            rw [g0] at hu
            split_ifs at hu <;> exact (Option.some.inj hu).symm
          cases ht : bulk.get? "t" with
          | some t =>
            have ht' : fracture.get? "t" = some u₁ := by
              rw [g0] at ht; rw [g1]
              split_ifs at ht ⊢ with h1 h2 <;> first | rfl | cases ht
            rw [andThen_ok (forEach_record (g := Call.form 0) (fun i _ s => call_fine ho hu ht _ s) []),
              forEach_record (g := Call.form 1) (fun i _ s => call_fine ho hu' ht' _ s)] at hd
            cases (Prod.mk.inj hd).2
          | none =>
            obtain ⟨k, hk⟩ := Nat.exists_eq_succ_of_ne_zero (Nat.pos_iff_ne_zero.1 hpos)
            obtain ⟨e', he', hfine⟩ := call_missing (space := bulk) (o := o) (c := .form 0 0) (.inr ht) []
            have : forEach (fun i => call bulk o (.form 0 i)) (List.range u₀.elementIds.length) []
                = ([], some e') := by
              rw [hk, List.range_succ_eq_map, forEach, he']
            rw [andThen_some this] at hd
            rw [← Option.some.inj (Prod.mk.inj hd).2]
            exact hfine ho
      | none =>
        rw [andThen_ok hd]
        have hq : bulk.get? "q" = none := by
          by_contra hq
          -- then one of `u` and `t` is missing
          have hmiss : bulk.get? "u" = none ∨ bulk.get? "t" = none := by
            rw [g0] at hq
            rw [g0, g0]
            by_cases h1 : "q" = b
            · subst h1
              by_cases h2 : "u" = a
              · subst h2; right; simp
              · left; simp [h2]
            · by_cases h3 : "q" = a
              · subst h3
                by_cases h2 : "u" = b
                · subst h2; right; simp
                · left; simp [h2]
              · simp [h1, h3] at hq
          unfold domainForms at hd
          cases hu : bulk.get? "u" with
          | none =>
            rw [withRes_error (e := .keyError) (by simp [Dict.getItem, hu])] at hd
            cases (Prod.mk.inj hd).2
          | some u =>
            have hu' : fracture.get? "u" = some u₁ := by
              rw [g0] at hu; rw [g1]
              split_ifs at hu ⊢ with h1 h2 <;> first | rfl | cases hu
            rw [withRes_ok (Dict.getItem_of_get? hu), withRes_ok (Dict.getItem_of_get? hu')] at hd
            obtain rfl : u = u₀ := by
              rw [g0] at hu
              split_ifs at hu <;> exact (Option.some.inj hu).symm
            obtain ⟨k, hk⟩ := Nat.exists_eq_succ_of_ne_zero (Nat.pos_iff_ne_zero.1 hpos)
            obtain ⟨e', he', -⟩ := call_missing (space := bulk) (o := o) (c := .form 0 0) hmiss []
            have : forEach (fun i => call bulk o (.form 0 i)) (List.range u₀.elementIds.length) []
                = ([], some e') := by
              rw [hk, List.range_succ_eq_map, forEach, he']
            rw [andThen_some this] at hd
            cases (Prod.mk.inj hd).2
        refine ⟨s, .keyError, andThen_some ?_, hdom, fun _ => rfl⟩
        unfold boundaryForms
        exact withRes_error (by simp [Dict.getItem, hq]) s
  obtain ⟨s, e, h1, h2, h3⟩ := main
  rw [andThen_some h1]
  exact ⟨h2, fun ho => by rw [h3 ho]⟩

/-! ### The tags -/

theorem mem_field_elements {cells : List Cell} {dim : Nat} {tags bcTags : List Int} {id : Nat} :
    id ∈ (field cells dim tags bcTags).elementIds ↔ ∃ t ∈ tags, ⟨id, dim, some t⟩ ∈ cells := by
  simp only [field, List.mem_map, List.mem_filter, decide_eq_true_eq]
  constructor
  · rintro ⟨⟨i, d, t⟩, ⟨hm, hd, t', ht', rfl⟩, rfl⟩
    subst hd
    exact ⟨t', ht', hm⟩
  · rintro ⟨t, ht, hm⟩
    exact ⟨_, ⟨hm, rfl, t, ht, rfl⟩, rfl⟩

theorem mem_field_bc {cells : List Cell} {dim : Nat} {tags bcTags : List Int} {id : Nat} :
    id ∈ (field cells (dim + 1) tags bcTags).bcElementIds ↔ ∃ t ∈ bcTags, ⟨id, dim, some t⟩ ∈ cells := by
  simp only [field, List.mem_map, List.mem_filter, decide_eq_true_eq, Nat.add_right_cancel_iff]
  constructor
  · rintro ⟨⟨i, d, t⟩, ⟨hm, hd, t', ht', rfl⟩, rfl⟩
    subst hd
    exact ⟨t', ht', hm⟩
  · rintro ⟨t, ht, hm⟩
    exact ⟨_, ⟨hm, rfl, t, ht, rfl⟩, rfl⟩

theorem nodup_elements {cells : List Cell} (h : (cells.map Cell.id).Nodup) (dim : Nat) (tags bcTags : List Int) :
    (field cells dim tags bcTags).elementIds.Nodup :=
  h.sublist (List.Sublist.map _ List.filter_sublist)

theorem nodup_bc {cells : List Cell} (h : (cells.map Cell.id).Nodup) (dim : Nat) (tags bcTags : List Int) :
    (field cells dim tags bcTags).bcElementIds.Nodup :=
  h.sublist (List.Sublist.map _ List.filter_sublist)

theorem cell_unique {cells : List Cell} (h : (cells.map Cell.id).Nodup) {c d : Cell} (hc : c ∈ cells) (hd : d ∈ cells)
    (hi : c.id = d.id) : c = d :=
  List.inj_on_of_nodup_map h hc hd hi

theorem positions_found {ids l : List Nat} (h : ids.Nodup) (hl : ∀ id ∈ l, id ∈ ids) :
    mapRes (Space.positions ids).getItem l = .ok (l.map (place ids)) :=
  mapRes_ok l fun id hid => Dict.getItem_of_get? (by rw [Space.positions_get? h, if_pos (hl id hid)]; rfl)

/-- With the tags of the drivers of flow problems the numbers of every interface of a cut are found: they are the places
of the cells among the elements. -/
theorem C154_numbers {cells : List Cell} (hn : (cells.map Cell.id).Nodup) {i : Interface} (hi : Cut cells i)
    {bulk fracture : Dict String Field}
    (hb : bulk.get? "q" = some (field cells 2 [1] [2, 3, 4, 5, 50])) (hf : fracture.get? "q" = some (field cells 1 [10] [3, 5])) :
    numbers bulk fracture i = .ok
      (i.cells.map (place (field cells 1 [10] [3, 5]).elementIds),
       i.positive.map (place (field cells 2 [1] [2, 3, 4, 5, 50]).bcElementIds),
       i.negative.map (place (field cells 2 [1] [2, 3, 4, 5, 50]).bcElementIds)) := by
  unfold numbers
  simp only [Dict.getItem_of_get? hb, Dict.getItem_of_get? hf, bind, Except.bind, pure, Except.pure]
  rw [positions_found (nodup_elements hn _ _ _) fun id h => mem_field_elements.2 ⟨10, by simp, hi.cells_tag id h⟩]
  simp only
  rw [positions_found (nodup_bc hn _ _ _) fun id h => mem_field_bc.2 ⟨50, by simp, hi.positive_tag id h⟩]
  simp only
  rw [positions_found (nodup_bc hn _ _ _) fun id h => mem_field_bc.2 ⟨50, by simp, hi.negative_tag id h⟩]

/-- With the tags of this driver no interface is found: the fracture cells are no elements of the fracture and the clones
no boundary elements of the bulk, whatever the fields are called. -/
theorem C154_tags_violated {cells : List Cell} (hn : (cells.map Cell.id).Nodup) {i : Interface} (hi : Cut cells i)
    (hne : i.cells ≠ []) :
    (∀ id ∈ i.cells, id ∉ (field cells 1 [50] [2, 4]).elementIds)
    ∧ (∀ id ∈ i.positive ++ i.negative, id ∉ (field cells 2 [1] [2, 3, 4, 5]).bcElementIds)
    ∧ ∀ bulk fracture : Dict String Field, fracture.get? "q" = some (field cells 1 [50] [2, 4]) →
        numbers bulk fracture i = .error .keyError := by
  have h1 : ∀ id ∈ i.cells, id ∉ (field cells 1 [50] [2, 4]).elementIds := by
    intro id hid hm
    obtain ⟨t, ht, hm⟩ := mem_field_elements.1 hm
    have := cell_unique hn hm (hi.cells_tag id hid) rfl
    simp only [Cell.mk.injEq, Option.some.injEq] at this
    rw [this.2.2] at ht
    exact absurd ht (by decide)
  refine ⟨h1, ?_, ?_⟩
  · intro id hid hm
    obtain ⟨t, ht, hm⟩ := mem_field_bc.1 hm
    have hc : (⟨id, 1, some 50⟩ : Cell) ∈ cells := by
      rcases List.mem_append.1 hid with h | h
      · exact hi.positive_tag id h
      · exact hi.negative_tag id h
    have := cell_unique hn hm hc rfl
    simp only [Cell.mk.injEq, Option.some.injEq] at this
    rw [this.2.2] at ht
    exact absurd ht (by decide)
  · intro bulk fracture hf
    obtain ⟨id, l, hl⟩ := List.exists_cons_of_ne_nil hne
    unfold numbers
    rw [hl]
    have : (Space.positions (field cells 1 [50] [2, 4]).elementIds).getItem id = .error .keyError := by
      unfold Dict.getItem
      rw [Space.positions_get? (nodup_elements hn _ _ _), if_neg (h1 id (by rw [hl]; simp))]
    simp only [Dict.getItem_of_get? hf, bind, Except.bind, mapRes, this]

/-- The fracture elements of this driver are the clones of both sides. -/
theorem C154_twice_violated {cells : List Cell} {i : Interface} (hi : Cut cells i) :
    ∀ id ∈ i.positive ++ i.negative, id ∈ (field cells 1 [50] [2, 4]).elementIds := by
  intro id hid
  refine mem_field_elements.2 ⟨50, by simp, ?_⟩
  rcases List.mem_append.1 hid with h | h
  · exact hi.positive_tag id h
  · exact hi.negative_tag id h

/-! ### A square cut in two -/

/-- two cells, four sides, the fracture and its two clones -/
def square : List Cell :=
  [⟨0, 2, some 1⟩, ⟨1, 2, some 1⟩, ⟨2, 1, some 2⟩, ⟨3, 1, some 3⟩, ⟨4, 1, some 4⟩, ⟨5, 1, some 5⟩, ⟨6, 1, some 10⟩,
    ⟨7, 1, some 50⟩, ⟨8, 1, some 50⟩]

/-- the interface of the square -/
def squareCut : Interface := ⟨[6], [7], [8]⟩

theorem square_cut : Cut square squareCut ∧ (square.map Cell.id).Nodup :=
  ⟨⟨by decide, by decide, by decide, rfl, rfl⟩, by decide⟩

/-- With the tags of the flow problems, the contact form is given the positive side and a side of the square instead of
the negative side. -/
theorem C154_pairs_violated :
    ∃ bulk fracture : Dict String Field, ∃ t,
      createProductSpace ellipticTables 2 square 2 "u" "q" = .ok bulk
      ∧ createProductSpace ellipticTables 2 square 1 "u" "q" = .ok fracture
      ∧ numbers bulk fracture squareCut = .ok t
      ∧ sides t = [(4, 5)] ∧ contactPairs t = [(4, 0)]
      ∧ (∃ q, bulk.get? "q" = some q ∧ q.bcElementIds[4]? = some 7 ∧ q.bcElementIds[5]? = some 8
        ∧ q.bcElementIds[0]? = some 2) :=
  ⟨_, _, ([0], [4], [5]), rfl, rfl, rfl, rfl, rfl, _, rfl, rfl, rfl, rfl⟩

/-- The driver as it is, on the square, if nothing else raises: the forms of the two cells and of the two clones, then the
missing name. -/
theorem C154_main_violated :
    run tables square ("u", "t") ⟨fun _ => .ok (), fun _ => .ok ()⟩ [squareCut]
      = ([.form 0 0, .form 0 1, .form 1 0, .form 1 1], some .keyError) := by
  rfl

/-- The calls with all three names and the other tags. -/
example : ∃ ids ext ns, external square 50 (field square 2 [1] [2, 3, 4, 5, 50]) = .ok ids
    ∧ mapRes (Space.positions (field square 2 [1] [2, 3, 4, 5, 50]).bcElementIds).getItem ids = .ok ext
    ∧ mapRes (numbers (Dict.ofList [("q", field square 2 [1] [2, 3, 4, 5, 50])])
        (Dict.ofList [("q", field square 1 [10] [3, 5])])) [squareCut] = .ok ns
    ∧ ids = [2, 3, 4, 5] ∧ ext = [0, 1, 2, 3] ∧ ns = [([0], [4], [5])] :=
  ⟨_, _, _, rfl, rfl, rfl, rfl, rfl, rfl⟩

/-! ### The boundary -/

theorem tagOf_of {cells : List Cell} (h : cells.map Cell.id = List.range cells.length) {c : Cell} (hc : c ∈ cells) :
    tagOf cells c.id = .ok c.tag := by
  obtain ⟨k, hk, rfl⟩ := List.getElem_of_mem hc
  have : (cells.map Cell.id)[k]'(by simpa using hk) = k := by simp [h]
  rw [List.getElem_map] at this
  rw [tagOf, this, getIdx, List.getElem?_eq_getElem hk]
  rfl

/-- The boundary elements that are evaluated are those without the tag of the clones. -/
theorem C154_boundary {cells : List Cell} (h : cells.map Cell.id = List.range cells.length) (clones : Int) (dim : Nat)
    (tags bcTags : List Int) :
    external cells clones (field cells dim tags bcTags)
        = .ok (field cells dim tags (bcTags.filter (· ≠ clones))).bcElementIds := by
  have gen : ∀ l : List Cell, (∀ c ∈ l, c ∈ cells) → (do
      let tags ← mapRes (tagOf cells) (l.map Cell.id)
      pure ((((l.map Cell.id).zip tags).filter fun p => p.2 ≠ some clones).map Prod.fst) : Res (List Nat))
        = .ok ((l.filter fun c => c.tag ≠ some clones).map Cell.id) := by
    intro l hl
    have ht : mapRes (tagOf cells) (l.map Cell.id) = .ok (l.map Cell.tag) := by
      induction l with
      | nil => rfl
      | cons c l ih =>
        simp only [List.map_cons, mapRes, tagOf_of h (hl c (by simp)), ih fun d hd => hl d (by simp [hd]), bind,
          Except.bind, pure, Except.pure]
    rw [ht]
    simp only [bind, Except.bind, pure, Except.pure]
    congr 1
    clear ht hl
    induction l with
    | nil => rfl
    | cons c l ih =>
      simp only [List.map_cons, List.zip_cons_cons, List.filter_cons]
      by_cases hc : c.tag = some clones
      · simpa [hc] using ih
      · simpa [hc] using ih
  have key : external cells clones (field cells dim tags bcTags)
        = .ok (field cells dim tags (bcTags.filter (· ≠ clones))).bcElementIds := by
    unfold external
    rw [field]
    simp only
    rw [gen _ fun c hc => (List.mem_filter.1 hc).1, List.filter_filter]
    congr 2
    apply List.filter_congr
    intro c _
    have iff : (c.dim + 1 = dim ∧ c.tag ∈ (bcTags.filter (· ≠ clones)).map some) ↔
        (c.tag ≠ some clones ∧ (c.dim + 1 = dim ∧ c.tag ∈ bcTags.map some)) := by
      simp only [List.mem_map, List.mem_filter, decide_eq_true_eq]
      constructor
      · rintro ⟨hd, t, ⟨ht, hne⟩, hct⟩
        exact ⟨fun hc => hne (by simpa [← hct] using hc), hd, t, ht, hct⟩
      · rintro ⟨hne, hd, t, ht, hct⟩
        exact ⟨hd, t, ⟨ht, fun hc => hne (by rw [← hct, hc])⟩, hct⟩
    rw [← Bool.decide_and]
    exact decide_eq_decide.2 iff.symm
  exact key

/-- With the tags of this driver these are all, since none is a clone. -/
theorem C154_boundary_all {cells : List Cell} (h : cells.map Cell.id = List.range cells.length) :
    external cells 50 (field cells 2 [1] [2, 3, 4, 5]) = .ok (field cells 2 [1] [2, 3, 4, 5]).bcElementIds :=
  C154_boundary h 50 2 [1] [2, 3, 4, 5]

example : square.map Cell.id = List.range square.length := rfl

/-! ### The numbers of the unknowns -/

/-- The unknowns of the two spaces follow each other and are all unknowns. -/
theorem C154_shifts (n₀ n₁ : Nat) :
    ∃ a b, (shifts n₀ n₁).1 = [a, b] ∧ ∀ j, j < (shifts n₀ n₁).2 ↔
      (((a ≤ j ∧ j < a + n₀) ∨ (b ≤ j ∧ j < b + n₁)) ∧ ¬ ((a ≤ j ∧ j < a + n₀) ∧ (b ≤ j ∧ j < b + n₁))) := by
  refine ⟨0, n₀, by simp [shifts, List.range_succ], fun j => ?_⟩
  simp only [shifts, List.sum_cons, List.sum_nil]
  omega

/-- The spaces of the elliptic driver for all meshes: those of dimension zero are empty, the fracture has the material 10 and
the ends 3 and 5. -/
theorem C154_elliptic_spaces (cells : List Cell) (a b : String) :
    createProductSpace ellipticTables 2 cells 0 a b = .ok (Dict.ofList [(a, ⟨[], []⟩), (b, ⟨[], []⟩)]) ∧
    createProductSpace ellipticTables 2 cells 1 a b
      = .ok (Dict.ofList [(a, field cells 1 [10] [3, 5]), (b, field cells 1 [10] [3, 5])]) ∧
    createProductSpace ellipticTables 2 cells 2 a b
      = .ok (Dict.ofList [(a, field cells 2 [1] [2, 3, 4, 5, 50]), (b, field cells 2 [1] [2, 3, 4, 5, 50])]) := by
  refine ⟨?_, rfl, rfl⟩
  show Except.ok (Dict.ofList [(a, field cells 0 [] []), (b, field cells 0 [] [])]) = _
  have : field cells 0 [] [] = ⟨[], []⟩ := by simp [field]
  rw [this]

/-- A contact that raises while it is assembled leaves the earlier calls as they are. -/
theorem C154_contact_raises (o : Outcome) (x : Nat × Nat) (s : List Call) (e : Err) :
    (o.before (.contact x.1 x.2) = .error e → callContact o x s = (s, some e)) ∧
    (∀ u, o.before (.contact x.1 x.2) = .ok u → o.after (.contact x.1 x.2) = .error e →
      callContact o x s = (s, some e)) := by
  constructor
  · intro h; rw [callContact, h]; rfl
  · intro u h h'; rw [callContact, h, h']; rfl

#print axioms C154_calls_partial
#print axioms C154_pairs
#print axioms C154_spaces
#print axioms C154_returns_violated
#print axioms C154_names_violated
#print axioms C154_numbers
#print axioms C154_tags_violated
#print axioms C154_twice_violated
#print axioms C154_pairs_violated
#print axioms C154_main_violated
#print axioms C154_boundary
#print axioms C154_boundary_all
#print axioms C154_shifts

#print axioms C154_elliptic_spaces
#print axioms C154_contact_raises

end Verif.ContactDriver
