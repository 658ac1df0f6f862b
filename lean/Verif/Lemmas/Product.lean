/- Destinations of one built space, and the loop over the fields of a product space. -/
import Verif.Lemmas.Space
import Verif.Lemmas.MeshWF

namespace Verif

theorem Dict.get?_of_mem_nodup {ν : Type} : ∀ {d : Dict String ν}, d.keys.Nodup →
    ∀ {k : String} {v : ν}, (k, v) ∈ d → d.get? k = some v
  | [], _, _, _, h => by simp at h
  | (a, b) :: t, hn, k, v, h => by
    simp only [Dict.keys, List.map_cons, List.nodup_cons] at hn
    rcases List.mem_cons.1 h with h | h
    · obtain ⟨rfl, rfl⟩ := Prod.mk.inj h
      simp [Dict.get?]
    · have hne : a ≠ k := fun he => hn.1 (by subst he; exact List.mem_map.2 ⟨_, h, rfl⟩)
      rw [Dict.get?, if_neg hne]
      exact Dict.get?_of_mem_nodup (d := t) hn.2 h

end Verif

namespace Verif.Space
open MeshBuild MeshGraph Dof

theorem forall₂_get {α β : Type} {R : α → β → Prop} {l : List α} {r : List β}
    (h : List.Forall₂ R l r) : l.length = r.length ∧
      ∀ (i : Nat) b, r[i]? = some b → ∃ a, l[i]? = some a ∧ R a b := by
  induction h with
  | nil => exact ⟨rfl, by simp⟩
  | @cons a b l r hab _ ih =>
    refine ⟨by simp [ih.1], fun i b' hb' => ?_⟩
    cases i with
    | zero => simp at hb'; subst hb'; exact ⟨a, by simp, hab⟩
    | succ i => simpa using ih.2 i b' (by simpa using hb')

section
variable {s : Space} {tags bTags : List (Option Int)} {basix : Basix} {D : DoFMap} {t : Topology}
  {sel : List Cell} {ned : List (List Nat)}

/-- An element is built on a selected cell. -/
theorem Facts.element (h : Facts s tags bTags basix D t sel ned) {i : Nat} {el : Element}
    (hi : s.elements[i]? = some el) :
    s.elementIds[i]? = some el.cell.id ∧ el.cell ∈ sel ∧ Stored s.mesh.cells el.cell.id el.cell := by
  obtain ⟨id, hid, hmk⟩ := (forall₂_get h.elements).2 i el hi
  have hst := (makeElement_inv hmk).1
  have hide := h.topo.wf.ids id _ hst
  subst hide
  refine ⟨hid, ?_, hst⟩
  obtain ⟨c, hc, hcd, hm⟩ := (h.ids _).1 (List.mem_of_getElem? hid)
  unfold Stored at hc hst
  rw [hst] at hc
  obtain rfl : el.cell = c := by simpa using hc
  exact (h.sel_iff _).2 ⟨hst, hcd, hm⟩

theorem Facts.getDofMap (h : Facts s tags bTags basix D t sel ned) : s.getDofMap = .ok D := by
  simp [Space.getDofMap, h.dofMap]

theorem Facts.nDof (h : Facts s tags bTags basix D t sel ned) : s.nDof = D.nDof := by
  simp [Space.nDof, h.dofMap]

theorem Facts.retrieve (h : Facts s tags bTags basix D t sel ned) (hn : SubNodup s.mesh.cells)
    {i : Nat} {el : Element} (hi : s.elements[i]? = some el) :
    retrieveDest s i = .ok (dest (idsOf t) (perEntity ned s.nComp) 0 t.dimension el.cell) := by
  obtain ⟨-, hsel, -⟩ := h.element hi
  simp [retrieveDest, getIdx_of hi, h.getDofMap, destination_ok h.topo hn h.dof hsel]

theorem Facts.retrieve_error (_h : Facts s tags bTags basix D t sel ned) {i : Nat}
    (hi : ¬ i < s.elements.length) : retrieveDest s i = .error .indexError := by
  have : getIdx s.elements i = .error .indexError := by
    rw [getIdx, List.getElem?_eq_none (by omega)]
  simp [retrieveDest, this]

theorem Facts.mem_ids (h : Facts s tags bTags basix D t sel ned) {c : Cell} (hc : c ∈ sel)
    {d j : Nat} (hd : d ≤ t.dimension) (hj : j ∈ subD c d) : j ∈ idsOf t d :=
  ((h.topo.entities hd).2.2 j).2 ⟨c, hc, hj⟩

theorem Facts.dest_facts (h : Facts s tags bTags basix D t sel ned) (hn : SubNodup s.mesh.cells)
    {c : Cell} (hc : c ∈ sel) :
    (dest (idsOf t) (perEntity ned s.nComp) 0 t.dimension c).Nodup ∧
      ∀ x ∈ dest (idsOf t) (perEntity ned s.nComp) 0 t.dimension c, x < D.nDof := by
  have hcs := h.topo.mem c hc
  constructor
  · apply flatMap_blocks_nodup
    intro d hdd
    refine ⟨?_, fun j hj => h.mem_ids hc (by omega) hj⟩
    exact hn _ c hcs.1 _ (List.mem_of_getElem? (subD_eq h.topo.wf hcs.1 (by omega)))
  · intro x hx
    obtain ⟨d, hdd, j, hj, hxb⟩ := mem_dest.1 hx
    have htile := flatMap_all_blocks (ids := idsOf t) (s := perEntity ned s.nComp) (shift := 0)
      (t.dimension + 1) (fun d hdd => (h.topo.entities (d := d) (by omega)).2.1)
    rw [← h.dof.nDof] at htile
    have : x ∈ List.range' 0 D.nDof := by
      rw [← htile]
      exact List.mem_flatMap.2 ⟨d, List.mem_range.2 (by omega),
        List.mem_flatMap.2 ⟨j, h.mem_ids hc hdd hj, hxb⟩⟩
    have := List.mem_range'_1.1 this
    omega

theorem Facts.exists_element (h : Facts s tags bTags basix D t sel ned) {c : Cell}
    (hc : c ∈ sel) : ∃ (i : Nat) (el : Element), s.elements[i]? = some el ∧ el.cell = c := by
  have hs := (h.sel_iff c).1 hc
  have hmem : c.id ∈ s.elementIds := (h.ids _).2 ⟨c, hs⟩
  obtain ⟨i, hi⟩ := List.mem_iff_getElem?.1 hmem
  have hlen := (forall₂_get h.elements).1
  have hlt : i < s.elements.length := by
    have := (List.getElem?_eq_some_iff.1 hi).1; omega
  refine ⟨i, s.elements[i], List.getElem?_eq_getElem hlt, ?_⟩
  obtain ⟨h1, -, hst⟩ := h.element (List.getElem?_eq_getElem hlt)
  rw [hi] at h1
  have hid : c.id = s.elements[i].cell.id := by simpa using h1
  have hst' := hs.1
  unfold Stored at hst hst'
  rw [hid, hst] at hst'
  simpa using hst'

theorem Facts.cover (h : Facts s tags bTags basix D t sel ned) (hn : SubNodup s.mesh.cells)
    {x : Nat} (hx : x < D.nDof) :
    ∃ i l, i < s.elements.length ∧ retrieveDest s i = .ok l ∧ x ∈ l := by
  have htile := flatMap_all_blocks (ids := idsOf t) (s := perEntity ned s.nComp) (shift := 0)
    (t.dimension + 1) (fun d hdd => (h.topo.entities (d := d) (by omega)).2.1)
  rw [← h.dof.nDof] at htile
  have hx' : x ∈ List.range' 0 D.nDof := List.mem_range'_1.2 ⟨by omega, by omega⟩
  rw [← htile] at hx'
  obtain ⟨d, hd, hx'⟩ := List.mem_flatMap.1 hx'
  obtain ⟨j, hj, hx'⟩ := List.mem_flatMap.1 hx'
  have hd := List.mem_range.1 hd
  obtain ⟨c, hc, hjc⟩ := ((h.topo.entities (d := d) (by omega)).2.2 j).1 hj
  obtain ⟨i, el, hi, rfl⟩ := h.exists_element hc
  exact ⟨i, _, (List.getElem?_eq_some_iff.1 hi).1, h.retrieve hn hi,
    mem_dest.2 ⟨d, by omega, j, hjc, hx'⟩⟩

/-- A boundary element is built on a stored facet of the space. -/
theorem Facts.bcElement (h : Facts s tags bTags basix D t sel ned) {i : Nat} {f : Element}
    (hi : s.bcElements[i]? = some f) :
    s.bcElementIds[i]? = some f.cell.id ∧ Stored s.mesh.cells f.cell.id f.cell ∧
      f.cell.dimension + 1 = s.dimension ∧ ∃ c ∈ sel, f.cell.id ∈ subD c f.cell.dimension := by
  rcases h.bc with ⟨-, h0, -⟩ | ⟨-, hd, -, hmem, hall, -⟩
  · rw [h0] at hi; simp at hi
  · obtain ⟨id, hid, hmk⟩ := (forall₂_get hall).2 i f hi
    have hst := (makeElement_inv hmk).1
    have hide := h.topo.wf.ids id _ hst
    subst hide
    obtain ⟨⟨i', ⟨c, hc, hcd, hmat⟩, hsub⟩, -⟩ := (hmem _).1 (List.mem_of_getElem? hid)
    have hidc := h.topo.wf.ids i' c hc
    subst hidc
    have hcsel := (h.sel_iff c).2 ⟨hc, hcd, hmat⟩
    have hin := (subEntity_iff hc).1 hsub
    obtain ⟨b, hb, hbd⟩ := h.topo.wf.subOk c.id c hc _ _
      (subD_eq h.topo.wf hc (t := s.dimension - 1) (by omega)) _ hin
    have hst' := hst
    unfold Stored at hb hst
    rw [hst] at hb
    obtain rfl : f.cell = b := by simpa using hb
    refine ⟨hid, hst', by omega, c, hcsel, by rw [hbd]; exact hin⟩

theorem Facts.retrieveBc (h : Facts s tags bTags basix D t sel ned) (hn : SubNodup s.mesh.cells)
    (hcl : SubClosed s.mesh.cells) {i : Nat} {f : Element} (hi : s.bcElements[i]? = some f) :
    ∃ (b : List Nat) (e : Nat) (el : Element) (l : List Nat), retrieveBcDest s i = .ok b ∧ s.elements[e]? = some el ∧
      retrieveDest s e = .ok l ∧ SubEntity s.mesh.cells el.cell.id (s.dimension - 1) f.cell.id ∧
      b = (List.range s.dimension).flatMap (fun d =>
        (subIdsOf s.mesh.cells f.cell.id d).flatMap (D.numbers d)) ∧
      b.Nodup ∧ ∀ x ∈ b, x ∈ l := by
  obtain ⟨-, hst, hfd, c0, hc0, hc0f⟩ := h.bcElement hi
  obtain ⟨g, hg, hinc⟩ := h.topo.incidence (d := f.cell.dimension) (by rw [h.tdim]; omega)
  obtain ⟨ns, hns, -, hmemns⟩ := hinc.predecessors ⟨c0, hc0, hc0f⟩
  have hc0n := (hmemns (t.dimension, c0.id)).2 ⟨c0, hc0, rfl, hc0f⟩
  cases ns with
  | nil => simp at hc0n
  | cons n ns =>
    obtain ⟨c, hc, h1, h3⟩ := (hmemns n).1 (by simp)
    subst h1
    have hcs := h.topo.mem c hc
    have hbc := bcDestination_ok h.topo hn hcl (by rw [h.tdim]; exact h.ref) h.dof hc hst
      (by rw [h.tdim]; exact hfd) h3
    obtain ⟨e, el, he, rfl⟩ := h.exists_element hc
    have hin : ∀ d < s.dimension, ∀ j ∈ subD f.cell d, j ∈ subD el.cell d := by
      intro d hd j hj
      have hsub := subD_eq h.topo.wf hcs.1 (t := f.cell.dimension) (by rw [hcs.2, h.tdim]; omega)
      obtain ⟨ids, h4, h5⟩ := hcl _ _ _ _ hcs.1 hst ⟨_, List.mem_of_getElem? hsub, h3⟩ d _
        (subD_eq h.topo.wf hst (by omega))
      rw [subD_eq h.topo.wf hcs.1 (by rw [hcs.2, h.tdim]; omega)] at h4
      obtain rfl : subD el.cell d = ids := by simpa using h4
      exact h5 j hj
    refine ⟨(List.range t.dimension).flatMap fun d => (subD f.cell d).flatMap
      (block (idsOf t) (perEntity ned s.nComp) 0 d), e, el, _, ?_, he, h.retrieve hn he, ?_, ?_, ?_, ?_⟩
    · simp only [retrieveBcDest, getIdx_of hi, h.getDofMap, Res.bind_ok, h.dof.topology, hg, hns]
      exact hbc
    · rw [show s.dimension - 1 = f.cell.dimension by omega]
      exact (subEntity_iff hcs.1).2 h3
    · rw [h.tdim]
      apply List.flatMap_congr
      intro d hd
      have hd := List.mem_range.1 hd
      rw [subIdsOf_eq hst]
      apply List.flatMap_congr
      intro j hj
      exact (numbers_eq h.dof (by rw [h.tdim]; omega)
        (h.mem_ids hc (by rw [h.tdim]; omega) (hin d hd j hj))).symm
    · apply flatMap_blocks_nodup
      intro d hdd
      rw [h.tdim] at hdd
      exact ⟨hn _ _ hst _ (List.mem_of_getElem? (subD_eq h.topo.wf hst (by omega))),
        fun j hj => h.mem_ids hc (by rw [h.tdim]; omega) (hin d hdd j hj)⟩
    · intro x hx
      obtain ⟨d, hd, hx⟩ := List.mem_flatMap.1 hx
      obtain ⟨j, hj, hx⟩ := List.mem_flatMap.1 hx
      have hd := List.mem_range.1 hd
      exact mem_dest.2 ⟨d, by omega, j, hin d (by rw [← h.tdim]; exact hd) j hj, hx⟩

theorem Facts.retrieveBc_error (_h : Facts s tags bTags basix D t sel ned) {i : Nat}
    (hi : ¬ i < s.bcElements.length) : retrieveBcDest s i = .error .indexError := by
  have : getIdx s.bcElements i = .error .indexError := by
    rw [getIdx, List.getElem?_eq_none (by omega)]
  simp [retrieveBcDest, this]

end

/-! ### the loop over the fields -/

theorem strides_get? : ∀ (l : List Nat) (a k : Nat), k ≤ l.length →
    (l.scanl (· + ·) a)[k]? = some (a + (l.take k).sum)
  | [], a, k, h => by
    simp at h; subst h; simp
  | b :: l, a, k, h => by
    cases k with
    | zero => simp
    | succ k =>
      rw [List.scanl_cons]
      have := strides_get? l (a + b) k (by simpa using h)
      simp only [List.getElem?_cons_succ, this, List.take_succ_cons, List.sum_cons]
      congr 1; omega

/-- Without an offset that is missing, the loop returns for every field that is not skipped its
translated destinations. -/
theorem fieldDests_ok (retrieve : Space → Res (List Nat)) (skip : Space → Bool) (shift : Nat)
    (str : List Nat) (get : Space → List Nat) : ∀ (spaces : Dict String Space) (i : Nat),
    i + spaces.length ≤ str.length →
    (∀ p ∈ spaces, skip p.2 = false → retrieve p.2 = .ok (get p.2)) →
    fieldDests retrieve skip shift str i spaces = .ok ((spaces.zipIdx i).filterMap fun q =>
      if skip q.1.2 then none
      else some (q.1.1, (get q.1.2).map (· + (str.getD q.2 0) + shift)))
  | [], i, _, _ => rfl
  | (name, s) :: rest, i, hlen, h => by
    simp only [List.length_cons] at hlen
    have ih := fieldDests_ok retrieve skip shift str get rest (i + 1) (by omega)
      (fun p hp => h p (List.mem_cons_of_mem _ hp))
    rw [fieldDests]
    by_cases hs : skip s
    · simp [hs, ih]
    · have hs' : skip s = false := by simpa using hs
      have hg : getIdx str i = .ok (str.getD i 0) := by
        rw [getIdx, List.getElem?_eq_getElem (by omega)]
        simp [List.getD_eq_getElem?_getD, List.getElem?_eq_getElem (show i < str.length by omega)]
      rw [if_neg hs, hg, h (name, s) (by simp) hs', ih]
      simp [hs']

theorem fieldDests_error (retrieve : Space → Res (List Nat)) (skip : Space → Bool) (shift : Nat)
    (str : List Nat) (e : Err) : ∀ (spaces : Dict String Space) (i : Nat),
    i + spaces.length ≤ str.length →
    (∀ p ∈ spaces, skip p.2 = false → (∃ l, retrieve p.2 = .ok l) ∨ retrieve p.2 = .error e) →
    (∃ p ∈ spaces, skip p.2 = false ∧ retrieve p.2 = .error e) →
    fieldDests retrieve skip shift str i spaces = .error e
  | [], i, _, _, h => by simp at h
  | (name, s) :: rest, i, hlen, h, hex => by
    simp only [List.length_cons] at hlen
    have ih := fieldDests_error retrieve skip shift str e rest (i + 1) (by omega)
      (fun p hp => h p (List.mem_cons_of_mem _ hp))
    rw [fieldDests]
    by_cases hs : skip s
    · rw [if_pos hs]
      apply ih
      obtain ⟨p, hp, h1, h2⟩ := hex
      rcases List.mem_cons.1 hp with rfl | hp
      · simp [hs] at h1
      · exact ⟨p, hp, h1, h2⟩
    · have hs' : skip s = false := by simpa using hs
      have hg : getIdx str i = .ok (str.getD i 0) := by
        rw [getIdx, List.getElem?_eq_getElem (by omega)]
        simp [List.getD_eq_getElem?_getD, List.getElem?_eq_getElem (show i < str.length by omega)]
      rw [if_neg hs, hg]
      rcases h (name, s) (by simp) hs' with ⟨l, hl⟩ | hl
      · simp only at hl
        rw [hl]
        have : fieldDests retrieve skip shift str (i + 1) rest = .error e := by
          apply ih
          obtain ⟨p, hp, h1, h2⟩ := hex
          rcases List.mem_cons.1 hp with rfl | hp
          · simp only at h2; rw [hl] at h2; cases h2
          · exact ⟨p, hp, h1, h2⟩
        simp [this]
      · simp only at hl
        simp [hl]

theorem fieldDests_shift (retrieve : Space → Res (List Nat)) (skip : Space → Bool) (shift : Nat)
    (str : List Nat) : ∀ (spaces : Dict String Space) (i : Nat),
    fieldDests retrieve skip shift str i spaces =
      (fieldDests retrieve skip 0 str i spaces).map (translate shift)
  | [], i => rfl
  | (name, s) :: rest, i => by
    have ih := fieldDests_shift retrieve skip shift str rest (i + 1)
    rw [fieldDests, fieldDests]
    by_cases hs : skip s
    · rw [if_pos hs, if_pos hs, ih]
    · rw [if_neg hs, if_neg hs, ih]
      cases getIdx str i with
      | error e => rfl
      | ok a =>
        cases retrieve s with
        | error e => rfl
        | ok l =>
          cases fieldDests retrieve skip 0 str (i + 1) rest with
          | error e => rfl
          | ok r => simp [translate, Except.map, Function.comp_def]

theorem dofNumbers_ok : ∀ {spaces : Dict String Space} {dofs : Dict String Nat},
    dofNumbers spaces = .ok dofs → dofs = spaces.map (fun p => (p.1, p.2.nDof)) ∧
      ∀ p ∈ spaces, ∃ m, p.2.dofMap = some m
  | [], dofs, h => by
    simp only [dofNumbers, Except.ok.injEq] at h; subst h; simp
  | (name, s) :: rest, dofs, h => by
    simp only [dofNumbers] at h
    obtain ⟨m, hm, h⟩ := Res.bind_eq_ok.1 h
    obtain ⟨r, hr, h⟩ := Res.bind_eq_ok.1 h
    simp only [Res.pure_eq, Except.ok.injEq] at h
    subst h
    obtain ⟨rfl, h2⟩ := dofNumbers_ok hr
    have hsm : s.dofMap = some m := by
      unfold Space.getDofMap at hm
      split at hm
      · rename_i m' hm'; rw [hm']; simpa using hm
      · cases hm
    constructor
    · simp [Space.nDof, hsm]
    · intro p hp
      rcases List.mem_cons.1 hp with rfl | hp
      · exact ⟨m, hsm⟩
      · exact h2 p hp

theorem buildFields_inv {basix : Basix} {tags bTags : Dict String (List (Option Int))} :
    ∀ {spaces r : Dict String Space}, buildFields basix tags bTags spaces = .ok r →
    List.Forall₂ (fun p q => q.1 = p.1 ∧ ∃ s, p.2.buildStructures basix
      ((tags.get? p.1).getD [none]) = .ok s ∧
      s.buildBoundaryStructures basix ((bTags.get? p.1).getD []) = .ok q.2) spaces r
  | [], r, h => by
    simp only [buildFields, Except.ok.injEq] at h; subst h; exact .nil
  | (name, s) :: rest, r, h => by
    simp only [buildFields] at h
    obtain ⟨s1, h1, h⟩ := Res.bind_eq_ok.1 h
    obtain ⟨s2, h2, h⟩ := Res.bind_eq_ok.1 h
    obtain ⟨r', hr, h⟩ := Res.bind_eq_ok.1 h
    simp only [Res.pure_eq, Except.ok.injEq] at h
    subst h
    exact .cons ⟨rfl, s1, h1, h2⟩ (buildFields_inv hr)

end Verif.Space

namespace Verif.Space
open MeshBuild MeshGraph Dof

theorem Space.new_inv {d n : Nat} {f : String} {k : Int} {m : Mesh} {s : Space}
    (h : Space.new d n f k m = .ok s) : s.mesh = m ∧ s.Consistent ∧ s.bcElements = [] ∧
      s.bcElementIds = [] ∧ s.idToBcElement = [] := by
  simp only [Space.new] at h
  obtain ⟨fam, -, h⟩ := Res.bind_eq_ok.1 h
  obtain ⟨t, ht, h⟩ := Res.bind_eq_ok.1 h
  simp only [Res.pure_eq, Except.ok.injEq] at h
  subst h
  refine ⟨rfl, ?_, rfl, rfl, rfl⟩
  unfold Topology.new at ht
  split at ht
  · cases ht
  · simp only [Except.ok.injEq] at ht
    subst ht; exact ⟨rfl, rfl⟩

theorem newFields_inv : ∀ {data : Dict String FieldData} {r : Dict String Space},
    newFields data = .ok r → List.Forall₂ (fun p q => q.1 = p.1 ∧
      Space.new p.2.dimension p.2.nComp p.2.family p.2.kOrder p.2.mesh = .ok q.2) data r
  | [], r, h => by
    simp only [newFields, Except.ok.injEq] at h; subst h; exact .nil
  | (name, s) :: rest, r, h => by
    simp only [newFields] at h
    obtain ⟨s1, h1, h⟩ := Res.bind_eq_ok.1 h
    obtain ⟨r', hr, h⟩ := Res.bind_eq_ok.1 h
    simp only [Res.pure_eq, Except.ok.injEq] at h
    subst h
    exact .cons ⟨rfl, h1⟩ (newFields_inv hr)

theorem forall₂_fst {α β : Type} {R : String × α → String × β → Prop}
    (hR : ∀ p q, R p q → q.1 = p.1) : ∀ {l : List (String × α)} {r : List (String × β)},
    List.Forall₂ R l r → r.map Prod.fst = l.map Prod.fst
  | _, _, .nil => rfl
  | _, _, .cons h t => by simp [hR _ _ h, forall₂_fst hR t]

theorem Product.new_inv {data : Dict String FieldData} {p : Product}
    (h : Product.new data = .ok p) : newFields data = .ok p.spaces ∧ p.dofShift = 0 ∧ data ≠ [] := by
  unfold Product.new at h
  split at h
  · cases h
  · rename_i hlen
    split at h
    · cases h
    · split at h
      · cases h
      · obtain ⟨s, hs, h⟩ := Res.bind_eq_ok.1 h
        simp only [Res.pure_eq, Except.ok.injEq] at h
        subst h
        exact ⟨hs, rfl, fun h => hlen (by simp [h])⟩

theorem buildStructures_mesh {basix : Basix} {tags : List (Option Int)} {s₀ s : Space}
    (hs1 : s₀.buildStructures basix tags = .ok s) : s.mesh = s₀.mesh := by
  simp only [Space.buildStructures, Space.buildDofMap, Space.buildElements] at hs1
  obtain ⟨s', hd, he⟩ := Res.bind_eq_ok.1 hs1
  obtain ⟨t, ht, hd⟩ := Res.bind_eq_ok.1 hd
  obtain ⟨ty, hty, hd⟩ := Res.bind_eq_ok.1 hd
  obtain ⟨ned, hned, hd⟩ := Res.bind_eq_ok.1 hd
  obtain ⟨m0, hm0, hd⟩ := Res.bind_eq_ok.1 hd
  obtain ⟨D, hD, hd⟩ := Res.bind_eq_ok.1 hd
  simp only [Res.pure_eq, Except.ok.injEq] at hd
  subst hd
  obtain ⟨ids, hids, he⟩ := Res.bind_eq_ok.1 he
  obtain ⟨els, hels, he⟩ := Res.bind_eq_ok.1 he
  simp only [Res.pure_eq, Except.ok.injEq] at he
  subst he
  rfl

theorem buildBoundaryStructures_mesh {basix : Basix} {bTags : List (Option Int)} {s₁ s : Space}
    (h2 : s₁.buildBoundaryStructures basix bTags = .ok s) : s.mesh = s₁.mesh := by
  unfold Space.buildBoundaryStructures at h2
  split at h2
  · simp only [Except.ok.injEq] at h2; subst h2; rfl
  · simp only [Space.buildBcElements] at h2
    split at h2
    · simp only [throw, throwThe, MonadExceptOf.throw, Res.bind_error] at h2; cases h2
    · simp only [Res.pure_eq] at h2
      obtain ⟨all, hall, h2⟩ := Res.bind_eq_ok.1 h2
      obtain ⟨kp, hkp, h2⟩ := Res.bind_eq_ok.1 h2
      obtain ⟨bels, hbels, h2⟩ := Res.bind_eq_ok.1 h2
      simp only [Except.ok.injEq] at h2
      subst h2; rfl

/-- What is known of a product space whose structures were built. -/
structure ProdOK (basix : Basix) (p : Product) : Prop where
  fields : ∀ q ∈ p.spaces, GoodMesh q.2.mesh ∧
    ∃ tg btg D t sel ned, Facts q.2 tg btg basix D t sel ned
  dofs : p.dofs = p.spaces.map fun q => (q.1, q.2.nDof)
  nDof : p.nDof = (p.spaces.map fun q => q.2.nDof).sum
  ne : p.spaces ≠ []

theorem prodOK {basix : Basix} (gb : GoodBasix basix) {data : Dict String FieldData}
    {disc : Dict String Bool} {tags bTags : Dict String (List (Option Int))} {p : Product}
    (h : BuiltFrom basix data disc tags bTags p) :
    ProdOK basix p ∧ p.spaces.keys = data.keys ∧ p.dofShift = 0 := by
  obtain ⟨-, hgood, p₀, hnew, hb⟩ := h
  obtain ⟨hf, hsh, hne⟩ := Product.new_inv hnew
  have h1 := newFields_inv hf
  simp only [Product.buildStructures] at hb
  obtain ⟨sp, hsp, hb⟩ := Res.bind_eq_ok.1 hb
  obtain ⟨df, hdf, hb⟩ := Res.bind_eq_ok.1 hb
  simp only [Res.pure_eq, Except.ok.injEq] at hb
  have h2 := buildFields_inv hsp
  obtain ⟨hdf1, -⟩ := dofNumbers_ok hdf
  have hk : sp.map Prod.fst = data.map Prod.fst := by
    rw [forall₂_fst (fun _ _ h => h.1) h2]
    simp only [Product.makeDiscontinuous, List.map_map]
    rw [← forall₂_fst (fun _ _ h => h.1) h1]
    rfl
  subst hb
  refine ⟨⟨?_, hdf1, ?_, ?_⟩, hk, hsh⟩
  · intro q hq
    obtain ⟨a, ha, -, s, hs1, hs2⟩ := forall₂_right h2 hq
    simp only [Product.makeDiscontinuous] at ha
    obtain ⟨r, hr, rfl⟩ := List.mem_map.1 ha
    obtain ⟨f, hfm, -, hfn⟩ := forall₂_right h1 hr
    obtain ⟨m1, m2, m3, m4, m5⟩ := Space.new_inv hfn
    have hbuilt : IsBuilt basix ((tags.get? r.1).getD [none]) ((bTags.get? r.1).getD []) q.2 := by
      refine ⟨_, s, ?_, ?_, ?_, ?_, hs1, hs2⟩
      · simp only; split
        · exact m2
        · exact m2
      · simp only; split <;> exact m3
      · simp only; split <;> exact m4
      · simp only; split <;> exact m5
    have hmesh : q.2.mesh = r.2.mesh := by
      rw [buildBoundaryStructures_mesh hs2, buildStructures_mesh hs1]
      simp only; split <;> rfl
    have hg : GoodMesh q.2.mesh := by
      rw [hmesh, m1]; exact hgood f hfm
    obtain ⟨D, t, sel, ned, hF⟩ := build_facts_space gb hbuilt hg.wf
    exact ⟨hg, _, _, D, t, sel, ned, hF⟩
  · simp only [hdf1, Dict.values, List.map_map]; rfl
  · intro h0
    simp only at h0
    subst h0
    simp at hk
    exact hne hk

/-- The destinations of element `i` of a field (empty if it has none). -/
def destOf (s : Space) (i : Nat) : List Nat :=
  match retrieveDest s i with | .ok l => l | .error _ => []

theorem ProdOK.strides (basix : Basix) {p : Product} (h : ProdOK basix p) (k : Nat)
    (hk : k ≤ p.spaces.length) :
    (strides p.dofs.values)[k]? = some (((p.spaces.take k).map fun q => q.2.nDof).sum) := by
  rw [Space.strides, strides_get? _ _ _ (by simp [h.dofs, Dict.values]; exact hk), h.dofs, Dict.values]
  simp only [List.map_map, ← List.map_take, Nat.zero_add]
  rfl

theorem ProdOK.strides_length {basix : Basix} {p : Product} (h : ProdOK basix p) :
    p.spaces.length < (Verif.Space.strides p.dofs.values).length := by
  have := h.strides basix p.spaces.length (Nat.le_refl _)
  exact (List.getElem?_eq_some_iff.1 this).1

theorem ProdOK.spacesDest {basix : Basix} {p : Product} (h : ProdOK basix p) (sh i : Nat)
    (hi : ∀ q ∈ p.spaces, i < q.2.elements.length) :
    ∃ d, ({ p with dofShift := sh } : Product).spacesDest i = .ok d ∧ d.length = p.spaces.length ∧
      ∀ (k : Nat) q, p.spaces[k]? = some q → ∃ l, retrieveDest q.2 i = .ok l ∧ l.Nodup ∧
        (∀ x ∈ l, x < q.2.nDof) ∧
        d[k]? = some (q.1, l.map (· + ((p.spaces.take k).map fun q => q.2.nDof).sum + sh)) := by
  have hr : ∀ q ∈ p.spaces, ∃ l, retrieveDest q.2 i = .ok l ∧ l.Nodup ∧ ∀ x ∈ l, x < q.2.nDof := by
    intro q hq
    obtain ⟨hg, tg, btg, D, t, sel, ned, hF⟩ := h.fields q hq
    have hel := List.getElem?_eq_getElem (hi q hq)
    obtain ⟨-, hsel, -⟩ := hF.element hel
    have hd := hF.dest_facts hg.nodup hsel
    rw [hF.nDof]
    exact ⟨_, hF.retrieve hg.nodup hel, hd.1, hd.2⟩
  have hfd := fieldDests_ok (retrieveDest · i) (fun _ => false) sh (Verif.Space.strides p.dofs.values)
    (destOf · i) p.spaces 0 (by have := h.strides_length; omega) (by
      intro q hq _
      obtain ⟨l, hl, -⟩ := hr q hq
      simp only [destOf, hl])
  refine ⟨_, hfd, ?_, ?_⟩
  · simp
  · intro k q hk
    obtain ⟨l, hl, h1, h2⟩ := hr q (List.mem_of_getElem? hk)
    refine ⟨l, hl, h1, h2, ?_⟩
    have hlt := (List.getElem?_eq_some_iff.1 hk).1
    simp only [Bool.false_eq_true, if_false, List.filterMap_eq_map', List.getElem?_map,
      List.getElem?_zipIdx, hk, Option.map_some, Nat.zero_add, destOf, hl,
      List.getD_eq_getElem?_getD, h.strides basix k (by omega), Option.getD_some]

end Verif.Space
