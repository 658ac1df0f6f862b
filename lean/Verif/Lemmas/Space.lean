/- Discrete spaces: helper lemmas. -/
import Verif.Spec.Space
import Verif.Lemmas.DofBuild

namespace Verif.Space
open MeshBuild MeshGraph Dof

theorem mapRes_inv {α β : Type} {f : α → Res β} : ∀ {l : List α} {r : List β},
    mapRes f l = .ok r → List.Forall₂ (fun a b => f a = .ok b) l r
  | [], r, h => by
    simp [mapRes] at h; subst h; exact .nil
  | a :: l, r, h => by
    simp only [mapRes] at h
    obtain ⟨b, hb, h⟩ := Res.bind_eq_ok.1 h
    obtain ⟨bs, hbs, h⟩ := Res.bind_eq_ok.1 h
    simp only [Res.pure_eq, Except.ok.injEq] at h
    subst h
    exact .cons hb (mapRes_inv hbs)

theorem makeElement_inv {basix : Basix} {cells : Cells} {f : Family} {k : Int} {disc : Bool}
    {id : Nat} {el : Element} (h : makeElement basix cells f k disc id = .ok el) :
    Stored cells id el.cell ∧ el.family = effFamily el.cell.dimension f ∧ el.kOrder = k ∧
      el.discontinuous = disc ∧
      basix (effFamily el.cell.dimension f) el.cell.dimension k disc = .ok el.ned := by
  simp only [makeElement] at h
  obtain ⟨c, hc, h⟩ := Res.bind_eq_ok.1 h
  obtain ⟨ty, hty, h⟩ := Res.bind_eq_ok.1 h
  obtain ⟨ned, hned, h⟩ := Res.bind_eq_ok.1 h
  obtain ⟨bc, hbc, h⟩ := Res.bind_eq_ok.1 h
  simp only [Res.pure_eq, Except.ok.injEq] at h
  subst h
  have hty' : ty = c.dimension := by
    unfold typeByDimension at hty
    split at hty
    · simpa using hty.symm
    · cases hty
  subst hty'
  exact ⟨cellAt_eq_ok.1 hc, rfl, rfl, rfl, hned⟩

theorem positions_get? {ids : List Nat} (h : ids.Nodup) (j : Nat) :
    (positions ids).get? j = if j ∈ ids then some (ids.idxOf j) else none := by
  have hz : ids.zip (List.range ids.length) =
      ids.zip ((List.range' 0 ids.length).map fun i => i) := by
    rw [List.map_id', List.range_eq_range']
  unfold positions
  rw [hz, Dict.ofList_nodup (by rw [Dict.map_fst_zip_range']; exact h),
    Dict.get?_zip_range' ids 0 j]
  simp

theorem zip_filter_map (f : Nat → Bool) : ∀ (l : List Nat),
    ((l.zip (l.map f)).filter (·.2)).map Prod.fst = l.filter f
  | [] => rfl
  | a :: l => by
    have ih := zip_filter_map f l
    by_cases h : f a
    · simp [h, ih]
    · simp [h, ih]

/-- All that is known of a built space. -/
structure Facts (s : Space) (tags bTags : List (Option Int)) (basix : Basix) (D : DoFMap)
    (t : Topology) (sel : List Cell) (ned : List (List Nat)) : Prop where
  mesh : s.topology.mesh = s.mesh
  dofMap : s.dofMap = some D
  le : s.dimension ≤ s.mesh.dimension
  le3 : s.dimension ≤ 3
  tdim : t.dimension = s.dimension
  ref : IsRef ned s.dimension
  basix_eq : basix (effFamily s.dimension s.generator) s.dimension s.kOrder s.discontinuous = .ok ned
  built : buildSpaceDofs s.mesh s.dimension tags ned s.nComp 0 = .ok D
  topo : TopoOK s.mesh.cells sel t
  dof : DofOK t ned s.nComp 0 D
  sel_iff : ∀ c, c ∈ sel ↔ Stored s.mesh.cells c.id c ∧ c.dimension = s.dimension ∧ c.material ∈ tags
  idsNodup : s.elementIds.Nodup
  ids : ∀ i, i ∈ s.elementIds ↔ Tagged s.mesh.cells tags s.dimension i
  elements : List.Forall₂ (fun id el =>
    makeElement basix s.mesh.cells s.generator s.kOrder s.discontinuous id = .ok el)
    s.elementIds s.elements
  idTo : s.idToElement = positions s.elementIds
  bc : (bTags = [] ∧ s.bcElements = [] ∧ s.bcElementIds = [] ∧ s.idToBcElement = []) ∨
    (bTags ≠ [] ∧ 1 ≤ s.dimension ∧ s.bcElementIds.Nodup ∧
      (∀ j, j ∈ s.bcElementIds ↔ (∃ i, Tagged s.mesh.cells tags s.dimension i ∧
        SubEntity s.mesh.cells i (s.dimension - 1) j) ∧
        ∃ b, Stored s.mesh.cells j b ∧ b.material ∈ bTags) ∧
      List.Forall₂ (fun id el => makeElement basix s.mesh.cells
        (bcChoice s.dimension s.generator s.kOrder s.discontinuous).1
        (bcChoice s.dimension s.generator s.kOrder s.discontinuous).2.1
        (bcChoice s.dimension s.generator s.kOrder s.discontinuous).2.2 id = .ok el)
        s.bcElementIds s.bcElements ∧
      s.idToBcElement = positions s.bcElementIds)

theorem build_facts_space {basix : Basix} (gb : GoodBasix basix) {tags bTags : List (Option Int)}
    {s : Space} (hb : IsBuilt basix tags bTags s) (hw : WellFormed s.mesh.cells) :
    ∃ D t sel ned, Facts s tags bTags basix D t sel ned := by
  obtain ⟨s₀, s₁, ⟨hc1, hc2⟩, e1, e2, e3, h1, h2⟩ := hb
  -- the first step
  simp only [Space.buildStructures] at h1
  obtain ⟨s', hd, he⟩ := Res.bind_eq_ok.1 h1
  simp only [Space.buildDofMap] at hd
  obtain ⟨t, ht, hd⟩ := Res.bind_eq_ok.1 hd
  obtain ⟨ty, hty, hd⟩ := Res.bind_eq_ok.1 hd
  obtain ⟨ned, hned, hd⟩ := Res.bind_eq_ok.1 hd
  obtain ⟨m0, hm0, hd⟩ := Res.bind_eq_ok.1 hd
  obtain ⟨D, hD, hd⟩ := Res.bind_eq_ok.1 hd
  simp only [Res.pure_eq, Except.ok.injEq] at hd
  subst hd
  simp only [Space.buildElements] at he
  obtain ⟨ids, hids, he⟩ := Res.bind_eq_ok.1 he
  obtain ⟨els, hels, he⟩ := Res.bind_eq_ok.1 he
  simp only [Res.pure_eq, Except.ok.injEq] at he
  -- the second step keeps everything but the boundary data
  have keep : s.mesh = s₁.mesh ∧ s.topology = s₁.topology ∧ s.dimension = s₁.dimension ∧
      s.nComp = s₁.nComp ∧ s.generator = s₁.generator ∧ s.kOrder = s₁.kOrder ∧
      s.discontinuous = s₁.discontinuous ∧ s.dofMap = s₁.dofMap ∧ s.elements = s₁.elements ∧
      s.elementIds = s₁.elementIds ∧ s.idToElement = s₁.idToElement := by
    unfold Space.buildBoundaryStructures at h2
    split at h2
    · simp only [Except.ok.injEq] at h2; subst h2; simp
    · simp only [Space.buildBcElements] at h2
      split at h2
      · simp only [throw, throwThe, MonadExceptOf.throw, Res.bind_error] at h2; cases h2
      · simp only [Res.pure_eq, Res.bind_ok] at h2
        obtain ⟨all, hall, h2⟩ := Res.bind_eq_ok.1 h2
        obtain ⟨kp, hkp, h2⟩ := Res.bind_eq_ok.1 h2
        obtain ⟨bels, hbels, h2⟩ := Res.bind_eq_ok.1 h2
        simp only [Except.ok.injEq] at h2
        subst h2; simp
  obtain ⟨k1, k2, k3, k4, k5, k6, k7, k8, k9, k10, k11⟩ := keep
  have hs1 : s₁.mesh = s₀.mesh ∧ s₁.topology = t ∧ s₁.dimension = s₀.dimension ∧
      s₁.nComp = s₀.nComp ∧ s₁.generator = s₀.generator ∧ s₁.kOrder = s₀.kOrder ∧
      s₁.discontinuous = s₀.discontinuous ∧ s₁.dofMap = some D ∧ s₁.elements = els ∧
      s₁.elementIds = ids ∧ s₁.idToElement = positions ids ∧ s₁.bcElements = [] ∧
      s₁.bcElementIds = [] ∧ s₁.idToBcElement = [] := by
    subst he; simp [e1, e2, e3]
  clear he
  obtain ⟨l1, l2, l3, l4, l5, l6, l7, l8, l9, l10, l11, l12, l13, l14⟩ := hs1
  have hmesh : s.mesh = s₀.mesh := k1.trans l1
  have hw0 : WellFormed s₀.topology.mesh.cells := by rw [hc1, ← hmesh]; exact hw
  obtain ⟨sel, t', hb', hm', hd', hok, hsel⟩ := buildDataOnTags_ok hw0 s₀.topology rfl tags
  obtain rfl : t = t' := by rw [ht] at hb'; simpa using hb'
  have hle : s₀.dimension ≤ s₀.mesh.dimension ∧
      m0 = { DoFMap.new t ned with dimension := s₀.dimension } := by
    unfold DoFMap.setTopologicalDimension at hm0
    split at hm0
    · cases hm0
    · rename_i hlt
      simp only [Except.ok.injEq] at hm0
      refine ⟨?_, hm0.symm⟩
      have : (DoFMap.new t ned).topology.mesh = s₀.mesh := by
        simp only [DoFMap.new]; rw [hm', hc1]
      rw [this] at hlt; omega
  have hty' : ty = s₀.dimension ∧ s₀.dimension ≤ 3 := by
    unfold typeByDimension at hty
    split at hty
    · rename_i h3; simp only [Except.ok.injEq] at hty; exact ⟨hty.symm, h3⟩
    · cases hty
  obtain ⟨rfl, h3⟩ := hty'
  have href := gb _ _ _ _ _ hned
  rw [hc2] at hd'
  have hbuilt : buildSpaceDofs s₀.mesh s₀.dimension tags ned s₀.nComp 0 = .ok D := by
    have hnew : Topology.new s₀.mesh s₀.dimension = .ok ⟨s₀.mesh, s₀.dimension, [], []⟩ := by
      rw [Topology.new, if_neg (by omega)]
    have hdata : Topology.buildDataOnTags ⟨s₀.mesh, s₀.dimension, [], []⟩ tags = .ok t := by
      rw [← ht]
      unfold Topology.buildDataOnTags
      simp only [hc1, hc2]
    simp only [buildSpaceDofs, hnew, hdata, hm0, Res.bind_ok]
    exact hD
  obtain ⟨D', hD', hDok⟩ := buildEntityMaps_ok hok (by omega) ned (by rw [hd']; exact href)
    s₀.nComp 0 _ rfl
  obtain rfl : D = D' := by
    rw [hle.2, ← hd', hD'] at hD; simpa using hD.symm
  rw [hc1] at hok hsel
  rw [hc2] at hsel
  have hent := hok.entities (d := s₀.dimension) (by omega)
  obtain rfl : ids = idsOf t s₀.dimension := by
    have := hent.1
    rw [hids] at this; simpa using this
  have hTag : ∀ d ≤ s₀.dimension, ∀ j, j ∈ idsOf t d ↔ ∃ i,
      Tagged s₀.mesh.cells tags s₀.dimension i ∧ SubEntity s₀.mesh.cells i d j := by
    intro d hdd j
    rw [(hok.entities (d := d) (by omega)).2.2]
    constructor
    · rintro ⟨c, hc, hj⟩
      have hs := (hsel c).1 hc
      exact ⟨c.id, ⟨c, hs⟩, (subEntity_iff hs.1).2 hj⟩
    · rintro ⟨i, ⟨c, hc, hcd, hmat⟩, hs⟩
      have hi := hok.wf.ids i c hc
      subst hi
      exact ⟨c, (hsel c).2 ⟨hc, hcd, hmat⟩, (subEntity_iff hc).1 hs⟩
  refine ⟨D, t, sel, ned, ?_⟩
  constructor
  · rw [k2, l2, hmesh, hm', hc1]
  · rw [k8, l8]
  · rw [k3, l3, hmesh]; exact hle.1
  · rw [k3, l3]; exact h3
  · rw [k3, l3]; exact hd'
  · rw [k3, l3]; exact href
  · rw [k3, l3, k5, l5, k6, l6, k7, l7]; exact hned
  · rw [hmesh, k3, l3, k4, l4]; exact hbuilt
  · rw [hmesh]; exact hok
  · rw [k4, l4]; exact hDok
  · rw [hmesh, k3, l3]; exact hsel
  · rw [k10, l10]; exact hent.2.1
  · rw [k10, l10, hmesh, k3, l3]
    intro i
    rw [hTag _ (Nat.le_refl _)]
    constructor
    · rintro ⟨i', ⟨c, hc, hcd, hmat⟩, hs⟩
      have h1 := hok.wf.self i' c hc
      rw [hcd] at h1
      have h2 := (subEntity_iff hc).1 hs
      rw [subD, h1] at h2
      obtain rfl : i = i' := by simpa using h2
      exact ⟨c, hc, hcd, hmat⟩
    · rintro ⟨c, hc, hcd, hmat⟩
      refine ⟨i, ⟨c, hc, hcd, hmat⟩, c, hc, [i], ?_, by simp⟩
      rw [← hcd]; exact hok.wf.self i c hc
  · rw [k10, l10, k9, l9, hmesh, k5, l5, k6, l6, k7, l7]; exact mapRes_inv hels
  · rw [k10, l10, k11, l11]
  · rw [hmesh, k3, l3, k5, l5, k6, l6, k7, l7]
    unfold Space.buildBoundaryStructures at h2
    split at h2
    · rename_i hlen
      simp only [Except.ok.injEq] at h2
      left
      subst h2
      exact ⟨List.length_eq_zero_iff.1 hlen, l12, l13, l14⟩
    · rename_i hlen
      right
      simp only [Space.buildBcElements] at h2
      split at h2
      · simp only [throw, throwThe, MonadExceptOf.throw, Res.bind_error] at h2; cases h2
      · rename_i hdim0
        simp only [Res.pure_eq, Res.bind_ok] at h2
        obtain ⟨all, hall, h2⟩ := Res.bind_eq_ok.1 h2
        obtain ⟨kp, hkp, h2⟩ := Res.bind_eq_ok.1 h2
        obtain ⟨bels, hbels, h2⟩ := Res.bind_eq_ok.1 h2
        simp only [Except.ok.injEq] at h2
        rw [l3] at hdim0
        have hent1 := hok.entities (d := s₀.dimension - 1) (by omega)
        obtain rfl : all = idsOf t (s₀.dimension - 1) := by
          have := hent1.1
          rw [l2, l3, this] at hall; simpa using hall.symm
        -- every listed entity is stored, so the filter is a plain one
        have hst : ∀ j ∈ idsOf t (s₀.dimension - 1), ∃ b, Stored s₀.mesh.cells j b := by
          intro j hj
          obtain ⟨c, hc, hjc⟩ := (hent1.2.2 j).1 hj
          have hcs := hok.mem c hc
          obtain ⟨b, hb, -⟩ := hok.wf.subOk c.id c hcs.1 _ _
            (subD_eq hok.wf hcs.1 (t := s₀.dimension - 1) (by omega)) j hjc
          exact ⟨b, hb⟩
        let f : Nat → Bool := fun j => match s₀.mesh.cells[j]? with
          | some (some c) => bTags.contains c.material
          | _ => false
        have hf : ∀ j b, Stored s₀.mesh.cells j b → f j = bTags.contains b.material := by
          intro j b hb
          unfold Stored at hb
          simp [f, hb]
        have hkp' : mapRes (fun id => do
            let c ← cellAt s₁.mesh.cells id
            Except.ok (bTags.contains c.material)) (idsOf t (s₀.dimension - 1)) =
            .ok ((idsOf t (s₀.dimension - 1)).map f) := by
          apply mapRes_ok
          intro j hj
          obtain ⟨b, hb⟩ := hst j hj
          rw [l1, cellAt_of_stored hb, Res.bind_ok, hf j b hb]
        obtain rfl : kp = (idsOf t (s₀.dimension - 1)).map f := by
          rw [hkp'] at hkp; simpa using hkp.symm
        rw [zip_filter_map] at h2 hbels
        rw [l1, l3, l5, l6, l7] at hbels
        subst h2
        refine ⟨fun h => hlen (by simp [h]), by omega, hent1.2.1.filter _, ?_, mapRes_inv hbels, rfl⟩
        intro j
        simp only [List.mem_filter]
        rw [hTag _ (by omega)]
        constructor
        · rintro ⟨hj, hfj⟩
          obtain ⟨b, hb⟩ := hst j ((hTag _ (by omega) j).2 hj)
          refine ⟨hj, b, hb, ?_⟩
          rw [hf j b hb] at hfj
          simpa using hfj
        · rintro ⟨hj, b, hb, hmat⟩
          refine ⟨hj, ?_⟩
          rw [hf j b hb]
          simpa using hmat

end Verif.Space
