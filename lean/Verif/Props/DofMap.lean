/-
Property theorems C11-C15: degree of freedom numbering (src/spaces/dof_map.py, used as in
src/spaces/discrete_space.py:63-91).
-/
import Verif.Lemmas.DofBuild
import Verif.Props.MeshGraph

namespace Verif.Dof
open MeshBuild MeshGraph

/-- C11: listed by dimension, then by entity, the blocks are exactly `shift, shift+1, ...,
shift + dof_number() - 1`; numbers are stored for exactly the entities of the selected cells. -/
theorem C11_blocks_tile (m : Mesh) (h : WellFormed m.cells) (dim : Nat) (hm : dim ≤ m.dimension)
    (h3 : dim ≤ 3) (tags : List (Option Int)) (ned : List (List Nat)) (href : IsRef ned dim)
    (nc shift : Nat) :
    ∃ D ids, buildSpaceDofs m dim tags ned nc shift = .ok D ∧ IsEntities m.cells tags dim ids ∧
      (∀ d ≤ dim, ∀ j, (∃ l, D.numbers? d j = some l) ↔ j ∈ ids d) ∧
      (List.range (dim + 1)).flatMap (fun d => (ids d).flatMap (D.numbers d)) =
        List.range' shift D.nDof := by
  obtain ⟨D, t, sel, hb, hd, hok, hD, hsel, hent⟩ :=
    build_facts m h dim hm h3 tags ned href nc shift
  refine ⟨D, idsOf t, hb, hent, ?_, ?_⟩
  · intro d hdd j
    rw [numbers?_eq hD (by omega)]
    by_cases hj : j ∈ idsOf t d <;> simp [hj]
  · rw [hD.nDof, ← flatMap_all_blocks (t.dimension + 1) (fun d hdd => (hent d (by omega)).1), hd]
    apply List.flatMap_congr
    intro d hdd
    apply List.flatMap_congr
    intro j hj
    exact numbers_eq hD (by have := List.mem_range.1 hdd; omega) hj

/-- C11, as a partition: the numbers in `[shift, shift + dof_number())` are those stored for some
entity, and the entity is unique. -/
theorem C11_partition (m : Mesh) (h : WellFormed m.cells) (dim : Nat) (hm : dim ≤ m.dimension)
    (h3 : dim ≤ 3) (tags : List (Option Int)) (ned : List (List Nat)) (href : IsRef ned dim)
    (nc shift : Nat) :
    ∃ D, buildSpaceDofs m dim tags ned nc shift = .ok D ∧
      (∀ x, shift ≤ x ∧ x < shift + D.nDof ↔ ∃ d ≤ dim, ∃ j, x ∈ D.numbers d j) ∧
      (∀ d ≤ dim, ∀ e ≤ dim, ∀ j k x, x ∈ D.numbers d j → x ∈ D.numbers e k → d = e ∧ j = k) ∧
      (∀ d ≤ dim, ∀ j l, D.numbers? d j = some l → ∃ a, l = List.range' a (perEntity ned nc d)) := by
  obtain ⟨D, t, sel, hb, hd, hok, hD, hsel, hent⟩ :=
    build_facts m h dim hm h3 tags ned href nc shift
  have hmem : ∀ d ≤ dim, ∀ j x, x ∈ D.numbers d j → j ∈ idsOf t d ∧
      x ∈ block (idsOf t) (perEntity ned nc) shift d j := by
    intro d hdd j x hx
    by_cases hj : j ∈ idsOf t d
    · rw [numbers_eq hD (by omega) hj] at hx; exact ⟨hj, hx⟩
    · rw [DoFMap.numbers, numbers?_eq hD (by omega), if_neg hj] at hx; simp at hx
  refine ⟨D, hb, ?_, ?_, ?_⟩
  · intro x
    have htile := flatMap_all_blocks (ids := idsOf t) (s := perEntity ned nc) (shift := shift)
      (t.dimension + 1) (fun d hdd => (hent d (by omega)).1)
    rw [← hD.nDof] at htile
    rw [← List.mem_range'_1, ← htile]
    simp only [List.mem_flatMap, List.mem_range]
    constructor
    · rintro ⟨d, hdd, j, hj, hx⟩
      exact ⟨d, by omega, j, by rw [numbers_eq hD (by omega) hj]; exact hx⟩
    · rintro ⟨d, hdd, j, hx⟩
      exact ⟨d, by omega, j, hmem d hdd j x hx⟩
  · intro d hdd e hee j k x hx hy
    have h1 := hmem d hdd j x hx
    have h2 := hmem e hee k x hy
    exact block_unique h1.1 h2.1 h1.2 h2.2
  · intro d hdd j l hl
    rw [numbers?_eq hD (by omega)] at hl
    split at hl
    · exact ⟨_, (Option.some.inj hl).symm⟩
    · cases hl

/-- C12: the number of degrees of freedom. -/
theorem C12_dof_number (m : Mesh) (h : WellFormed m.cells) (dim : Nat) (hm : dim ≤ m.dimension)
    (h3 : dim ≤ 3) (tags : List (Option Int)) (ned : List (List Nat)) (href : IsRef ned dim)
    (nc shift : Nat) (D : DoFMap) (hb : buildSpaceDofs m dim tags ned nc shift = .ok D)
    (ids : Nat → List Nat) (hids : IsEntities m.cells tags dim ids) :
    D.nDof = ∑ d ∈ Finset.range (dim + 1), (ids d).length * perEntity ned nc d := by
  obtain ⟨D', t, sel, hb', hd, hok, hD, hsel, hent⟩ :=
    build_facts m h dim hm h3 tags ned href nc shift
  obtain rfl : D' = D := by rw [hb'] at hb; simpa using hb
  rw [hD.nDof, hd]
  apply Finset.sum_congr rfl
  intro d hdd
  have hle : d ≤ dim := by have := Finset.mem_range.1 hdd; omega
  have : (idsOf t d).Perm (ids d) :=
    (List.perm_ext_iff_of_nodup (hent d hle).1 (hids d hle).1).2 (fun j => by
      rw [(hent d hle).2, (hids d hle).2])
  rw [this.length_eq]

/-- C12, rejected requests: a topological dimension above the mesh's. -/
theorem C12_rejects (m : Mesh) (dim : Nat) (hm : m.dimension < dim) (tags : List (Option Int))
    (ned : List (List Nat)) (nc shift : Nat) :
    buildSpaceDofs m dim tags ned nc shift = .error .valueError := by
  simp [buildSpaceDofs, (C08_topology_dimension m dim).1 hm]

/-- C13: the destination indices of a selected cell are the numbers of its entities, by dimension
and then in the cell's local order; they are pairwise distinct and in range. -/
theorem C13_destinations (m : Mesh) (h : WellFormed m.cells) (hn : SubNodup m.cells) (dim : Nat)
    (hm : dim ≤ m.dimension) (h3 : dim ≤ 3) (tags : List (Option Int)) (ned : List (List Nat))
    (href : IsRef ned dim) (nc shift : Nat) (D : DoFMap)
    (hb : buildSpaceDofs m dim tags ned nc shift = .ok D) (i : Nat)
    (hi : Tagged m.cells tags dim i) :
    ∃ l, D.destinationIndices i = .ok l ∧
      l = (List.range (dim + 1)).flatMap
        (fun d => (subIdsOf m.cells i d).flatMap (D.numbers d)) ∧
      l.Nodup ∧ (∀ x ∈ l, shift ≤ x ∧ x < shift + D.nDof) ∧
      l.length = ∑ d ∈ Finset.range (dim + 1),
        (subIdsOf m.cells i d).length * perEntity ned nc d := by
  obtain ⟨D', t, sel, hb', hd, hok, hD, hsel, hent⟩ :=
    build_facts m h dim hm h3 tags ned href nc shift
  obtain rfl : D' = D := by rw [hb'] at hb; simpa using hb
  obtain ⟨c, hc, hcd, hmat⟩ := hi
  have hid := h.ids i c hc
  subst hid
  have hcs := (hsel c).2 ⟨hc, hcd, hmat⟩
  have hin : ∀ d ≤ dim, ∀ j ∈ subD c d, j ∈ idsOf t d := by
    intro d hdd j hj
    exact ((hok.entities (d := d) (by omega)).2.2 j).2 ⟨c, hcs, hj⟩
  refine ⟨_, destination_ok hok hn hD hcs, ?_, ?_, ?_, ?_⟩
  · rw [hd, dest]
    apply List.flatMap_congr
    intro d hdd
    have hdd := List.mem_range.1 hdd
    rw [subIdsOf_eq hc]
    apply List.flatMap_congr
    intro j hj
    exact (numbers_eq hD (by omega) (hin d (by omega) j hj)).symm
  · apply flatMap_blocks_nodup
    intro d hdd
    refine ⟨?_, hin d (by omega)⟩
    exact hn _ c hc _ (List.mem_of_getElem? (subD_eq h hc (by omega)))
  · intro x hx
    obtain ⟨d, hdd, j, hj, hxb⟩ := mem_dest.1 hx
    have hj' := hin d (by omega) j hj
    have htile := flatMap_all_blocks (ids := idsOf t) (s := perEntity ned nc) (shift := shift)
      (t.dimension + 1) (fun d hdd => (hent d (by omega)).1)
    rw [← hD.nDof] at htile
    rw [← List.mem_range'_1, ← htile]
    exact List.mem_flatMap.2 ⟨d, List.mem_range.2 (by omega), List.mem_flatMap.2 ⟨j, hj', hxb⟩⟩
  · rw [dest, List.length_flatMap, hd, list_sum_range]
    apply Finset.sum_congr rfl
    intro d _
    rw [flatMap_block_length, subIdsOf_eq hc]

/-- C13, the length: when all entities of a dimension carry the same number of dofs (as they do on
simplices) and the reference element has as many entities as the cell, there are
(dimension of the reference element) x (components) indices. -/
theorem C13_length (m : Mesh) (h : WellFormed m.cells) (hn : SubNodup m.cells) (dim : Nat)
    (hm : dim ≤ m.dimension) (h3 : dim ≤ 3) (tags : List (Option Int)) (ned : List (List Nat))
    (href : IsRef ned dim) (nc shift : Nat) (D : DoFMap)
    (hb : buildSpaceDofs m dim tags ned nc shift = .ok D) (i : Nat)
    (hi : Tagged m.cells tags dim i)
    (huni : ∀ d ≤ dim, ∃ k, ned[d]? = some (List.replicate (subIdsOf m.cells i d).length k)) :
    ∃ l, D.destinationIndices i = .ok l ∧ l.length = (ned.map List.sum).sum * nc := by
  obtain ⟨l, h1, -, -, -, hlen⟩ := C13_destinations m h hn dim hm h3 tags ned href nc shift D hb i hi
  refine ⟨l, h1, ?_⟩
  rw [hlen]
  have hned : ned.map List.sum = (List.range (dim + 1)).map fun d => ((ned[d]?).getD []).sum := by
    apply List.ext_getElem
    · simp [href.1]
    · intro d hd1 hd2
      simp at hd1
      simp [hd1]
  rw [hned, list_sum_range, Finset.sum_mul]
  apply Finset.sum_congr rfl
  intro d hd
  obtain ⟨k, hk⟩ := huni d (by have := Finset.mem_range.1 hd; omega)
  have hne := href.2 _ (List.mem_of_getElem? hk)
  have hpos : 0 < (subIdsOf m.cells i d).length := by
    rcases Nat.eq_zero_or_pos (subIdsOf m.cells i d).length with h0 | h0
    · rw [h0] at hne; simp at hne
    · exact h0
  simp only [perEntity, hk, List.sum_replicate, List.length_replicate, nsmul_eq_mul, Nat.cast_id,
    Option.getD_some]
  rw [Nat.mul_div_cancel_left _ hpos, Nat.mul_assoc]

/-- C13, rejected cells: ids out of range, and stored cells that were not selected. -/
theorem C13_rejects (m : Mesh) (h : WellFormed m.cells) (dim : Nat) (hm : dim ≤ m.dimension)
    (h3 : dim ≤ 3) (tags : List (Option Int)) (ned : List (List Nat)) (href : IsRef ned dim)
    (nc shift : Nat) (D : DoFMap) (hb : buildSpaceDofs m dim tags ned nc shift = .ok D) (i : Nat) :
    (¬ i < m.cells.length → D.destinationIndices i = .error .indexError) ∧
    (i < m.cells.length → ¬ Tagged m.cells tags dim i →
      D.destinationIndices i = .error .networkXError) := by
  obtain ⟨D', t, sel, hb', hd, hok, hD, hsel, hent⟩ :=
    build_facts m h dim hm h3 tags ned href nc shift
  obtain rfl : D' = D := by rw [hb'] at hb; simpa using hb
  constructor
  · intro hi
    have : cellAt D'.topology.mesh.cells i = .error .indexError := by
      rw [hD.topology, hok.cells_eq, cellAt, List.getElem?_eq_none (by omega)]
    simp [DoFMap.destinationIndices, this]
  · intro hi hno
    obtain ⟨c, hc⟩ := h.filled i hi
    have hid := h.ids i c hc
    subst hid
    have hcell : cellAt D'.topology.mesh.cells c.id = .ok c := by
      rw [hD.topology, hok.cells_eq]; exact cellAt_of_stored hc
    have hnsel : c ∉ sel := fun hcs => hno ⟨c, ((hsel c).1 hcs).1, ((hsel c).1 hcs).2⟩
    simp only [DoFMap.destinationIndices, hcell, Res.bind_ok]
    -- a node that is not a selected cell has successors only if it is a lower entity
    have hnode : ∀ d ≤ dim, ∀ g, t.entityMapByDimension d = .ok g →
        (c.dimension, c.id) ∈ g.nodes → c.dimension = d ∧ d < dim ∧
          g.successors (c.dimension, c.id) = .ok [] := by
      intro d hdd g hg hnode
      obtain ⟨g', hg', hinc⟩ := hok.incidence (d := d) (by omega)
      obtain rfl : g' = g := by rw [hg'] at hg; simpa using hg
      have hnot : ∀ e ∈ g'.edges, e.1 ≠ (c.dimension, c.id) := by
        intro e he heq
        obtain ⟨c', hc', h1, -, -⟩ := hinc.mem_edges.1 he
        rw [h1] at heq
        have hid : c'.id = c.id := congrArg Prod.snd heq
        have hst := (hok.mem c' hc').1
        rw [hid] at hst
        unfold Stored at hst hc
        rw [hc] at hst
        obtain rfl : c = c' := by simpa using hst
        exact hnsel hc'
      obtain ⟨e, he, hne⟩ := hinc.mem_nodes.1 hnode
      obtain ⟨c', hc', h1, h2, h3⟩ := hinc.mem_edges.1 he
      have hcd : c.dimension = d := by
        rcases hne with hne | hne
        · exact absurd hne.symm (hnot e he)
        · rw [← hne] at h2; exact h2
      refine ⟨hcd, ?_, ?_⟩
      · by_contra hcon
        have hdim : d = dim := by omega
        rcases hne with hne | hne
        · exact hnot e he hne.symm
        · -- a sub-entity of full dimension is the cell itself
          have hs := h.self _ c' (hok.mem c' hc').1
          have hc'd := (hok.mem c' hc').2
          rw [hc'd, hd] at hs
          rw [subD, hdim, hs] at h3
          have : e.2.2 = c'.id := by simpa using h3
          rw [← hne] at this
          have hst := (hok.mem c' hc').1
          rw [← this] at hst
          unfold Stored at hst hc
          rw [hc] at hst
          obtain rfl : c = c' := by simpa using hst
          exact hnsel hc'
      · unfold DiGraph.successors
        rw [if_pos hnode]
        congr 1
        rw [List.map_eq_nil_iff, List.filter_eq_nil_iff]
        intro e he hcon
        exact hnot e he (of_decide_eq_true hcon)
    rw [mapRes_error_of (e := .networkXError) _ dim (by rw [hD.dimension, hd]; simp)]
    · rfl
    · intro d hdd
      have hdd : d ≤ dim := by have := List.mem_range.1 hdd; rw [hD.dimension, hd] at this; omega
      obtain ⟨g, hg, -⟩ := hok.incidence (d := d) (by omega)
      rw [hD.topology, hg, Res.bind_ok]
      by_cases hn : (c.dimension, c.id) ∈ g.nodes
      · right
        have := (hnode d hdd g hg hn).2.2
        exact ⟨[], by rw [this]; rfl⟩
      · left
        simp [DiGraph.successors, hn]
    · obtain ⟨g, hg, -⟩ := hok.incidence (d := dim) (by omega)
      rw [hD.topology, hg, Res.bind_ok]
      have hn : (c.dimension, c.id) ∉ g.nodes := fun hn =>
        absurd (hnode dim (Nat.le_refl _) g hg hn).2.1 (Nat.lt_irrefl _)
      simp [DiGraph.successors, hn]

/-- C14: a number is a destination of two selected cells exactly when it is one of the numbers of
an entity they have in common. -/
theorem C14_shared_iff_common_entity (m : Mesh) (h : WellFormed m.cells) (hn : SubNodup m.cells)
    (dim : Nat) (hm : dim ≤ m.dimension) (h3 : dim ≤ 3) (tags : List (Option Int))
    (ned : List (List Nat)) (href : IsRef ned dim) (nc shift : Nat) (D : DoFMap)
    (hb : buildSpaceDofs m dim tags ned nc shift = .ok D) (i k : Nat)
    (hi : Tagged m.cells tags dim i) (hk : Tagged m.cells tags dim k) :
    ∃ l₁ l₂, D.destinationIndices i = .ok l₁ ∧ D.destinationIndices k = .ok l₂ ∧
      ∀ x, (x ∈ l₁ ∧ x ∈ l₂) ↔ ∃ d ≤ dim, ∃ j, SubEntity m.cells i d j ∧
        SubEntity m.cells k d j ∧ x ∈ D.numbers d j := by
  obtain ⟨D', hb', -, huniq, -⟩ := C11_partition m h dim hm h3 tags ned href nc shift
  obtain rfl : D' = D := by rw [hb'] at hb; simpa using hb
  obtain ⟨l₁, e₁, f₁, -⟩ := C13_destinations m h hn dim hm h3 tags ned href nc shift D' hb i hi
  obtain ⟨l₂, e₂, f₂, -⟩ := C13_destinations m h hn dim hm h3 tags ned href nc shift D' hb k hk
  refine ⟨l₁, l₂, e₁, e₂, fun x => ?_⟩
  obtain ⟨c, hc, -, -⟩ := hi
  obtain ⟨c', hc', -, -⟩ := hk
  simp only [subEntity_iff hc, subEntity_iff hc']
  rw [f₁, f₂]
  simp only [List.mem_flatMap, List.mem_range, subIdsOf_eq hc, subIdsOf_eq hc']
  constructor
  · rintro ⟨⟨d, hd, j, hj, hx⟩, ⟨e, he, k, hk, hy⟩⟩
    obtain ⟨rfl, rfl⟩ := huniq d (by omega) e (by omega) j k x hx hy
    exact ⟨d, by omega, j, hj, hk, hx⟩
  · rintro ⟨d, hd, j, hj, hk, hx⟩
    exact ⟨⟨d, by omega, j, hj, hx⟩, ⟨d, by omega, j, hk, hx⟩⟩

/-- C14, discontinuous spaces (the reference element has all its dofs in the interior): different
cells share no number. -/
theorem C14_discontinuous_disjoint (m : Mesh) (h : WellFormed m.cells) (hn : SubNodup m.cells)
    (dim : Nat) (hm : dim ≤ m.dimension) (h3 : dim ≤ 3) (tags : List (Option Int))
    (ned : List (List Nat)) (href : IsRef ned dim)
    (hdisc : ∀ d < dim, ∀ l, ned[d]? = some l → ∀ x ∈ l, x = 0) (nc shift : Nat) (D : DoFMap)
    (hb : buildSpaceDofs m dim tags ned nc shift = .ok D) (i k : Nat) (hik : i ≠ k)
    (hi : Tagged m.cells tags dim i) (hk : Tagged m.cells tags dim k) :
    ∃ l₁ l₂, D.destinationIndices i = .ok l₁ ∧ D.destinationIndices k = .ok l₂ ∧
      ∀ x, ¬ (x ∈ l₁ ∧ x ∈ l₂) := by
  obtain ⟨l₁, l₂, e₁, e₂, hiff⟩ := C14_shared_iff_common_entity m h hn dim hm h3 tags ned href nc
    shift D hb i k hi hk
  obtain ⟨D', t, sel, hb', hd, hok, hD, hsel, hent⟩ :=
    build_facts m h dim hm h3 tags ned href nc shift
  obtain rfl : D' = D := by rw [hb'] at hb; simpa using hb
  refine ⟨l₁, l₂, e₁, e₂, fun x hx => ?_⟩
  obtain ⟨d, hdd, j, hj, hk', hxj⟩ := (hiff x).1 hx
  have hjt : j ∈ idsOf t d := ((hent d hdd).2 j).2 ⟨i, hi, hj⟩
  rw [numbers_eq hD (by omega) hjt] at hxj
  have hpos : 0 < perEntity ned nc d := by
    rw [← block_length (ids := idsOf t) (s := perEntity ned nc) (shift := shift) (j := j)]
    exact List.length_pos_of_mem hxj
  rcases Nat.lt_or_ge d dim with hlt | hge
  · unfold perEntity at hpos
    cases hned : ned[d]? with
    | none => simp [hned] at hpos
    | some l =>
      have hs : l.sum = 0 := List.sum_eq_zero (hdisc d hlt l hned)
      simp [hned, hs] at hpos
  · obtain rfl : d = dim := by omega
    obtain ⟨c, hc, hcd, -⟩ := hi
    obtain ⟨c', hc', hcd', -⟩ := hk
    have s1 := h.self i c hc
    have s2 := h.self k c' hc'
    rw [subEntity_iff hc, subD, ← hcd, s1] at hj
    rw [subEntity_iff hc', subD, ← hcd', s2] at hk'
    simp at hj hk'
    exact hik (hj.symm.trans hk')

/-- C15: the boundary destinations of a facet of a selected cell are the numbers of the facet's
own entities, by dimension and in the facet's local order, without repetition, and all of them are
destinations of the cell. -/
theorem C15_boundary_destinations (m : Mesh) (h : WellFormed m.cells) (hn : SubNodup m.cells)
    (hcl : SubClosed m.cells) (dim : Nat) (hm : dim ≤ m.dimension) (h3 : dim ≤ 3)
    (tags : List (Option Int)) (ned : List (List Nat)) (href : IsRef ned dim) (nc shift : Nat)
    (D : DoFMap) (hb : buildSpaceDofs m dim tags ned nc shift = .ok D) (i j : Nat)
    (hdim : 1 ≤ dim) (hi : Tagged m.cells tags dim i) (hj : SubEntity m.cells i (dim - 1) j) :
    ∃ l b, D.destinationIndices i = .ok l ∧ D.bcDestinationIndices i j = .ok b ∧
      b = (List.range dim).flatMap (fun d => (subIdsOf m.cells j d).flatMap (D.numbers d)) ∧
      b.Nodup ∧ (∀ x ∈ b, x ∈ l) ∧
      b.length = ∑ d ∈ Finset.range dim, (subIdsOf m.cells j d).length * perEntity ned nc d := by
  obtain ⟨D', t, sel, hb', hd, hok, hD, hsel, hent⟩ :=
    build_facts m h dim hm h3 tags ned href nc shift
  obtain rfl : D' = D := by rw [hb'] at hb; simpa using hb
  obtain ⟨l, hl, hleq, -⟩ := C13_destinations m h hn dim hm h3 tags ned href nc shift D' hb i hi
  obtain ⟨c, hc, hcd, hmat⟩ := hi
  have hid := h.ids i c hc
  subst hid
  have hcs := (hsel c).2 ⟨hc, hcd, hmat⟩
  have hjc := (subEntity_iff hc).1 hj
  have hcsub := subD_eq h hc (t := dim - 1) (by omega)
  obtain ⟨f, hf, hfd⟩ := h.subOk c.id c hc _ _ hcsub j hjc
  have hfid := h.ids j f hf
  subst hfid
  have hall : ∀ d < dim, ∀ x ∈ subD f d, x ∈ subD c d := by
    intro d hdd
    obtain ⟨ids, hids, hin⟩ := hcl c.id c f.id f hc hf ⟨_, List.mem_of_getElem? hcsub, hjc⟩ d _
      (subD_eq h hf (t := d) (by omega))
    intro x hx
    have := hin x hx
    rwa [subD, hids]
  have hin : ∀ d < dim, ∀ j ∈ subD f d, j ∈ idsOf t d := by
    intro d hdd j hj
    exact ((hok.entities (d := d) (by omega)).2.2 j).2 ⟨c, hcs, hall d hdd j hj⟩
  have hbc := bcDestination_ok hok hn hcl (by rw [hd]; exact href) hD hcs hf (by omega)
    (by rw [hfd]; exact hjc)
  rw [hd] at hbc
  have hbeq : ((List.range dim).flatMap fun d =>
      (subD f d).flatMap (block (idsOf t) (perEntity ned nc) shift d)) =
      (List.range dim).flatMap (fun d => (subIdsOf m.cells f.id d).flatMap (D'.numbers d)) := by
    apply List.flatMap_congr
    intro d hdd
    have hdd := List.mem_range.1 hdd
    rw [subIdsOf_eq hf]
    apply List.flatMap_congr
    intro j hj
    exact (numbers_eq hD (by omega) (hin d hdd j hj)).symm
  refine ⟨l, _, hl, hbc, hbeq, ?_, ?_, ?_⟩
  · apply flatMap_blocks_nodup
    intro d hdd
    exact ⟨hn _ f hf _ (List.mem_of_getElem? (subD_eq h hf (by omega))), hin d hdd⟩
  · intro x hx
    rw [hbeq] at hx
    rw [hleq]
    simp only [List.mem_flatMap, List.mem_range, subIdsOf_eq hc, subIdsOf_eq hf] at hx ⊢
    obtain ⟨d, hdd, j, hj, hx⟩ := hx
    exact ⟨d, by omega, j, hall d hdd j hj, hx⟩
  · rw [List.length_flatMap, list_sum_range]
    apply Finset.sum_congr rfl
    intro d _
    rw [flatMap_block_length, subIdsOf_eq hf]

/-- C15, spaces of dimension 0 have no boundary destinations: `np.concatenate` of nothing. -/
theorem C15_points_rejected (D : DoFMap) (hD : D.dimension = 0) (i j : Nat) (c b : Cell)
    (hc : Stored D.topology.mesh.cells i c) (hb : Stored D.topology.mesh.cells j b) :
    D.bcDestinationIndices i j = .error .valueError := by
  simp [DoFMap.bcDestinationIndices, cellAt_of_stored hc, cellAt_of_stored hb, hD, mapRes]
  rfl

/-! ### The hypotheses are satisfiable: P2 with two components on a triangle -/

example : IsRef [[1, 1, 1], [1, 1, 1], [0]] 2 := ⟨rfl, by decide⟩

/-- vertices 0,1,2, edges 3,4,5 and the triangle 6; two numbers per vertex and edge; shift 10 -/
example : ∃ D, buildSpaceDofs ⟨2, exampleCells⟩ 2 [some 1] [[1, 1, 1], [1, 1, 1], [0]] 2 10 = .ok D ∧
    D.nDof = 12 ∧
    D.destinationIndices 6 = .ok [10, 11, 12, 13, 14, 15, 16, 17, 18, 19, 20, 21] ∧
    D.bcDestinationIndices 6 5 = .ok [12, 13, 10, 11, 20, 21] ∧
    D.destinationIndices 5 = .error .networkXError ∧
    D.destinationIndices 9 = .error .indexError := ⟨_, rfl, rfl, rfl, rfl, rfl, rfl⟩

example : Tagged exampleCells [some 1] 2 6 ∧ SubEntity exampleCells 6 (2 - 1) 5 :=
  ⟨⟨_, rfl, rfl, by decide⟩, _, rfl, _, rfl, by decide⟩

#print axioms C11_blocks_tile
#print axioms C11_partition
#print axioms C12_dof_number
#print axioms C12_rejects
#print axioms C13_destinations
#print axioms C13_length
#print axioms C13_rejects
#print axioms C14_shared_iff_common_entity
#print axioms C14_discontinuous_disjoint
#print axioms C15_boundary_destinations
#print axioms C15_points_rejected

end Verif.Dof
