/-
Property theorems C07-C09: incidence graphs (src/mesh/mesh.py:639-711), `MeshTopology`
(src/mesh/mesh_topology.py) and topological queries (src/mesh/topological_queries.py).
-/
import Verif.Lemmas.Topology
import Verif.Lemmas.MeshWF
import Verif.Props.Mesh

namespace Verif.MeshGraph
open MeshBuild

/-- Meshes built by `build_conformal_mesh` are well-formed, so that the theorems below apply to
them, whenever no slot is left empty. -/
theorem built_wellFormed (f : MeshFile) (cells : Cells) (h : buildConformalMesh f = .ok cells)
    (hp : ∀ n < f.nPoints, ∃ p ∈ f.tagged, n ∈ p.1)
    (hs : ∀ s ∈ f.simplices, 2 ≤ s.length → ∃ p ∈ f.tagged, s.Subperm p.1) :
    WellFormed cells ∧ SubClosed cells ∧ ((∀ p ∈ f.tagged, p.1.Nodup) → SubNodup cells) :=
  ⟨wellFormed_of_build h ((C04_every_slot_filled_partial f cells h).2 ⟨hp, hs⟩),
    subClosed_of_build h, subNodup_of_build h⟩

/-- C07 for `build_graph`. -/
theorem C07_build_graph (m : Mesh) (h : WellFormed m.cells) (dim co : Nat) :
    (co ≤ dim → ∃ g, buildGraph m dim co = .ok g ∧
      IsSubEntityGraph m.cells (HasDim m.cells dim) dim (dim - co) g) ∧
    (dim < co → (∃ i, HasDim m.cells dim i) → buildGraph m dim co = .error .valueError) := by
  obtain ⟨cs, hcs⟩ := h.eq_map
  have := select_graph h (arr := cs) (fun c => c.dimension == dim) (p := fun _ => True) dim co
    (fun c => by simpa using arr_cond h hcs dim (fun _ => true) (fun _ => True) (by simp) c)
  rw [← hcs] at this
  simpa [buildGraph] using this

/-- C07 for `build_graph_on_physical_tags`. -/
theorem C07_build_graph_on_physical_tags (m : Mesh) (h : WellFormed m.cells)
    (tags : List (Option Int)) (dim co : Nat) :
    (co ≤ dim → ∃ g, buildGraphOnPhysicalTags m tags dim co = .ok g ∧
      IsSubEntityGraph m.cells (Tagged m.cells tags dim) dim (dim - co) g) ∧
    (dim < co → (∃ i, Tagged m.cells tags dim i) →
      buildGraphOnPhysicalTags m tags dim co = .error .valueError) := by
  obtain ⟨cs, hcs⟩ := h.eq_map
  have := select_graph h (arr := cs)
    (fun c => c.dimension == dim && tags.contains c.material)
    (p := fun i => ∃ c, Stored m.cells i c ∧ c.material ∈ tags) dim co
    (arr_cond h hcs dim (fun c => tags.contains c.material)
      (fun i => ∃ c, Stored m.cells i c ∧ c.material ∈ tags) (fun c hc => by
      simp only [List.contains_iff_mem]
      constructor
      · intro hm; exact ⟨c, hc, hm⟩
      · rintro ⟨c', hc', hm⟩
        unfold Stored at hc hc'; rw [hc] at hc'
        obtain rfl : c = c' := by simpa using hc'
        exact hm))
  rw [← hcs] at this
  have heq : (fun i => HasDim m.cells dim i ∧ ∃ c, Stored m.cells i c ∧ c.material ∈ tags)
      = Tagged m.cells tags dim := by
    funext i
    apply propext
    constructor
    · rintro ⟨⟨c, hc, hd⟩, c', hc', hm⟩
      unfold Stored at hc hc'; rw [hc] at hc'
      obtain rfl : c = c' := by simpa using hc'
      exact ⟨c, hc, hd, hm⟩
    · rintro ⟨c, hc, hd, hm⟩
      exact ⟨⟨c, hc, hd⟩, c, hc, hm⟩
  rw [heq] at this
  exact this

/-- C07 for `build_graph_from_cell_ids`: the ids may repeat; a list that is not an array, or an id
out of range, is rejected. -/
theorem C07_build_graph_from_cell_ids (m : Mesh) (h : WellFormed m.cells) (ids : List Nat)
    (dim co : Nat) :
    (co ≤ dim → (∀ i ∈ ids, i < m.cells.length) →
      ∃ g, buildGraphFromCellIds m true ids dim co = .ok g ∧
        IsSubEntityGraph m.cells (fun i => HasDim m.cells dim i ∧ i ∈ ids) dim (dim - co) g) ∧
    ((∃ i ∈ ids, ¬ i < m.cells.length) →
      buildGraphFromCellIds m true ids dim co = .error .indexError) ∧
    buildGraphFromCellIds m false ids dim co = .error .valueError := by
  refine ⟨?_, ?_, rfl⟩
  · intro hco hb
    obtain ⟨cs, h1, h2⟩ := fancyIndex_filled h ids hb
    have := (select_graph h (arr := cs) (fun c => c.dimension == dim) (p := fun i => i ∈ ids)
      dim co (fun c => by
        rw [h2]; simp only [beq_iff_eq]
        constructor
        · rintro ⟨⟨a, b⟩, c⟩; exact ⟨a, c, b⟩
        · rintro ⟨a, c, b⟩; exact ⟨⟨a, b⟩, c⟩)).1 hco
    simpa [buildGraphFromCellIds, h1] using this
  · intro hb
    simp [buildGraphFromCellIds, fancyIndex_out ids hb]

/-- C07 for `build_graph_on_materials`. -/
theorem C07_build_graph_on_materials (m : Mesh) (h : WellFormed m.cells) (dim co : Nat)
    (hco : co ≤ dim) :
    ∃ g, buildGraphOnMaterials m dim co = .ok g ∧
      IsSubEntityGraph m.cells
        (fun i => ∃ c, Stored m.cells i c ∧ c.dimension = dim ∧ ∃ t, c.material = some t)
        dim (dim - co) g := by
  obtain ⟨cs, hcs⟩ := h.eq_map
  have := (select_graph h (arr := cs)
    (fun c => c.dimension == dim && c.material.isSome)
    (p := fun i => ∃ c, Stored m.cells i c ∧ ∃ t, c.material = some t) dim co
    (arr_cond h hcs dim (fun c => c.material.isSome)
      (fun i => ∃ c, Stored m.cells i c ∧ ∃ t, c.material = some t) (fun c hc => by
      rw [Option.isSome_iff_exists]
      constructor
      · intro hm; exact ⟨c, hc, hm⟩
      · rintro ⟨c', hc', hm⟩
        unfold Stored at hc hc'; rw [hc] at hc'
        obtain rfl : c = c' := by simpa using hc'
        exact hm))).1 hco
  rw [← hcs] at this
  obtain ⟨g, h1, h2⟩ := this
  refine ⟨g, h1, ?_⟩
  convert h2 using 2
  rename_i i
  constructor
  · rintro ⟨c, hc, hd, hm⟩
    exact ⟨⟨c, hc, hd⟩, c, hc, hm⟩
  · rintro ⟨⟨c, hc, hd⟩, c', hc', hm⟩
    unfold Stored at hc hc'; rw [hc] at hc'
    obtain rfl : c = c' := by simpa using hc'
    exact ⟨c, hc, hd, hm⟩

/-- C07, codimension 0: the graph has exactly one self loop per selected cell. -/
theorem C07_codimension_zero (cells : Cells) (h : WellFormed cells) (sel : Nat → Prop)
    (dim : Nat) (hsel : ∀ i, sel i → HasDim cells dim i) (g : DiGraph Node)
    (hg : IsSubEntityGraph cells sel dim (dim - 0) g) (u v : Node) :
    (u, v) ∈ g.edges ↔ u = v ∧ ∃ i, u = (dim, i) ∧ sel i := by
  rw [hg.edges]
  constructor
  · rintro ⟨i, j, rfl, rfl, hi, hs⟩
    obtain ⟨c, hc, hd⟩ := hsel i hi
    have h1 := (subEntity_iff hc).1 hs
    have h2 := h.self i c hc
    rw [hd] at h2
    simp only [subD, Nat.sub_zero, h2] at h1
    have : j = i := by simpa using h1
    subst this
    exact ⟨rfl, j, rfl, hi⟩
  · rintro ⟨rfl, i, rfl, hi⟩
    obtain ⟨c, hc, hd⟩ := hsel i hi
    refine ⟨i, i, rfl, rfl, hi, c, hc, [i], ?_, by simp⟩
    have h2 := h.self i c hc
    rw [hd] at h2; exact h2

/-- C07, meshes with an empty slot: no graph is built. -/
theorem C07_empty_slot_rejected (m : Mesh) (tags : List (Option Int)) (dim co : Nat)
    (h : none ∈ m.cells) :
    buildGraph m dim co = .error .attributeError ∧
    buildGraphOnPhysicalTags m tags dim co = .error .attributeError ∧
    buildGraphOnMaterials m dim co = .error .attributeError := by
  simp [buildGraph, buildGraphOnPhysicalTags, buildGraphOnMaterials,
    selectCells_empty_slot _ _ h]

/-! ### C08 -/

/-- C08: construction is rejected exactly when the topology's dimension exceeds the mesh's. -/
theorem C08_topology_dimension (m : Mesh) (dim : Nat) :
    (m.dimension < dim → Topology.new m dim = .error .valueError) ∧
    (dim ≤ m.dimension → Topology.new m dim = .ok ⟨m, dim, [], []⟩) := by
  constructor
  · intro h; rw [Topology.new, if_pos h]
  · intro h; rw [Topology.new, if_neg (by omega)]

/-- C08: `entities_by_dimension` after `build_data_on_pysical_tags` (whatever was built before). -/
theorem C08_entities_on_tags (t : Topology) (h : WellFormed t.mesh.cells)
    (tags : List (Option Int)) :
    ∃ t', t.buildDataOnTags tags = .ok t' ∧
      (∀ d ≤ t.dimension, ∃ ids, t'.entitiesByDimension d = .ok ids ∧ ids.Nodup ∧
        ∀ j, j ∈ ids ↔ ∃ i, Tagged t.mesh.cells tags t.dimension i ∧
          SubEntity t.mesh.cells i d j) ∧
      ∀ d, t.dimension < d → t'.entitiesByDimension d = .error .valueError := by
  obtain ⟨sel, t', hb, hm, hd, hok, hsel⟩ := buildDataOnTags_ok h t rfl tags
  refine ⟨t', hb, ?_, ?_⟩
  · intro d hdd
    obtain ⟨h1, h2, h3⟩ := hok.entities (d := d) (by omega)
    refine ⟨_, h1, h2, fun j => ?_⟩
    rw [h3]
    constructor
    · rintro ⟨c, hc, hj⟩
      have hs := (hsel c).1 hc
      exact ⟨c.id, ⟨c, hs.1, hs.2.1, hs.2.2⟩, (subEntity_iff hs.1).2 hj⟩
    · rintro ⟨i, ⟨c, hc, hcd, hmat⟩, hs⟩
      have hi := h.ids i c hc
      subst hi
      exact ⟨c, (hsel c).2 ⟨hc, hcd, hmat⟩, (subEntity_iff hc).1 hs⟩
  · intro d hdd
    unfold Topology.entitiesByDimension
    rw [if_pos (by omega)]

/-- C08: the same after `build_data`, with all cells of the topology's dimension. -/
theorem C08_entities (t : Topology) (h : WellFormed t.mesh.cells) :
    ∃ t', t.buildData = .ok t' ∧
      (∀ d ≤ t.dimension, ∃ ids, t'.entitiesByDimension d = .ok ids ∧ ids.Nodup ∧
        ∀ j, j ∈ ids ↔ ∃ i, HasDim t.mesh.cells t.dimension i ∧ SubEntity t.mesh.cells i d j) ∧
      ∀ d, t.dimension < d → t'.entitiesByDimension d = .error .valueError := by
  obtain ⟨sel, t', hb, hm, hd, hok, hsel⟩ := buildData_ok h t rfl
  refine ⟨t', hb, ?_, ?_⟩
  · intro d hdd
    obtain ⟨h1, h2, h3⟩ := hok.entities (d := d) (by omega)
    refine ⟨_, h1, h2, fun j => ?_⟩
    rw [h3]
    constructor
    · rintro ⟨c, hc, hj⟩
      have hs := (hsel c).1 hc
      exact ⟨c.id, ⟨c, hs.1, hs.2⟩, (subEntity_iff hs.1).2 hj⟩
    · rintro ⟨i, ⟨c, hc, hcd⟩, hs⟩
      have hi := h.ids i c hc
      subst hi
      exact ⟨c, (hsel c).2 ⟨hc, hcd⟩, (subEntity_iff hc).1 hs⟩
  · intro d hdd
    unfold Topology.entitiesByDimension
    rw [if_pos (by omega)]

/-! ### C09 -/

/-- C09: the higher neighbours of a stored cell are the selected cells that have it among their
sub-entities; a cell that is no sub-entity of a selected one, or of larger dimension, is
rejected. -/
theorem C09_higher_neighbours (t t' : Topology) (h : WellFormed t.mesh.cells)
    (tags : List (Option Int)) (hb : t.buildDataOnTags tags = .ok t') (j : Nat) (c : Cell)
    (hc : Stored t.mesh.cells j c) :
    ((∃ i, Tagged t.mesh.cells tags t.dimension i ∧ SubEntity t.mesh.cells i c.dimension j) →
      ∃ l, findHigherNeighs c t' = .ok l ∧ l.Nodup ∧
        ∀ n, n ∈ l ↔ ∃ i, n = (t.dimension, i) ∧ Tagged t.mesh.cells tags t.dimension i ∧
          SubEntity t.mesh.cells i c.dimension j) ∧
    (c.dimension ≤ t.dimension →
      (¬ ∃ i, Tagged t.mesh.cells tags t.dimension i ∧ SubEntity t.mesh.cells i c.dimension j) →
      findHigherNeighs c t' = .error .networkXError) ∧
    (t.dimension < c.dimension → findHigherNeighs c t' = .error .indexError) := by
  obtain ⟨sel, t'', hb', hm, hd, hok, hsel⟩ := buildDataOnTags_ok h t rfl tags
  obtain rfl : t'' = t' := by rw [hb'] at hb; simpa using hb
  have hcid := h.ids j c hc
  have key : ∀ i, (Tagged t.mesh.cells tags t.dimension i ∧
      SubEntity t.mesh.cells i c.dimension j) ↔ ∃ c' ∈ sel, c'.id = i ∧ j ∈ subD c' c.dimension := by
    intro i
    constructor
    · rintro ⟨⟨c', hc', hcd, hmat⟩, hs⟩
      have hi := h.ids i c' hc'
      subst hi
      exact ⟨c', (hsel c').2 ⟨hc', hcd, hmat⟩, rfl, (subEntity_iff hc').1 hs⟩
    · rintro ⟨c', hc', rfl, hj⟩
      have hs := (hsel c').1 hc'
      exact ⟨⟨c', hs⟩, (subEntity_iff hs.1).2 hj⟩
  simp only [key]
  refine ⟨?_, ?_, ?_⟩
  · rintro ⟨i, c', hc', hi, hj⟩
    have hle : c.dimension ≤ t''.dimension := by
      have hl := h.subLen _ _ ((hsel c').1 hc').1
      rw [((hsel c').1 hc').2.1] at hl
      rw [hd]
      by_contra hcon
      rw [subD, List.getElem?_eq_none (by omega)] at hj
      simp at hj
    obtain ⟨g, hg, hinc⟩ := hok.incidence hle
    obtain ⟨l, h1, h2, h3⟩ := hinc.predecessors ⟨c', hc', hj⟩
    refine ⟨l, ?_, h2, fun n => ?_⟩
    · simp only [findHigherNeighs, hg, Res.bind_ok, hcid, h1]
    · rw [h3, hd]
      constructor
      · rintro ⟨a, ha, hn, hja⟩; exact ⟨a.id, hn, a, ha, rfl, hja⟩
      · rintro ⟨i, hn, a, ha, rfl, hja⟩; exact ⟨a, ha, hn, hja⟩
  · intro hle hno
    obtain ⟨g, hg, hinc⟩ := hok.incidence (d := c.dimension) (by omega)
    have hnot : (c.dimension, j) ∉ g.nodes := by
      intro hn
      obtain ⟨e, he, hne⟩ := hinc.mem_nodes.1 hn
      obtain ⟨c', hc', h1, h2, h3⟩ := hinc.mem_edges.1 he
      apply hno
      rcases hne with hne | hne
      · rw [h1] at hne
        have e1 : c.dimension = t''.dimension := congrArg Prod.fst hne
        have e2 : j = c'.id := congrArg Prod.snd hne
        refine ⟨_, c', hc', rfl, ?_⟩
        have hs := h.self _ c' (hok.mem c' hc').1
        rw [(hok.mem c' hc').2, ← e1, ← e2] at hs
        simp [subD, hs]
      · refine ⟨_, c', hc', rfl, ?_⟩
        rw [← hne] at h3; exact h3
    simp only [findHigherNeighs, hg, Res.bind_ok, hcid, DiGraph.predecessors, hnot, if_false]
  · intro hlt
    have : t''.entityMapByDimension c.dimension = .error .indexError := by
      unfold Topology.entityMapByDimension getIdx
      rw [List.getElem?_eq_none (by rw [hok.maps_len]; omega)]
    simp [findHigherNeighs, this]

/-- C56 as stated is false: the "lower dimension neighbours" of a selected cell are the cell
itself, and an entity of lower dimension has none, because the graph searched is the one between
the topology's cells and the entities of the cell's own dimension. -/
theorem C56_lower_neighbours_are_self_or_none_partial (t t' : Topology) (h : WellFormed t.mesh.cells)
    (tags : List (Option Int)) (hb : t.buildDataOnTags tags = .ok t') (j : Nat) (c : Cell)
    (hc : Stored t.mesh.cells j c) :
    (Tagged t.mesh.cells tags t.dimension j →
      findLowerNeighs c t' = .ok [(c.dimension, j)]) ∧
    (c.dimension < t.dimension →
      (∃ i, Tagged t.mesh.cells tags t.dimension i ∧ SubEntity t.mesh.cells i c.dimension j) →
      findLowerNeighs c t' = .ok []) := by
  obtain ⟨sel, t'', hb', hm, hd, hok, hsel⟩ := buildDataOnTags_ok h t rfl tags
  obtain rfl : t'' = t' := by rw [hb'] at hb; simpa using hb
  have hcid := h.ids j c hc
  subst hcid
  constructor
  · rintro ⟨c', hc', hcd, hmat⟩
    obtain rfl : c' = c := by
      unfold Stored at hc hc'; rw [hc] at hc'; simpa using hc'.symm
    have hmem := (hsel c').2 ⟨hc', hcd, hmat⟩
    obtain ⟨g, hg, hinc⟩ := hok.incidence (d := c'.dimension) (by omega)
    have hs := h.self _ c' hc
    have hsub : subD c' c'.dimension = [c'.id] := by simp [subD, hs]
    have := hinc.successors hmem (by rw [hsub]; simp)
    rw [hd, ← hcd] at this
    simp only [findLowerNeighs, hg, Res.bind_ok, this, hsub]
    rfl
  · rintro hlt ⟨i, ⟨c', hc', hcd, hmat⟩, hs⟩
    obtain ⟨g, hg, hinc⟩ := hok.incidence (d := c.dimension) (by omega)
    have hi := h.ids i c' hc'
    subst hi
    have hmem := (hsel c').2 ⟨hc', hcd, hmat⟩
    have hn : (c.dimension, c.id) ∈ g.nodes :=
      hinc.mem_nodes.2 ⟨((t''.dimension, c'.id), (c.dimension, c.id)),
        hinc.mem_edges.2 ⟨c', hmem, rfl, rfl, (subEntity_iff hc').1 hs⟩, .inr rfl⟩
    simp only [findLowerNeighs, hg, Res.bind_ok, DiGraph.successors, hn, if_true]
    congr 1
    rw [List.map_eq_nil_iff, List.filter_eq_nil_iff]
    intro e he hcon
    obtain ⟨a, ha, h1, -, -⟩ := hinc.mem_edges.1 he
    have hcon := of_decide_eq_true hcon
    rw [h1] at hcon
    have : t''.dimension = c.dimension := congrArg Prod.fst hcon
    omega

/-! ### The hypotheses are satisfiable -/

/-- A triangle (tag 1) with a tagged edge (tag 2): well-formed, as built. -/
def exampleTriangle : MeshFile := ⟨3, [.line [(1, 0)] [2], .triangle [(0, 1, 2)] [1]]⟩

/-- The cells built from it. -/
def exampleCells : Cells :=
  [some ⟨0, 0, none, [0], [[0]]⟩, some ⟨0, 1, none, [1], [[1]]⟩, some ⟨0, 2, none, [2], [[2]]⟩,
   some ⟨1, 3, none, [1, 2], [[1, 2], [3]]⟩, some ⟨1, 4, none, [0, 2], [[0, 2], [4]]⟩,
   some ⟨1, 5, some 2, [1, 0], [[1, 0], [5]]⟩,
   some ⟨2, 6, some 1, [0, 1, 2], [[0, 1, 2], [3, 4, 5], [6]]⟩]

theorem exampleCells_built : buildConformalMesh exampleTriangle = .ok exampleCells := rfl

theorem exampleCells_wf : WellFormed exampleCells ∧ SubClosed exampleCells ∧
    SubNodup exampleCells := by
  have h := built_wellFormed exampleTriangle exampleCells exampleCells_built
    (by decide) (by
      intro s hs h2
      simp only [exampleTriangle, MeshFile.simplices, Block.simplices, List.flatMap_cons,
        List.flatMap_nil, List.map_cons, List.map_nil, List.append_nil, List.cons_append,
        List.nil_append, List.mem_cons, List.not_mem_nil, or_false] at hs
      rcases hs with rfl | rfl
      · exact ⟨([0, 1, 2], 1), by decide, by decide⟩
      · exact ⟨([0, 1, 2], 1), by decide, by decide⟩)
  exact ⟨h.1, h.2.1, h.2.2 (by decide)⟩

example : ∃ g, buildGraph ⟨2, exampleCells⟩ 2 1 = .ok g ∧
    g.edges = [((2, 6), (1, 3)), ((2, 6), (1, 4)), ((2, 6), (1, 5))] := ⟨_, rfl, rfl⟩
example : buildGraph ⟨2, exampleCells⟩ 2 3 = .error .valueError := rfl
example : ∃ t', Topology.buildDataOnTags ⟨⟨2, exampleCells⟩, 2, [], []⟩ [some 1] = .ok t' ∧
    t'.entitiesByDimension 1 = .ok [3, 4, 5] := ⟨_, rfl, rfl⟩
example : ∃ t', Topology.buildDataOnTags ⟨⟨2, exampleCells⟩, 2, [], []⟩ [some 1] = .ok t' ∧
    findHigherNeighs ⟨1, 5, some 2, [1, 0], [[1, 0], [5]]⟩ t' = .ok [(2, 6)] ∧
    findLowerNeighs ⟨2, 6, some 1, [0, 1, 2], [[0, 1, 2], [3, 4, 5], [6]]⟩ t' = .ok [(2, 6)] :=
  ⟨_, rfl, rfl, rfl⟩
example : ∃ t', Topology.buildDataOnTags ⟨⟨2, exampleCells⟩, 2, [], []⟩ [some 9] = .ok t' ∧
    findHigherNeighs ⟨1, 5, some 2, [1, 0], [[1, 0], [5]]⟩ t' = .error .networkXError :=
  ⟨_, rfl, rfl⟩

/-- C56, concrete violation: edge 3 is a lower dimensional entity of triangle 6, but it is not
among the triangle's "lower dimension neighbours". -/
theorem C56_lower_neighbours_violated :
    ∃ t', Topology.buildDataOnTags ⟨⟨2, exampleCells⟩, 2, [], []⟩ [some 1] = .ok t' ∧
      Stored exampleCells 6 ⟨2, 6, some 1, [0, 1, 2], [[0, 1, 2], [3, 4, 5], [6]]⟩ ∧
      SubEntity exampleCells 6 1 3 ∧
      ∃ l, findLowerNeighs ⟨2, 6, some 1, [0, 1, 2], [[0, 1, 2], [3, 4, 5], [6]]⟩ t' = .ok l ∧
        (1, 3) ∉ l :=
  ⟨_, rfl, rfl, ⟨_, rfl, _, rfl, by simp⟩, _, rfl, by decide⟩

#print axioms C56_lower_neighbours_violated
#print axioms C07_build_graph
#print axioms C07_build_graph_on_physical_tags
#print axioms C07_build_graph_from_cell_ids
#print axioms C07_build_graph_on_materials
#print axioms C07_codimension_zero
#print axioms C07_empty_slot_rejected
#print axioms C08_topology_dimension
#print axioms C08_entities_on_tags
#print axioms C08_entities
#print axioms C09_higher_neighbours
#print axioms C56_lower_neighbours_are_self_or_none_partial

end Verif.MeshGraph
