/-
Lemmas about the description of a fracture network for gmsh.
-/
import Verif.Spec.BoxNetwork
import Verif.Lemmas.Builder

namespace Verif.Builder
open MeshGraph Mesher Trace
variable {P : Type}

/-- A cell after the shift. -/
def shifted (points cells : Nat) (d : GCell) : GCell := { d with
  id := d.id + cells
  pointId := if d.dimension = 0 then d.pointId.map (· + points) else d.pointId }

theorem shift_get {net : Network P} {i : Nat} {d : GCell} (h : net.cells[i]? = some d)
    (points cells : Nat) :
    (net.shift points cells).cells[i]? = some (shifted points cells d) := by
  unfold Network.shift
  rw [List.getElem?_map, h]
  rfl

namespace Fine
variable {net : Network P} {off first : Nat}

theorem shift (h : Fine net 0 0) (points cells : Nat) : Fine (net.shift points cells) cells points := by
  have get : ∀ {i : Nat} {c}, (net.shift points cells).cells[i]? = some c →
      ∃ d, net.cells[i]? = some d ∧ c = { d with
        id := d.id + cells
        pointId := if d.dimension = 0 then d.pointId.map (· + points) else d.pointId } := by
    intro i c hc
    unfold Network.shift at hc
    rw [List.getElem?_map, Option.map_eq_some_iff] at hc
    obtain ⟨d, hd, rfl⟩ := hc
    exact ⟨d, hd, rfl⟩
  have mem : ∀ {c}, c ∈ (net.shift points cells).cells → ∃ d ∈ net.cells, c = { d with
        id := d.id + cells
        pointId := if d.dimension = 0 then d.pointId.map (· + points) else d.pointId } := by
    intro c hc
    obtain ⟨d, hd, rfl⟩ := List.mem_map.1 hc
    exact ⟨d, hd, rfl⟩
  have isV : ∀ {i}, IsVertex (net.shift points cells).cells i ↔ IsVertex net.cells i := by
    intro i
    constructor
    · rintro ⟨c, hc, h0⟩
      obtain ⟨d, hd, rfl⟩ := get hc
      exact ⟨d, hd, h0⟩
    · rintro ⟨c, hc, h0⟩
      exact ⟨_, shift_get hc points cells, h0⟩
  refine ⟨?_, ?_, ?_, ?_, ?_, ?_, ?_⟩
  · intro i c hc
    obtain ⟨d, hd, rfl⟩ := get hc
    simp only [h.ids i d hd]
    omega
  · intro c hc
    obtain ⟨d, hd, rfl⟩ := mem hc
    exact h.tagged d hd
  · intro c hc h0
    obtain ⟨d, hd, rfl⟩ := mem hc
    obtain ⟨h1, h2, k, h3, h4, h5⟩ := h.vertex d hd h0
    refine ⟨h1, h2, k + points, ?_, by omega, ?_⟩
    · simp only [show d.dimension = 0 from h0, if_true, h3, Option.map_some]
    · have : (net.shift points cells).points = net.points := rfl
      rw [this]; omega
  · intro c hc h0
    obtain ⟨d, hd, rfl⟩ := mem hc
    obtain ⟨h1, b, e, h2, h3, h4⟩ := h.edge d hd h0
    exact ⟨h1, b, e, h2, isV.2 h3, isV.2 h4⟩
  · intro c hc j hj
    obtain ⟨d, hd, rfl⟩ := mem hc
    obtain ⟨e, he, h1, h2⟩ := h.parts d hd j hj
    exact ⟨_, shift_get he points cells, h1, h2⟩
  · have : allParts (net.shift points cells).cells = allParts net.cells := by
      unfold allParts Network.shift
      rw [List.flatMap_map]
    rw [this]; exact h.once
  · intro i hi
    obtain ⟨c, hc, h1⟩ := h.used i (isV.1 hi)
    exact ⟨_, List.mem_map.2 ⟨c, hc, rfl⟩, h1⟩

theorem pos (h : Fine net off first) {c : GCell} (hc : c ∈ net.cells) :
    net.cells[c.id - off]? = some c ∧ c.id - off + off = c.id := by
  obtain ⟨i, hi⟩ := List.getElem?_of_mem hc
  rw [h.ids i c hi]
  simp only [Nat.add_sub_cancel]
  exact ⟨hi, trivial⟩

theorem refs_edge (h : Fine net off first) {c : GCell} (hc : c ∈ net.cells) (h1 : c.refs ≠ []) :
    c.dimension = 1 := by
  by_cases h0 : c.dimension = 0
  · obtain ⟨h2, h3, -⟩ := h.vertex c hc h0
    simp [GCell.refs, h2, h3] at h1
  · exact (h.edge c hc h0).1

/-- The rank of a cell: vertices, whole edges, divided edges. -/
def rank (cells : List GCell) (i : Nat) : Nat :=
  match cells[i]? with
  | some c => if c.dimension = 0 then 0 else if c.immersed = [] then 1 else 2
  | none => 0

theorem layered (h : Fine net 0 first) : Layered (rank net.cells) net.cells := by
  refine ⟨fun i c hc => by simpa using h.ids i c hc, ?_, ?_, ?_⟩
  · intro i c hc j hj
    have hmem := List.mem_of_getElem? hc
    have h1 := h.refs_edge hmem (List.ne_nil_of_mem hj)
    obtain ⟨-, b, e, h2, hb, he⟩ := h.edge c hmem (by omega)
    have hr : 1 ≤ rank net.cells i := by
      unfold rank
      rw [hc]
      dsimp only
      rw [if_neg (by omega)]
      split <;> omega
    have vert : ∀ k, IsVertex net.cells k → k < net.cells.length ∧ rank net.cells k = 0 := by
      rintro k ⟨d, hd, h0⟩
      refine ⟨(List.getElem?_eq_some_iff.1 hd).1, ?_⟩
      unfold rank
      rw [hd]
      simp [h0]
    rcases List.mem_append.1 hj with hj | hj
    · rw [h2] at hj
      simp only [List.mem_cons, List.not_mem_nil, or_false] at hj
      rcases hj with rfl | rfl
      · obtain ⟨h3, h4⟩ := vert _ hb
        exact ⟨h3, by omega⟩
      · obtain ⟨h3, h4⟩ := vert _ he
        exact ⟨h3, by omega⟩
    · obtain ⟨d, hd, h3, h4⟩ := h.parts c hmem j hj
      refine ⟨(List.getElem?_eq_some_iff.1 hd).1, ?_⟩
      unfold rank
      rw [hd, hc]
      dsimp only
      rw [if_neg (by omega), if_pos h4, if_neg (by omega), if_neg (List.ne_nil_of_mem hj)]
      omega
  · intro i c hc h0
    obtain ⟨h2, h3, -⟩ := h.vertex c (List.mem_of_getElem? hc) h0
    simp [GCell.refs, h2, h3]
  · intro i _
    unfold rank
    split
    · split
      · omega
      · split <;> omega
    · omega

/-- The graph of all fractures. -/
theorem graph (h : Fine net 0 first) :
    ∃ g, networkGraph 2 true net.cells = .ok g ∧ IsGraph net.cells g := by
  unfold networkGraph
  refine graphOf_ok h.layered (fun c hc => (List.mem_filter.1 hc).1) ?_ ?_
  · intro c hc hn
    by_contra hr
    refine hn (List.mem_filter.2 ⟨hc, ?_⟩)
    simp [h.refs_edge hc hr]
  · intro i hi
    have hc := List.getElem?_eq_getElem hi
    by_cases h0 : (net.cells[i]).dimension = 0
    · obtain ⟨c, h1, h2⟩ := h.used i ⟨_, hc, h0⟩
      obtain ⟨j, hj⟩ := List.getElem?_of_mem h1
      exact ⟨j, c, hj, .inl (List.mem_append_left _ h2)⟩
    · obtain ⟨-, b, e, h1, -⟩ := h.edge _ (List.getElem_mem hi) h0
      exact ⟨i, _, hc, .inr ⟨rfl, by simp [GCell.refs, h1]⟩⟩

end Fine

/-- The graph does not depend on the ids. -/
theorem IsGraph.shift {net : Network P} {g : DiGraph Nat} (h : IsGraph net.cells g)
    (points cells : Nat) : IsGraph (net.shift points cells).cells g := by
  refine ⟨?_, ?_⟩
  · simpa [Network.shift] using h.nodes
  · intro u v
    rw [h.edges]
    constructor
    · rintro ⟨c, hc, hv⟩
      exact ⟨_, shift_get hc points cells, hv⟩
    · rintro ⟨c, hc, hv⟩
      unfold Network.shift at hc
      rw [List.getElem?_map, Option.map_eq_some_iff] at hc
      obtain ⟨d, hd, rfl⟩ := hc
      exact ⟨d, hd, hv⟩

/-- The cell at a position. -/
def cellAt (cells : List GCell) (j : Nat) : GCell := cells[j]?.getD (vertexCell 0)

theorem cellAt_of {cells : List GCell} {j : Nat} {c : GCell} (h : cells[j]? = some c) :
    cellAt cells j = c := by
  unfold cellAt
  rw [h]; rfl

theorem fancy_cellAt {cells : List GCell} {idx : List Nat} (h : ∀ j ∈ idx, j < cells.length) :
    fancy cells idx = .ok (idx.map (cellAt cells)) := by
  refine fancy_iff.2 (List.forall₂_map_right_iff.2 ?_)
  refine List.forall₂_same.2 fun j hj => ?_
  have := List.getElem?_eq_getElem (h j hj)
  rw [cellAt_of this]
  exact this

namespace Fine
variable {net : Network P} {off first : Nat}

theorem part_lt (h : Fine net off first) {c : GCell} (hc : c ∈ net.cells) {j : Nat}
    (hj : j ∈ c.immersed) : j < net.cells.length := by
  obtain ⟨d, hd, -⟩ := h.parts c hc j hj
  exact (List.getElem?_eq_some_iff.1 hd).1

theorem id_at (h : Fine net off first) {j : Nat} (hj : j < net.cells.length) :
    (cellAt net.cells j).id = j + off := by
  have := List.getElem?_eq_getElem hj
  rw [cellAt_of this]
  exact h.ids j _ this

/-- The pieces of a cell are whole edges. -/
theorem whole (h : Fine net off first) {c : GCell} (hc : c ∈ net.cells) (h1 : c.dimension = 1)
    {j : Nat} (hj : j ∈ pieces (c.id - off) c) :
    ∃ d, net.cells[j]? = some d ∧ d.dimension = 1 ∧ d.immersed = [] := by
  unfold pieces at hj
  split at hj
  · rename_i h0
    rw [List.mem_singleton] at hj
    subst hj
    exact ⟨c, (h.pos hc).1, h1, h0⟩
  · exact h.parts c hc j hj

theorem piecesOf_ok (h : Fine net off first) {c : GCell} (hc : c ∈ net.cells) :
    piecesOf net c = .ok ((pieces (c.id - off) c).map (cellAt net.cells)) := by
  unfold piecesOf pieces
  by_cases h0 : c.immersed = []
  · rw [if_pos (by simp [h0]), if_pos h0, List.map_singleton, cellAt_of (h.pos hc).1]
    rfl
  · rw [if_neg (by simpa using h0), if_neg h0]
    exact fancy_cellAt fun j hj => h.part_lt hc hj

theorem mainEdges_ok (h : Fine net off first) {geo : List GCell} (hg : geo.Perm net.cells) :
    mainEdges net geo = .ok (geo.filter fun c => c.dimension = 1 ∧ c.id - off ∉ allParts net.cells) := by
  unfold mainEdges
  have hmem : ∀ c ∈ geo, c ∈ net.cells := fun c hc => hg.mem_iff.1 hc
  rw [Topology.mapRes_ok_of (g := List.map (cellAt net.cells)), Res.bind_ok, Res.pure_eq]
  · refine congrArg Except.ok (List.filter_congr fun c hc => ?_)
    obtain ⟨h1, h2⟩ := h.pos (hmem c hc)
    rw [decide_eq_decide]
    refine and_congr_right fun _ => not_congr ?_
    simp only [List.map_map, List.map_flatten, List.mem_flatten, List.mem_map, List.mem_filter,
      Function.comp_apply, allParts, List.mem_flatMap]
    constructor
    · rintro ⟨l, ⟨d, ⟨hd, -⟩, rfl⟩, hl⟩
      simp only [List.mem_map, Function.comp_apply] at hl
      obtain ⟨j, hj, e⟩ := hl
      rw [h.id_at (h.part_lt (hmem d hd) hj)] at e
      refine ⟨d, hmem d hd, ?_⟩
      rwa [← e, Nat.add_sub_cancel]
    · rintro ⟨d, hd, hj⟩
      have h3 : d.dimension = 1 := by
        refine h.refs_edge hd ?_
        unfold GCell.refs
        exact List.ne_nil_of_mem (List.mem_append_right _ hj)
      refine ⟨_, ⟨d, ⟨hg.mem_iff.2 hd, ?_⟩, rfl⟩, List.mem_map.2 ⟨_, hj, ?_⟩⟩
      · have := List.length_pos_of_mem hj
        simp [h3, this]
      · simp only [Function.comp_apply]
        rw [h.id_at (h.part_lt hd hj), h2]
  · intro l hl
    obtain ⟨c, hc, rfl⟩ := List.mem_map.1 hl
    exact fancy_cellAt fun j hj => h.part_lt (hmem c (List.mem_filter.1 hc).1) hj

theorem pointTag_ok (h : Fine net off first) {i : Nat} {v : GCell} (hv : net.cells[i]? = some v)
    (h0 : v.dimension = 0) : pointTag v = .ok (tagAt net.cells i) := by
  obtain ⟨-, -, k, h1, -⟩ := h.vertex v (List.mem_of_getElem? hv) h0
  unfold pointTag tagAt
  rw [hv, h1]
  simp [h1]

theorem endTags_ok (h : Fine net off first) {j : Nat} {d : GCell} (hd : net.cells[j]? = some d)
    (h1 : d.dimension = 1) :
    endTags net.cells (cellAt net.cells j) = .ok (tagAt net.cells (d.boundary.headD 0),
      tagAt net.cells (d.boundary.getLastD 0)) := by
  obtain ⟨-, b, e, h2, ⟨v, hv, hv0⟩, ⟨w, hw, hw0⟩⟩ := h.edge d (List.mem_of_getElem? hd) (by omega)
  rw [cellAt_of hd]
  unfold endTags
  rw [h2]
  have e1 : getIdx [b, e] 0 = .ok b := rfl
  have e2 : getIdx [b, e] 1 = .ok e := rfl
  rw [e1, Res.bind_ok, getIdx_of hv, Res.bind_ok, h.pointTag_ok hv hv0, Res.bind_ok, e2, Res.bind_ok,
    getIdx_of hw, Res.bind_ok, h.pointTag_ok hw hw0]
  rfl

end Fine

/-- The points of the ends of a whole edge. -/
def endsAt (cells : List GCell) (j : Nat) : Int × Int :=
  let ends := (cells[j]?.map GCell.boundary).getD []
  (tagAt cells (ends.headD 0), tagAt cells (ends.getLastD 0))

/-- The description of a network. -/
theorem describeNetwork_ok {net : Network P} {off first : Nat} (h : Fine net off first)
    {g : DiGraph Nat} (hg : IsGraph net.cells g) (hn : net.graph = some g) :
    ∃ geo : List GCell, geo.Perm net.cells ∧
      describeNetwork net = .ok ⟨networkCalls net.cells off net.fractureTags
        (geo.filter fun c => c.dimension = 1 ∧ c.id - off ∉ allParts net.cells) (ofDim 0 geo),
        (geo.filter fun c => c.dimension = 1 ∧ c.id - off ∉ allParts net.cells).flatMap fun c =>
          (pieces (c.id - off) c).flatMap fun j => [(endsAt net.cells j).1, (endsAt net.cells j).2],
        (geo.filter fun c => c.dimension = 1 ∧ c.id - off ∉ allParts net.cells).flatMap
          (pieceTags off)⟩ := by
  obtain ⟨geo, e1, hp⟩ := geo_perm hg
  refine ⟨geo, hp, ?_⟩
  unfold describeNetwork nodesOf
  rw [hn]
  dsimp only
  rw [Res.pure_eq, Res.bind_ok, e1, Res.bind_ok, h.mainEdges_ok hp, Res.bind_ok]
  have hmain : ∀ c ∈ geo.filter (fun c => c.dimension = 1 ∧ c.id - off ∉ allParts net.cells),
      c ∈ net.cells ∧ c.dimension = 1 := by
    intro c hc
    obtain ⟨h1, h2⟩ := List.mem_filter.1 hc
    exact ⟨hp.mem_iff.1 h1, (of_decide_eq_true h2).1⟩
  generalize geo.filter (fun c => c.dimension = 1 ∧ c.id - off ∉ allParts net.cells) = main at hmain ⊢
  have hvert : ∀ v ∈ ofDim 0 geo, net.cells[v.id - off]? = some v ∧ v.dimension = 0 := by
    intro v hv
    obtain ⟨h1, h2⟩ := List.mem_filter.1 hv
    exact ⟨(h.pos (hp.mem_iff.1 h1)).1, of_decide_eq_true h2⟩
  have hphys : ∀ c ∈ net.cells, ∀ k tags, group (P := P) k tags c.physical =
      .ok (.addPhysicalGroup k tags (c.physical.getD 0)) := by
    intro c hc k tags
    obtain ⟨p, hp⟩ := h.tagged c hc
    rw [hp]; rfl
  rw [Topology.mapRes_ok_of (f := piecesOf net)
    (g := fun c => (pieces (c.id - off) c).map (cellAt net.cells))
    (fun c hc => h.piecesOf_ok (hmain c hc).1), Res.bind_ok]
  have hflat : (main.map fun c => (pieces (c.id - off) c).map (cellAt net.cells)).flatten =
      (main.flatMap fun c => pieces (c.id - off) c).map (cellAt net.cells) := by
    rw [List.map_flatMap]; rfl
  have hwhole : ∀ j ∈ main.flatMap fun c => pieces (c.id - off) c,
      ∃ d, net.cells[j]? = some d ∧ d.dimension = 1 ∧ d.immersed = [] := by
    intro j hj
    obtain ⟨c, hc, hj⟩ := List.mem_flatMap.1 hj
    exact h.whole (hmain c hc).1 (hmain c hc).2 hj
  rw [hflat]
  have hends : mapRes (endTags net.cells)
      ((main.flatMap fun c => pieces (c.id - off) c).map (cellAt net.cells)) =
      .ok ((main.flatMap fun c => pieces (c.id - off) c).map (endsAt net.cells)) := by
    rw [mapRes_iff]
    refine List.forall₂_map_left_iff.2 (List.forall₂_map_right_iff.2 (List.forall₂_same.2 ?_))
    intro j hj
    obtain ⟨d, hd, h1, -⟩ := hwhole j hj
    rw [h.endTags_ok hd h1]
    unfold endsAt
    rw [hd]
    rfl
  rw [hends, Res.bind_ok]
  rw [Topology.mapRes_ok_of (f := vertexGroup (ofDim 0 geo)) (g := fun c => .addPhysicalGroup 0
    (((ofDim 0 geo).filter fun v => v.physical = c.physical).map fun v => tagAt net.cells (v.id - off))
    (c.physical.getD 0)) ?_, Res.bind_ok]
  swap
  · intro c hc
    unfold vertexGroup
    rw [Topology.mapRes_ok_of (g := fun v => tagAt net.cells (v.id - off)), Res.bind_ok]
    · exact hphys c (hmain c hc).1 _ _
    · intro v hv
      obtain ⟨h1, h2⟩ := hvert v (List.mem_filter.1 hv).1
      exact h.pointTag_ok h1 h2
  rw [Topology.mapRes_ok_of (f := ownGroup)
    (g := fun v => .addPhysicalGroup 0 [tagAt net.cells (v.id - off)] (v.physical.getD 0)) ?_, Res.bind_ok]
  swap
  · intro v hv
    obtain ⟨h1, h2⟩ := hvert v (List.mem_filter.1 hv).1
    unfold ownGroup
    rw [h.pointTag_ok h1 h2, Res.bind_ok]
    exact hphys v (List.mem_of_getElem? h1) _ _
  rw [Topology.mapRes_ok_of (f := edgeGroup net)
    (g := fun c => .addPhysicalGroup 1 (pieceTags off c) (c.physical.getD 0)) ?_, Res.bind_ok]
  swap
  · intro c hc
    unfold edgeGroup
    rw [h.piecesOf_ok (hmain c hc).1, Res.bind_ok, hphys c (hmain c hc).1]
    congr 2
    unfold tagsOf pieceTags
    rw [List.map_map]
    refine List.map_congr_left fun j hj => ?_
    obtain ⟨d, hd, -⟩ := h.whole (hmain c hc).1 (hmain c hc).2 hj
    simp only [Function.comp_apply]
    rw [h.id_at (List.getElem?_eq_some_iff.1 hd).1]
  rw [Res.pure_eq]
  refine congrArg Except.ok ?_
  have hid : ∀ j ∈ main.flatMap fun c => pieces (c.id - off) c,
      ((cellAt net.cells j).id : Int) = ((j + off : Nat) : Int) := by
    intro j hj
    obtain ⟨d, hd, -⟩ := hwhole j hj
    rw [h.id_at (List.getElem?_eq_some_iff.1 hd).1]
  congr 1
  · unfold networkCalls
    congr 3
    · rw [List.zip_map', List.map_map, ← List.map_flatMap]
      refine List.map_congr_left fun j hj => ?_
      simp only [Function.comp_apply, hid j hj]
      rfl
  · rw [List.flatMap_map, List.flatMap_assoc]
  · unfold tagsOf pieceTags
    rw [List.map_map, ← List.map_flatMap]
    exact List.map_congr_left fun j hj => hid j hj

end Verif.Builder
