/- Incidence graphs of well-formed meshes: helper lemmas. -/
import Verif.Spec.MeshGraph
import Verif.Lemmas.Graph
import Verif.Lemmas.MeshCount

namespace Verif.MeshGraph
open MeshBuild

theorem cellAt_of_stored {cells : Cells} {i : Nat} {c : Cell} (h : Stored cells i c) :
    cellAt cells i = .ok c := by
  unfold Stored at h; simp [cellAt, h]

theorem cellAt_eq_ok {cells : Cells} {i : Nat} {c : Cell} :
    cellAt cells i = .ok c ↔ Stored cells i c := by
  unfold cellAt Stored
  cases h : cells[i]? with
  | none => simp
  | some s => cases s <;> simp

/-- selection over a filled array -/
theorem selectCells_filled (cond : Cell → Bool) : ∀ (cs : List Cell),
    selectCells cond (cs.map some) = .ok (cs.filter cond)
  | [] => rfl
  | c :: cs => by
    simp only [List.map_cons, selectCells, selectCells_filled cond cs, Res.bind_ok, Res.pure_eq]
    by_cases h : cond c <;> simp [h]

theorem WellFormed.eq_map {cells : Cells} (h : WellFormed cells) :
    ∃ cs : List Cell, cells = cs.map some := by
  have : ∀ o ∈ cells, ∃ c, o = some c := by
    intro o ho
    obtain ⟨i, hi, rfl⟩ := List.mem_iff_getElem.1 ho
    obtain ⟨c, hc⟩ := h.filled i hi
    refine ⟨c, ?_⟩
    unfold Stored at hc
    rw [List.getElem?_eq_getElem hi] at hc
    simpa using hc
  clear h
  induction cells with
  | nil => exact ⟨[], rfl⟩
  | cons o t ih =>
    obtain ⟨c, rfl⟩ := this o (by simp)
    obtain ⟨cs, rfl⟩ := ih (fun o ho => this o (by simp [ho]))
    exact ⟨c :: cs, rfl⟩

theorem stored_map {cs : List Cell} {i : Nat} {c : Cell} :
    Stored (cs.map some) i c ↔ cs[i]? = some c := by
  unfold Stored
  rw [List.getElem?_map]
  cases cs[i]? <;> simp

/-- The pairs gathered from one cell of a well-formed mesh. -/
theorem gather_foldlM {cells : Cells} {fuel : Nat} {t : Nat} {c : Cell} :
    ∀ (ids : List Nat) (acc : List (Node × Node)),
      (∀ id ∈ ids, ∃ s, Stored cells id s ∧ s.dimension = t ∧ s.id = id) →
      ids.foldlM (fun acc id => do
        let b ← cellAt cells id
        let acc := acc ++ [((c.dimension, c.id), (b.dimension, b.id))]
        if (b.dimension : Int) ≠ (t : Int) then do
          let r ← gatherGraphEdges cells fuel t b
          pure (acc ++ r)
        else pure acc) acc =
      (Except.ok (acc ++ ids.map fun id => ((c.dimension, c.id), (t, id))) : Res _)
  | [], acc, _ => by simp
  | id :: ids, acc, h => by
    obtain ⟨s, hs, hd, hid⟩ := h id (by simp)
    rw [List.foldlM_cons]
    have ih := gather_foldlM (fuel := fuel) (c := c) ids (acc ++ [((c.dimension, c.id), (t, id))])
      (fun i hi => h i (by simp [hi]))
    simp only [Res.pure_eq, ne_eq] at ih ⊢
    simp only [cellAt_of_stored hs, Res.bind_ok, hd, not_true, if_false, hid]
    rw [ih]
    simp

theorem gather_wf {cells : Cells} (h : WellFormed cells) {i : Nat} {c : Cell}
    (hc : Stored cells i c) {fuel t : Nat} {ids : List Nat} (ht : c.sub[t]? = some ids) :
    gatherGraphEdges cells (fuel + 1) (t : Int) c
      = .ok (ids.map fun id => ((c.dimension, i), (t, id))) := by
  have hlt : t < c.sub.length := (List.getElem?_eq_some_iff.1 ht).1
  rw [h.subLen i c hc] at hlt
  have hd := h.dims i c hc
  have hcond : (t : Int) = 0 ∨ (t : Int) = 1 ∨ (t : Int) = 2 ∨ (t : Int) = 3 := by omega
  rw [gatherGraphEdges, if_pos hcond]
  have : Cell.subIds c ((t : Int).toNat) = .ok ids := by
    simp only [Int.toNat_natCast]; exact getIdx_of ht
  rw [this, Res.bind_ok, gather_foldlM]
  · simp [h.ids i c hc]
  · intro id hid
    obtain ⟨s, hs, hsd⟩ := h.subOk i c hc t ids ht id hid
    exact ⟨s, hs, hsd, h.ids _ _ hs⟩

/-- sub-entity list, empty if out of range (only used on cells where it is in range) -/
def subD (c : Cell) (t : Nat) : List Nat := (c.sub[t]?).getD []

theorem subD_eq {cells : Cells} (h : WellFormed cells) {i : Nat} {c : Cell}
    (hc : Stored cells i c) {t : Nat} (ht : t ≤ c.dimension) : c.sub[t]? = some (subD c t) := by
  have hlt : t < c.sub.length := by rw [h.subLen i c hc]; omega
  simp [subD, hlt]

/-- The pairs of one selected cell. -/
def cellEdges (t : Nat) (c : Cell) : List (Node × Node) :=
  (subD c t).map fun id => ((c.dimension, c.id), (t, id))

theorem gatherAll_wf {cells : Cells} (h : WellFormed cells) {t : Nat} :
    ∀ (sel : List Cell), (∀ c ∈ sel, ∃ i, Stored cells i c ∧ t ≤ c.dimension) →
      gatherAll cells (t : Int) sel = .ok (sel.flatMap (cellEdges t))
  | [], _ => rfl
  | c :: cs, hs => by
    obtain ⟨i, hc, ht⟩ := hs c (by simp)
    have hg := gather_wf h hc (fuel := 999) (subD_eq h hc ht)
    have ih := gatherAll_wf h cs (fun c hc => hs c (by simp [hc]))
    have hi := h.ids i c hc
    simp only [gatherAll, recursionLimit, hg, ih, Res.bind_ok, List.flatMap_cons, cellEdges, hi,
      Res.pure_eq]

theorem gatherAll_neg {cells : Cells} {t : Int} (ht : t < 0) :
    ∀ (sel : List Cell), sel ≠ [] → gatherAll cells t sel = .error .valueError
  | [], h => absurd rfl h
  | c :: cs, _ => by
    have : gatherGraphEdges cells recursionLimit t c = .error .valueError := by
      rw [recursionLimit, gatherGraphEdges, if_neg (by omega)]
    simp [gatherAll, this]

/-- What a selection produces: the graph of the sub-entity relation of the selected cells. -/
structure IsIncidence (cells : Cells) (sel : List Cell) (dim t : Nat) (g : DiGraph Node) :
    Prop where
  eq : g = DiGraph.ofEdges (sel.flatMap (cellEdges t))
  mem : ∀ c ∈ sel, Stored cells c.id c ∧ c.dimension = dim ∧ t ≤ dim
  nodup : (sel.map fun c => c.id).Nodup

theorem mem_cellEdges {t : Nat} {c : Cell} {e : Node × Node} :
    e ∈ cellEdges t c ↔ e.1 = (c.dimension, c.id) ∧ e.2.1 = t ∧ e.2.2 ∈ subD c t := by
  obtain ⟨u, v, w⟩ := e
  simp only [cellEdges, List.mem_map, Prod.mk.injEq]
  constructor
  · rintro ⟨id, hid, rfl, rfl, rfl⟩; exact ⟨rfl, rfl, hid⟩
  · rintro ⟨rfl, rfl, h⟩; exact ⟨w, h, rfl, rfl, rfl⟩

namespace IsIncidence
variable {cells : Cells} {sel : List Cell} {dim t : Nat} {g : DiGraph Node}

theorem mem_edges (h : IsIncidence cells sel dim t g) {e : Node × Node} :
    e ∈ g.edges ↔ ∃ c ∈ sel, e.1 = (dim, c.id) ∧ e.2.1 = t ∧ e.2.2 ∈ subD c t := by
  rw [h.eq, DiGraph.mem_ofEdges_edges, List.mem_flatMap]
  constructor
  · rintro ⟨c, hc, he⟩
    have := mem_cellEdges.1 he
    rw [(h.mem c hc).2.1] at this
    exact ⟨c, hc, this⟩
  · rintro ⟨c, hc, he⟩
    refine ⟨c, hc, mem_cellEdges.2 ?_⟩
    rw [(h.mem c hc).2.1]; exact he

theorem edges_nodup (h : IsIncidence cells sel dim t g) : g.edges.Nodup := by
  rw [h.eq, DiGraph.ofEdges_edges]; exact nodup_uniq _

theorem nodes_nodup (h : IsIncidence cells sel dim t g) : g.nodes.Nodup := by
  rw [h.eq, DiGraph.ofEdges_nodes]; exact nodup_uniq _

theorem mem_nodes (h : IsIncidence cells sel dim t g) {n : Node} :
    n ∈ g.nodes ↔ ∃ e ∈ g.edges, n = e.1 ∨ n = e.2 := by
  rw [h.eq, DiGraph.mem_ofEdges_nodes]
  simp only [DiGraph.mem_ofEdges_edges]

theorem filter_sel {β : Type} {sel : List Cell} (hn : (sel.map fun c => c.id).Nodup)
    {c : Cell} (hc : c ∈ sel) (F : Cell → List β) (p : β → Bool)
    (hp : ∀ c' ∈ sel, ∀ b ∈ F c', p b = true ↔ c'.id = c.id) :
    (sel.flatMap F).filter p = F c := by
  induction sel with
  | nil => simp at hc
  | cons a s ih =>
    rw [List.flatMap_cons, List.filter_append]
    simp only [List.map_cons, List.nodup_cons] at hn
    rcases List.mem_cons.1 hc with rfl | hc'
    · have h1 : (F c).filter p = F c := by
        rw [List.filter_eq_self]
        intro b hb; exact (hp c (by simp) b hb).2 rfl
      have h2 : (s.flatMap F).filter p = [] := by
        rw [List.filter_eq_nil_iff]
        intro b hb hpb
        obtain ⟨c', hc', hb'⟩ := List.mem_flatMap.1 hb
        have := (hp c' (by simp [hc']) b hb').1 hpb
        exact hn.1 (List.mem_map.2 ⟨c', hc', this⟩)
      rw [h1, h2, List.append_nil]
    · have h1 : (F a).filter p = [] := by
        rw [List.filter_eq_nil_iff]
        intro b hb hpb
        have := (hp a (by simp) b hb).1 hpb
        exact hn.1 (List.mem_map.2 ⟨c, hc', this.symm⟩)
      rw [h1, List.nil_append, ih hn.2 hc' (fun c' h' => hp c' (by simp [h']))]

theorem edges_from (h : IsIncidence cells sel dim t g) {c : Cell} (hc : c ∈ sel) :
    (sel.flatMap (cellEdges t)).filter (fun e => e.1 = (dim, c.id)) = cellEdges t c := by
  apply filter_sel h.nodup hc
  intro c' hc' e he
  have := (mem_cellEdges.1 he).1
  rw [this, (h.mem c' hc').2.1]
  simp

/-- Successors of a selected cell: its sub-entities, in order, without repetition. -/
theorem successors (h : IsIncidence cells sel dim t g) {c : Cell} (hc : c ∈ sel)
    (hne : subD c t ≠ []) :
    g.successors (dim, c.id) = .ok ((uniq (subD c t)).map fun j => (t, j)) := by
  obtain ⟨j, hj⟩ := List.exists_mem_of_ne_nil _ hne
  have hu : ∃ e ∈ sel.flatMap (cellEdges t), ((dim, c.id) : Node) = e.1 ∨ (dim, c.id) = e.2 := by
    refine ⟨((dim, c.id), (t, j)), List.mem_flatMap.2 ⟨c, hc, mem_cellEdges.2 ?_⟩, .inl rfl⟩
    exact ⟨by rw [(h.mem c hc).2.1], rfl, hj⟩
  have e1 := h.eq
  rw [e1, DiGraph.ofEdges_successors hu, h.edges_from hc]
  congr 1
  have : (cellEdges t c).map Prod.snd = (subD c t).map fun j => ((t, j) : Node) := by
    simp [cellEdges, List.map_map, Function.comp_def]
  rw [this, ← map_uniq]
  intro x _ y _ hxy
  simpa using hxy

/-- Predecessors: exactly the selected cells listing the entity. -/
theorem predecessors (h : IsIncidence cells sel dim t g) {j : Nat}
    (hj : ∃ c ∈ sel, j ∈ subD c t) :
    ∃ l : List Node, g.predecessors (t, j) = .ok l ∧ l.Nodup ∧
      ∀ n, n ∈ l ↔ ∃ c ∈ sel, n = (dim, c.id) ∧ j ∈ subD c t := by
  obtain ⟨c, hc, hjc⟩ := hj
  have hu : ∃ e ∈ sel.flatMap (cellEdges t), ((t, j) : Node) = e.1 ∨ (t, j) = e.2 :=
    ⟨((dim, c.id), (t, j)), List.mem_flatMap.2 ⟨c, hc, mem_cellEdges.2
      ⟨by rw [(h.mem c hc).2.1], rfl, hjc⟩⟩, .inr rfl⟩
  have e1 := h.eq
  refine ⟨_, by rw [e1]; exact DiGraph.ofEdges_predecessors hu, nodup_uniq _, ?_⟩
  intro n
  simp only [mem_uniq, List.mem_map, List.mem_filter, List.mem_flatMap, decide_eq_true_eq]
  constructor
  · rintro ⟨e, ⟨⟨c', hc', he⟩, h2⟩, rfl⟩
    have := mem_cellEdges.1 he
    refine ⟨c', hc', ?_, ?_⟩
    · rw [this.1, (h.mem c' hc').2.1]
    · rw [h2] at this; exact this.2.2
  · rintro ⟨c', hc', rfl, hj'⟩
    exact ⟨((dim, c'.id), (t, j)), ⟨⟨c', hc', mem_cellEdges.2
      ⟨by rw [(h.mem c' hc').2.1], rfl, hj'⟩⟩, rfl⟩, rfl⟩

end IsIncidence

theorem filter_ids_nodup {cells : Cells} (h : WellFormed cells) {cs : List Cell}
    (hcs : cells = cs.map some) (cond : Cell → Bool) :
    ((cs.filter cond).map fun c => c.id).Nodup := by
  have hfull : (cs.map fun c => c.id) = List.range cs.length := by
    apply List.ext_getElem?
    intro i
    rw [List.getElem?_map, ]
    by_cases hi : i < cs.length
    · have hst : Stored cells i cs[i] := by
        rw [hcs]; exact stored_map.2 (by simp [hi])
      simp [hi, h.ids _ _ hst]
    · simp [hi]
  have : ((cs.filter cond).map fun c => c.id).Sublist (cs.map fun c => c.id) :=
    (List.filter_sublist).map _
  rw [hfull] at this
  exact this.nodup List.nodup_range

theorem mem_filter_stored {cells : Cells} (h : WellFormed cells) {cs : List Cell}
    (hcs : cells = cs.map some) {cond : Cell → Bool} {c : Cell} :
    c ∈ cs.filter cond ↔ Stored cells c.id c ∧ cond c = true := by
  rw [List.mem_filter]
  constructor
  · rintro ⟨hc, hcond⟩
    obtain ⟨i, hi, rfl⟩ := List.mem_iff_getElem.1 hc
    have hst : Stored cells i cs[i] := by rw [hcs]; exact stored_map.2 (by simp [hi])
    rw [h.ids _ _ hst]
    exact ⟨hst, hcond⟩
  · rintro ⟨hst, hcond⟩
    rw [hcs, stored_map] at hst
    exact ⟨List.mem_of_getElem? hst, hcond⟩

/-- Generic construction used by three of the four graph builders. -/
theorem select_gather {cells : Cells} (h : WellFormed cells) (cond : Cell → Bool)
    (dim co : Nat) (hdim : ∀ c, cond c = true → c.dimension = dim) (hco : co ≤ dim) :
    ∃ sel g, (do
        let sel ← selectCells cond cells
        let l ← gatherAll cells ((dim : Int) - co) sel
        pure (DiGraph.ofEdges l) : Res (DiGraph Node)) = .ok g ∧
      IsIncidence cells sel dim (dim - co) g ∧
      ∀ c, c ∈ sel ↔ Stored cells c.id c ∧ cond c = true := by
  obtain ⟨cs, hcs⟩ := h.eq_map
  have hmem : ∀ c, c ∈ cs.filter cond ↔ Stored cells c.id c ∧ cond c = true :=
    fun c => mem_filter_stored h hcs
  have ht : (dim : Int) - co = ((dim - co : Nat) : Int) := by omega
  have hg := gatherAll_wf h (t := dim - co) (cs.filter cond) (fun c hc => by
    have := (hmem c).1 hc
    exact ⟨c.id, this.1, by rw [hdim c this.2]; omega⟩)
  refine ⟨cs.filter cond, DiGraph.ofEdges ((cs.filter cond).flatMap (cellEdges (dim - co))),
    ?_, ⟨rfl, ?_, filter_ids_nodup h hcs cond⟩, hmem⟩
  · have hsel : selectCells cond cells = .ok (cs.filter cond) := by
      rw [hcs]; exact selectCells_filled cond cs
    rw [hsel, Res.bind_ok, ht, hg]; rfl
  · intro c hc
    have := (hmem c).1 hc
    exact ⟨this.1, hdim c this.2, by omega⟩

end Verif.MeshGraph

namespace Verif.MeshGraph
open MeshBuild

theorem subEntity_iff {cells : Cells} {i e j : Nat} {c : Cell} (hc : Stored cells i c) :
    SubEntity cells i e j ↔ j ∈ subD c e := by
  unfold SubEntity subD
  constructor
  · rintro ⟨c', hc', ids, hids, hj⟩
    unfold Stored at hc hc'
    rw [hc] at hc'
    obtain rfl : c = c' := by simpa using hc'
    simp [hids, hj]
  · intro h
    refine ⟨c, hc, ?_⟩
    cases hs : c.sub[e]? with
    | none => simp [hs] at h
    | some ids => exact ⟨ids, rfl, by simpa [hs] using h⟩

/-- the graph of a list of selected cells (repetitions allowed) -/
theorem isSubEntityGraph_of {cells : Cells} (h : WellFormed cells) {sel : List Cell}
    {p : Nat → Prop} {dim e : Nat}
    (hsel : ∀ c, c ∈ sel ↔ Stored cells c.id c ∧ c.dimension = dim ∧ p c.id) :
    IsSubEntityGraph cells (fun i => HasDim cells dim i ∧ p i) dim e
      (DiGraph.ofEdges (sel.flatMap (cellEdges e))) := by
  refine ⟨?_, ?_, ?_, ?_⟩
  · intro u v
    rw [DiGraph.mem_ofEdges_edges, List.mem_flatMap]
    constructor
    · rintro ⟨c, hc, he⟩
      obtain ⟨h1, h2, h3⟩ := mem_cellEdges.1 he
      obtain ⟨hst, hd, hp⟩ := (hsel c).1 hc
      refine ⟨c.id, v.2, by rw [← hd]; exact h1, Prod.ext h2 rfl, ⟨⟨c, hst, hd⟩, hp⟩, ?_⟩
      exact (subEntity_iff hst).2 h3
    · rintro ⟨i, j, rfl, rfl, ⟨⟨c, hst, hd⟩, hp⟩, hs⟩
      have hi := h.ids i c hst
      subst hi
      refine ⟨c, (hsel c).2 ⟨hst, hd, hp⟩, mem_cellEdges.2 ⟨by rw [hd], rfl, ?_⟩⟩
      exact (subEntity_iff hst).1 hs
  · rw [DiGraph.ofEdges_edges]; exact nodup_uniq _
  · intro n
    rw [DiGraph.mem_ofEdges_nodes]
    simp only [DiGraph.mem_ofEdges_edges]
    constructor
    · rintro ⟨e, he, h⟩; exact ⟨e.1, e.2, he, h⟩
    · rintro ⟨u, v, he, h⟩; exact ⟨(u, v), he, h⟩
  · rw [DiGraph.ofEdges_nodes]; exact nodup_uniq _

theorem fancyIndex_filled {cells : Cells} (h : WellFormed cells) :
    ∀ (ids : List Nat), (∀ i ∈ ids, i < cells.length) →
      ∃ cs : List Cell, fancyIndex cells ids = .ok (cs.map some) ∧
        (∀ c, c ∈ cs ↔ Stored cells c.id c ∧ c.id ∈ ids)
  | [], _ => ⟨[], rfl, by simp⟩
  | i :: is, hb => by
    obtain ⟨cs, h1, h2⟩ := fancyIndex_filled h is (fun j hj => hb j (by simp [hj]))
    obtain ⟨c, hc⟩ := h.filled i (hb i (by simp))
    have hi := h.ids i c hc
    refine ⟨c :: cs, ?_, ?_⟩
    · have : getIdx cells i = .ok (some c) := getIdx_of hc
      simp [fancyIndex, this, h1]
    · intro c'
      simp only [List.mem_cons, h2]
      constructor
      · rintro (rfl | ⟨h3, h4⟩)
        · subst hi; exact ⟨hc, .inl rfl⟩
        · exact ⟨h3, .inr h4⟩
      · rintro ⟨h3, h4 | h4⟩
        · left
          rw [h4] at h3
          unfold Stored at h3 hc
          rw [hc] at h3; simpa using h3.symm
        · exact .inr ⟨h3, h4⟩

theorem fancyIndex_out {cells : Cells} : ∀ (ids : List Nat), (∃ i ∈ ids, ¬ i < cells.length) →
    fancyIndex cells ids = .error .indexError
  | [], h => by simp at h
  | i :: is, h => by
    by_cases hi : i < cells.length
    · have ih := fancyIndex_out is (by
        obtain ⟨j, hj, hn⟩ := h
        rcases List.mem_cons.1 hj with rfl | hj
        · exact absurd hi hn
        · exact ⟨j, hj, hn⟩)
      have : getIdx cells i = .ok cells[i] := getIdx_of (by simp [hi])
      simp [fancyIndex, this, ih]
    · have : getIdx cells i = .error .indexError := by
        unfold getIdx; rw [List.getElem?_eq_none (by omega)]
      simp [fancyIndex, this]

theorem selectCells_empty_slot (cond : Cell → Bool) : ∀ (cells : Cells), none ∈ cells →
    selectCells cond cells = .error .attributeError
  | [], h => by simp at h
  | none :: _, _ => rfl
  | some c :: cs, h => by
    have ih := selectCells_empty_slot cond cs (by simpa using h)
    simp [selectCells, ih]

/-- selection followed by gathering, all cases -/
theorem select_graph {cells : Cells} (h : WellFormed cells) {arr : List Cell}
    (cond : Cell → Bool) {p : Nat → Prop} (dim co : Nat)
    (hcond : ∀ c, c ∈ arr ∧ cond c = true ↔ Stored cells c.id c ∧ c.dimension = dim ∧ p c.id) :
    (co ≤ dim → ∃ g, (do
        let sel ← selectCells cond (arr.map some)
        let l ← gatherAll cells ((dim : Int) - co) sel
        pure (DiGraph.ofEdges l) : Res (DiGraph Node)) = .ok g ∧
      IsSubEntityGraph cells (fun i => HasDim cells dim i ∧ p i) dim (dim - co) g) ∧
    (dim < co → (∃ i, HasDim cells dim i ∧ p i) → (do
        let sel ← selectCells cond (arr.map some)
        let l ← gatherAll cells ((dim : Int) - co) sel
        pure (DiGraph.ofEdges l) : Res (DiGraph Node)) = .error .valueError) := by
  have hmem : ∀ c, c ∈ arr.filter cond ↔ Stored cells c.id c ∧ c.dimension = dim ∧ p c.id := by
    intro c; rw [List.mem_filter, hcond]
  constructor
  · intro hco
    have ht : (dim : Int) - co = ((dim - co : Nat) : Int) := by omega
    have hg := gatherAll_wf h (t := dim - co) (arr.filter cond) (fun c hc => by
      have := (hmem c).1 hc
      exact ⟨c.id, this.1, by rw [this.2.1]; omega⟩)
    refine ⟨_, ?_, isSubEntityGraph_of h hmem⟩
    rw [selectCells_filled, Res.bind_ok, ht, hg]; rfl
  · rintro hco ⟨i, ⟨c, hc, hd⟩, hp⟩
    have hi := h.ids i c hc
    subst hi
    have hne : arr.filter cond ≠ [] := List.ne_nil_of_mem ((hmem c).2 ⟨hc, hd, hp⟩)
    rw [selectCells_filled, Res.bind_ok, gatherAll_neg (by omega) _ hne]; rfl

theorem arr_cond {cells : Cells} (h : WellFormed cells) {cs : List Cell}
    (hcs : cells = cs.map some) (dim : Nat) (q : Cell → Bool) (p : Nat → Prop)
    (hq : ∀ c, Stored cells c.id c → (q c = true ↔ p c.id)) (c : Cell) :
    c ∈ cs ∧ (c.dimension == dim && q c) = true ↔
      Stored cells c.id c ∧ c.dimension = dim ∧ p c.id := by
  rw [← List.mem_filter (p := fun c => (c.dimension == dim && q c)), mem_filter_stored h hcs]
  simp only [Bool.and_eq_true, beq_iff_eq]
  constructor
  · rintro ⟨h1, h2, h3⟩; exact ⟨h1, h2, (hq c h1).1 h3⟩
  · rintro ⟨h1, h2, h3⟩; exact ⟨h1, h2, (hq c h1).2 h3⟩

end Verif.MeshGraph
