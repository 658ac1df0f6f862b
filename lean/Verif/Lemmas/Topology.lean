/- Built topologies of well-formed meshes: helper lemmas. -/
import Verif.Lemmas.MeshGraph

namespace Verif.MeshGraph
open MeshBuild

theorem mapRes_ok {α β : Type} {f : α → Res β} {g : α → β} : ∀ (l : List α),
    (∀ a ∈ l, f a = .ok (g a)) → mapRes f l = .ok (l.map g)
  | [], _ => rfl
  | a :: as, h => by
    simp [mapRes, h a (by simp), mapRes_ok as (fun b hb => h b (by simp [hb]))]

theorem mapRes_range_error {β : Type} {f : Nat → Res β} {e : Err} :
    ∀ (l : List Nat), l ≠ [] → (∀ a ∈ l, f a = .error e) → mapRes f l = .error e
  | [], h, _ => absurd rfl h
  | a :: as, _, h => by simp [mapRes, h a (by simp)]

/-- What `build_data` and `build_data_on_pysical_tags` establish. -/
structure TopoOK (cells : Cells) (sel : List Cell) (t : Topology) : Prop where
  wf : WellFormed cells
  cells_eq : t.mesh.cells = cells
  mem : ∀ c ∈ sel, Stored cells c.id c ∧ c.dimension = t.dimension
  nodup : (sel.map fun c => c.id).Nodup
  maps : ∀ d ≤ t.dimension, t.entityMaps[d]? = some (DiGraph.ofEdges (sel.flatMap (cellEdges d)))
  maps_len : t.entityMaps.length = t.dimension + 1
  ids : t.entityIds = entityIdsOf t.entityMaps

theorem TopoOK.incidence {cells : Cells} {sel : List Cell} {t : Topology}
    (h : TopoOK cells sel t) {d : Nat} (hd : d ≤ t.dimension) :
    ∃ g, t.entityMapByDimension d = .ok g ∧ IsIncidence cells sel t.dimension d g :=
  ⟨_, getIdx_of (h.maps d hd), rfl, fun c hc => ⟨(h.mem c hc).1, (h.mem c hc).2, hd⟩, h.nodup⟩

theorem entityIdsOf_get? (maps : List (DiGraph Node)) : ∀ (k : Nat) (d : Dict Nat (List Nat)) (i : Nat),
    Dict.get? ((maps.zipIdx k).foldl (fun d (p : DiGraph Node × Nat) =>
      d.set p.2 ((p.1.nodes.filter fun n => n.1 = p.2).map Prod.snd)) d) i =
    if k ≤ i ∧ i < k + maps.length then
      (maps[i - k]?).map fun g => ((g.nodes.filter fun n => n.1 = i).map Prod.snd)
    else d.get? i := by
  induction maps with
  | nil => intro k d i; simp
  | cons g gs ih =>
    intro k d i
    rw [List.zipIdx_cons, List.foldl_cons, ih, Dict.get?_set]
    by_cases hik : i = k
    · subst hik
      rw [if_neg (by omega), if_pos rfl, if_pos (by simp)]
      simp
    · by_cases h2 : k + 1 ≤ i ∧ i < k + 1 + gs.length
      · rw [if_pos h2, if_pos (by simp only [List.length_cons]; omega)]
        have : i - k = (i - (k + 1)) + 1 := by omega
        rw [this, List.getElem?_cons_succ]
      · rw [if_neg h2, if_neg hik, if_neg (by simp only [List.length_cons]; omega)]

/-- the ids listed by `entities_by_dimension` -/
def idsOf (t : Topology) (d : Nat) : List Nat :=
  ((t.entityMaps[d]?).map fun g => (g.nodes.filter fun n => n.1 = d).map Prod.snd).getD []

theorem TopoOK.entities {cells : Cells} {sel : List Cell} {t : Topology}
    (h : TopoOK cells sel t) {d : Nat} (hd : d ≤ t.dimension) :
    t.entitiesByDimension d = .ok (idsOf t d) ∧ (idsOf t d).Nodup ∧
      ∀ j, j ∈ idsOf t d ↔ ∃ c ∈ sel, j ∈ subD c d := by
  obtain ⟨g, hg, hinc⟩ := h.incidence hd
  have hgm : t.entityMaps[d]? = some g := getIdx_eq_ok.1 hg
  have hids : idsOf t d = (g.nodes.filter fun n => n.1 = d).map Prod.snd := by
    simp [idsOf, hgm]
  have hget : t.entityIds.get? d = some (idsOf t d) := by
    rw [h.ids, entityIdsOf]
    rw [entityIdsOf_get? t.entityMaps 0 [] d, if_pos ⟨by omega, by rw [h.maps_len]; omega⟩]
    simp [hgm, hids]
  refine ⟨?_, ?_, ?_⟩
  · unfold Topology.entitiesByDimension
    rw [if_neg (by omega)]; exact Dict.getItem_of_get? hget
  · rw [hids]
    refine List.Nodup.map_on ?_ (hinc.nodes_nodup.filter _)
    rintro ⟨a, b⟩ h1 ⟨a', b'⟩ h2 hab
    simp only [List.mem_filter, decide_eq_true_eq] at h1 h2
    simp only at hab
    rw [h1.2, h2.2, hab]
  · intro j
    rw [hids]
    simp only [List.mem_map, List.mem_filter, decide_eq_true_eq]
    constructor
    · rintro ⟨n, ⟨hn, hnd⟩, rfl⟩
      obtain ⟨e, he, hne⟩ := hinc.mem_nodes.1 hn
      obtain ⟨c, hc, h1, h2, h3⟩ := hinc.mem_edges.1 he
      rcases hne with rfl | rfl
      · rw [h1] at hnd ⊢
        simp only at hnd ⊢
        subst hnd
        have hs := h.wf.self c.id c (h.mem c hc).1
        rw [(h.mem c hc).2] at hs
        exact ⟨c, hc, by simp [subD, hs]⟩
      · exact ⟨c, hc, h3⟩
    · rintro ⟨c, hc, hj⟩
      refine ⟨(d, j), ⟨hinc.mem_nodes.2 ⟨((t.dimension, c.id), (d, j)), ?_, .inr rfl⟩, rfl⟩, rfl⟩
      exact hinc.mem_edges.2 ⟨c, hc, rfl, rfl, hj⟩

theorem build_topology {m : Mesh} (h : WellFormed m.cells) (dim : Nat) (cond : Cell → Bool)
    (hcond : ∀ c, cond c = true → c.dimension = dim) :
    ∃ sel : List Cell, (∀ c, c ∈ sel ↔ Stored m.cells c.id c ∧ cond c = true) ∧
      ∀ d ≤ dim, (do
        let sel ← selectCells cond m.cells
        let l ← gatherAll m.cells ((dim : Int) - (dim - d : Nat)) sel
        pure (DiGraph.ofEdges l) : Res (DiGraph Node)) =
          .ok (DiGraph.ofEdges (sel.flatMap (cellEdges d))) ∧
      TopoOK m.cells sel ⟨m, dim,
        (List.range (dim + 1)).map fun d => DiGraph.ofEdges (sel.flatMap (cellEdges d)),
        entityIdsOf ((List.range (dim + 1)).map fun d =>
          DiGraph.ofEdges (sel.flatMap (cellEdges d)))⟩ := by
  obtain ⟨cs, hcs⟩ := h.eq_map
  have hmem : ∀ c, c ∈ cs.filter cond ↔ Stored m.cells c.id c ∧ cond c = true :=
    fun c => mem_filter_stored h hcs
  refine ⟨cs.filter cond, hmem, fun d hd => ⟨?_, ⟨h, rfl, ?_, filter_ids_nodup h hcs cond, ?_,
    by simp, rfl⟩⟩⟩
  · have hsel : selectCells cond m.cells = .ok (cs.filter cond) := by
      rw [hcs]; exact selectCells_filled cond cs
    have ht : (dim : Int) - (dim - d : Nat) = (d : Int) := by omega
    rw [hsel, Res.bind_ok, ht, gatherAll_wf h _ (fun c hc => by
      have := (hmem c).1 hc
      exact ⟨c.id, this.1, by rw [hcond c this.2]; omega⟩)]
    rfl
  · intro c hc
    exact ⟨((hmem c).1 hc).1, hcond c ((hmem c).1 hc).2⟩
  · intro d hd
    have : d < dim + 1 := by simp only at hd; omega
    simp [this]

/-- `build_data` on a well-formed mesh -/
theorem buildData_ok {m : Mesh} (h : WellFormed m.cells) (t : Topology) (hm : t.mesh = m) :
    ∃ sel t', t.buildData = .ok t' ∧ t'.mesh = m ∧ t'.dimension = t.dimension ∧
      TopoOK m.cells sel t' ∧
      ∀ c, c ∈ sel ↔ Stored m.cells c.id c ∧ c.dimension = t.dimension := by
  subst hm
  obtain ⟨sel, hsel, hb⟩ := build_topology h t.dimension (fun c => c.dimension == t.dimension)
    (fun c hc => by simpa using hc)
  refine ⟨sel, _, ?_, ?_, ?_, (hb 0 (by omega)).2, ?_⟩
  · unfold Topology.buildData
    rw [mapRes_ok (g := fun d => DiGraph.ofEdges (sel.flatMap (cellEdges d)))]
    · rfl
    · intro d hd
      exact (hb d (by have := List.mem_range.1 hd; omega)).1
  · rfl
  · rfl
  · intro c; rw [hsel]; simp

/-- `build_data_on_pysical_tags` on a well-formed mesh -/
theorem buildDataOnTags_ok {m : Mesh} (h : WellFormed m.cells) (t : Topology) (hm : t.mesh = m)
    (tags : List (Option Int)) :
    ∃ sel t', t.buildDataOnTags tags = .ok t' ∧ t'.mesh = m ∧ t'.dimension = t.dimension ∧
      TopoOK m.cells sel t' ∧
      ∀ c, c ∈ sel ↔ Stored m.cells c.id c ∧ c.dimension = t.dimension ∧ c.material ∈ tags := by
  subst hm
  obtain ⟨sel, hsel, hb⟩ := build_topology h t.dimension
    (fun c => c.dimension == t.dimension && tags.contains c.material)
    (fun c hc => by simp at hc; exact hc.1)
  refine ⟨sel, _, ?_, ?_, ?_, (hb 0 (by omega)).2, ?_⟩
  · unfold Topology.buildDataOnTags
    rw [mapRes_ok (g := fun d => DiGraph.ofEdges (sel.flatMap (cellEdges d)))]
    · rfl
    · intro d hd
      exact (hb d (by have := List.mem_range.1 hd; omega)).1
  · rfl
  · rfl
  · intro c; rw [hsel]; simp

end Verif.MeshGraph
