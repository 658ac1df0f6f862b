/-
C87: the description of a fracture network in a polygon for gmsh.
-/
import Verif.Props.BoxMesher
import Verif.Lemmas.BoxNetwork

namespace Verif.Builder
open MeshGraph Mesher Trace
variable {P : Type}

/-- The positions of the whole edges of the fractures. -/
def wholeEdges (off : Nat) (main : List GCell) : List Nat := main.flatMap fun c => pieces (c.id - off) c

/-- The calls of the mesher for a polygon with a network, whose shifted cells are `cells`. -/
def meshCalls (box points : List P) (groups : List (Call P)) (a : Int) (cells : List GCell)
    (fractureTags : List Int) (main vertices : List GCell) : List (Call P) :=
  let n := box.length
  let off := n + n + 1
  pointCalls (box ++ points) ++ areaCalls n groups a ++
  networkCalls cells off fractureTags main vertices ++
  [.embed 0 ((wholeEdges off main).flatMap fun j => [(endsAt cells j).1, (endsAt cells j).2]) 2
      ((n + n : Nat) : Int),
    .embed 1 ((wholeEdges off main).map fun j => ((j + off : Nat) : Int)) 2 ((n + n : Nat) : Int)] ++
  (wholeEdges off main).map fun j => .setTransfiniteCurve ((j + off : Nat) : Int)

theorem fractures_eq {net : Network P} {off first : Nat} (h : Fine net off first) :
    fractures net.cells =
      net.cells.filter fun c => c.dimension = 1 ∧ c.id - off ∉ allParts net.cells := by
  unfold fractures
  have e1 : net.cells.zipIdx.filter (fun p => p.1.dimension = 1 ∧ p.2 ∉ allParts net.cells) =
      net.cells.zipIdx.filter ((fun c : GCell =>
        decide (c.dimension = 1 ∧ c.id - off ∉ allParts net.cells)) ∘ Prod.fst) := by
    refine List.filter_congr fun p hp => ?_
    have h1 := h.ids p.2 p.1 (List.mem_zipIdx_iff_getElem?.1 hp)
    simp only [Function.comp_apply, h1, Nat.add_sub_cancel]
  rw [e1, ← List.filter_map, List.zipIdx_map_fst]

theorem wholeEdges_tags (off : Nat) (main : List GCell) :
    main.flatMap (pieceTags off) = (wholeEdges off main).map fun j => ((j + off : Nat) : Int) := by
  unfold wholeEdges pieceTags
  rw [List.map_flatMap]

/-- C87.  The mesher describes the polygon and then the network, whose points and cells are numbered
after those of the polygon. -/
theorem C87_network {tags : Dict Name Int} {box : List P} {b : Builder P} {t : Nat → Int} {a : Int}
    (hb : box ≠ []) (h : buildArea (.new tags) box = .ok b)
    (ht : ∀ i < box.length, (tagsOr tags areaTags).get? (.bc i) = some (t i))
    (ha : (tagsOr tags areaTags).get? .area = some a) {net : Network P} (hf : Fine net 0 0)
    {g : DiGraph Nat} (hg : networkGraph 2 true net.cells = .ok g) (hn : net.graph = some g) :
    ∃ groups main vertices,
      groups.Perm ((List.range box.length).map fun i =>
        .addPhysicalGroup 1 [((box.length + i : Nat) : Int)] (t i)) ∧
      main.Perm (fractures (net.shift box.length (box.length + box.length + 1)).cells) ∧
      vertices.Perm (ofDim 0 (net.shift box.length (box.length + box.length + 1)).cells) ∧
      generate 2 b (some net) = .ok (meshCalls box net.points groups a
        (net.shift box.length (box.length + box.length + 1)).cells net.fractureTags main vertices) := by
  obtain ⟨groups, h1, h2, h3, h4⟩ := describe_polygon hb h ht ha
  obtain ⟨g', e1, hg'⟩ := hf.graph
  rw [hg] at e1
  cases e1
  have hs := hf.shift box.length (box.length + box.length + 1)
  obtain ⟨geo, hp, hd⟩ := describeNetwork_ok hs (hg'.shift _ _) hn
  refine ⟨groups, geo.filter fun c => c.dimension = 1 ∧ c.id - (box.length + box.length + 1) ∉
    allParts (net.shift box.length (box.length + box.length + 1)).cells, ofDim 0 geo, h1, ?_,
    ofDim_perm hp, ?_⟩
  rotate_left
  · unfold generate
    rw [h2, Res.bind_ok]
    dsimp only
    rw [if_neg (by simp), h3, h4, hd, Res.bind_ok]
    have e0 : getIdx [((box.length + box.length : Nat) : Int)] 0 =
      .ok ((box.length + box.length : Nat) : Int) := rfl
    rw [e0, Res.bind_ok, Res.pure_eq, wholeEdges_tags, List.map_map, ← List.flatMap_assoc]
    rfl
  · rw [fractures_eq hs]
    exact hp.filter _

/-- The network after the shift, in the order of the mesher. -/
structure Listed (net : Network P) (off : Nat) (main vertices : List GCell) : Prop where
  main : main.Perm (fractures net.cells)
  vertices : vertices.Perm (ofDim 0 net.cells)

namespace Listed
variable {net : Network P} {off first : Nat} {main vertices : List GCell}

theorem mem_main (hf : Fine net off first) (hl : Listed net off main vertices) {c : GCell} :
    c ∈ main ↔ c ∈ net.cells ∧ c.dimension = 1 ∧ c.id - off ∉ allParts net.cells := by
  rw [hl.main.mem_iff, fractures_eq hf, List.mem_filter, decide_eq_true_eq]

theorem mem_vertices (hl : Listed net off main vertices) {c : GCell} :
    c ∈ vertices ↔ c ∈ net.cells ∧ c.dimension = 0 := by
  rw [hl.vertices.mem_iff, ofDim, List.mem_filter, decide_eq_true_eq]

/-- The lines are the whole edges. -/
theorem mem_whole (hf : Fine net off first) (hl : Listed net off main vertices) {j : Nat} :
    j ∈ wholeEdges off main ↔ ∃ d, net.cells[j]? = some d ∧ d.dimension = 1 ∧ d.immersed = [] := by
  unfold wholeEdges
  rw [List.mem_flatMap]
  constructor
  · rintro ⟨c, hc, hj⟩
    obtain ⟨h1, h2, -⟩ := (hl.mem_main hf).1 hc
    exact hf.whole h1 h2 hj
  · rintro ⟨d, hd, h1, h2⟩
    have hdm := List.mem_of_getElem? hd
    have hid := hf.ids j d hd
    by_cases hj : j ∈ allParts net.cells
    · obtain ⟨c, hc, hcj⟩ := List.mem_flatMap.1 hj
      refine ⟨c, (hl.mem_main hf).2 ⟨hc, ?_, ?_⟩, ?_⟩
      · refine hf.refs_edge hc ?_
        exact List.ne_nil_of_mem (List.mem_append_right _ hcj)
      · intro hp
        obtain ⟨e, he, hej⟩ := List.mem_flatMap.1 hp
        obtain ⟨c', h3, -, h4⟩ := hf.parts e he _ hej
        rw [(hf.pos hc).1] at h3
        cases h3
        exact List.ne_nil_of_mem hcj h4
      · unfold pieces
        rw [if_neg (List.ne_nil_of_mem hcj)]
        exact hcj
    · refine ⟨d, (hl.mem_main hf).2 ⟨hdm, h1, ?_⟩, ?_⟩
      · rwa [hid, Nat.add_sub_cancel]
      · unfold pieces
        rw [if_pos h2, hid, Nat.add_sub_cancel, List.mem_singleton]

theorem cells_nodup (hf : Fine net off first) : net.cells.Nodup := by
  rw [List.nodup_iff_getElem?_ne_getElem?]
  intro i j hij hj heq
  have h1 := List.getElem?_eq_getElem (show i < net.cells.length by omega)
  have h2 := hf.ids i _ h1
  rw [heq] at h1
  have h3 := hf.ids j _ h1
  omega

theorem main_nodup (hf : Fine net off first) (hl : Listed net off main vertices) : main.Nodup := by
  rw [hl.main.nodup_iff, fractures_eq hf]
  exact (cells_nodup hf).filter _

theorem whole_nodup (hf : Fine net off first) (hl : Listed net off main vertices) :
    (wholeEdges off main).Nodup := by
  obtain ⟨h1, h2⟩ := List.nodup_flatMap.1 hf.once
  have hdis : ∀ c ∈ net.cells, ∀ d ∈ net.cells, c ≠ d → List.Disjoint c.immersed d.immersed := by
    intro c hc d hd hne
    have : Std.Symm (Function.onFun List.Disjoint GCell.immersed) := ⟨fun _ _ h => h.symm⟩
    exact h2.forall hc hd hne
  refine List.nodup_flatMap.2 ⟨?_, ?_⟩
  · intro c hc
    obtain ⟨h3, -⟩ := (hl.mem_main hf).1 hc
    unfold pieces
    split
    · simp
    · exact h1 c h3
  · refine (hl.main_nodup hf).imp_of_mem ?_
    intro c d hc hd hne j hjc hjd
    obtain ⟨c1, c2, c3⟩ := (hl.mem_main hf).1 hc
    obtain ⟨d1, d2, d3⟩ := (hl.mem_main hf).1 hd
    unfold pieces at hjc hjd
    dsimp only at hjc hjd
    split at hjc <;> split at hjd
    · rw [List.mem_singleton] at hjc hjd
      have e1 := (hf.pos c1).1
      have e2 := (hf.pos d1).1
      rw [← hjc] at e1
      rw [← hjd, e1] at e2
      exact hne (Option.some.inj e2)
    · rw [List.mem_singleton] at hjc
      exact c3 (List.mem_flatMap.2 ⟨d, d1, hjc ▸ hjd⟩)
    · rw [List.mem_singleton] at hjd
      exact d3 (List.mem_flatMap.2 ⟨c, c1, hjd ▸ hjc⟩)
    · exact hdis c c1 d d1 hne hjc hjd

/-- Points of the vertices. -/
theorem tagAt_range (hf : Fine net off first) {i : Nat} (hi : IsVertex net.cells i) :
    ∃ k : Nat, tagAt net.cells i = (k : Int) + 1 ∧ first ≤ k ∧ k < first + net.points.length := by
  obtain ⟨c, hc, h0⟩ := hi
  obtain ⟨-, -, k, h1, h2, h3⟩ := hf.vertex c (List.mem_of_getElem? hc) h0
  refine ⟨k, ?_, h2, h3⟩
  unfold tagAt
  rw [hc]
  simp [h1]

theorem ends_range (hf : Fine net off first) (hl : Listed net off main vertices) {j : Nat}
    (hj : j ∈ wholeEdges off main) :
    (∃ k : Nat, (endsAt net.cells j).1 = (k : Int) + 1 ∧ first ≤ k ∧ k < first + net.points.length) ∧
    ∃ k : Nat, (endsAt net.cells j).2 = (k : Int) + 1 ∧ first ≤ k ∧ k < first + net.points.length := by
  obtain ⟨d, hd, h1, -⟩ := (hl.mem_whole hf).1 hj
  obtain ⟨-, b, e, h2, hb, he⟩ := hf.edge d (List.mem_of_getElem? hd) (by omega)
  unfold endsAt
  rw [hd]
  simp only [Option.map_some, Option.getD_some, h2]
  exact ⟨tagAt_range hf hb, tagAt_range hf he⟩

end Listed

theorem created_network {cells : List GCell} {off : Nat} {tags : List Int} {main vertices : List GCell} :
    created (networkCalls (P := P) cells off tags main vertices) =
      (wholeEdges off main).map fun j => .dim 1 ((j + off : Nat) : Int) := by
  unfold networkCalls
  rw [created_append, created_append, created_append]
  rw [created_nil (cs := main.map _), created_nil (cs := List.map _ (List.filter _ _)),
    created_nil (cs := main.map _)]
  · simp only [List.append_nil]
    unfold created wholeEdges
    rw [← List.map_flatMap, List.flatMap_map]
    simp only [pieceCall, Call.creates]
    rw [← List.map_eq_flatMap]
  all_goals
    intro c hc
    obtain ⟨d, -, rfl⟩ := List.mem_map.1 hc
    rfl

/-- C87.  Every call refers to entities made before, entities of one dimension have different
positive tags; the lines of the network are the whole edges. -/
theorem C87_valid {box : List P} (hb : box ≠ []) {groups : List (Call P)} {t : Nat → Int} {a : Int}
    (hg : groups.Perm ((List.range box.length).map fun i =>
        .addPhysicalGroup 1 [((box.length + i : Nat) : Int)] (t i)))
    {net : Network P} (hf : Fine net (box.length + box.length + 1) box.length)
    {main vertices : List GCell} (hl : Listed net (box.length + box.length + 1) main vertices)
    {calls : List (Call P)}
    (hc : calls = meshCalls box net.points groups a net.cells net.fractureTags main vertices) :
    WellFormed [] calls ∧ (created calls).Nodup ∧ (∀ e ∈ created calls, 0 < e.tag) ∧
    (∀ j d, net.cells[j]? = some d → d.dimension = 1 → d.immersed = [] →
      .addLine (tagAt net.cells (d.boundary.headD 0)) (tagAt net.cells (d.boundary.getLastD 0))
        ((j + (box.length + box.length + 1) : Nat) : Int) ∈ calls) ∧
    ∀ tag, .dim 1 tag ∈ created calls → tag ≤ box.length + box.length ∨
      ∃ j d, net.cells[j]? = some d ∧ d.dimension = 1 ∧ d.immersed = [] ∧
        tag = ((j + (box.length + box.length + 1) : Nat) : Int) := by
  subst hc
  obtain ⟨v1, v2, v3, -, -⟩ := C86_polygon_valid (a := a) hb hg
  rw [polygonCalls_eq] at v1 v2 v3
  rw [wf_append, List.nil_append] at v1
  have hcre : created (areaCalls box.length groups a) =
      ((List.range box.length).map fun i => .dim 1 ((box.length + i : Nat) : Int)) ++
      [.curveLoop (box.length + box.length : Nat), .dim 2 (box.length + box.length : Nat)] := by
    have hgroups : created groups = [] := created_nil fun c hc => by
      obtain ⟨i, -, rfl⟩ := List.mem_map.1 (hg.mem_iff.1 hc)
      rfl
    have hsides : created ((List.range box.length).map (sideCall (P := P) box.length)) =
        (List.range box.length).map fun i => .dim 1 ((box.length + i : Nat) : Int) := by
      unfold created
      rw [List.flatMap_map]
      simp only [sideCall, Call.creates]
      rw [← List.map_eq_flatMap]
    unfold areaCalls
    simp only [created_append, hsides, hgroups]
    simp [created, Call.creates]
  have hall : created (meshCalls box net.points groups a net.cells net.fractureTags main vertices) =
      ((List.range (box.length + net.points.length)).map fun i : Nat => Ent.dim 0 ((i : Int) + 1)) ++
      (((List.range box.length).map fun i => .dim 1 ((box.length + i : Nat) : Int)) ++
      [.curveLoop (box.length + box.length : Nat), .dim 2 (box.length + box.length : Nat)]) ++
      (wholeEdges (box.length + box.length + 1) main).map fun j =>
        .dim 1 ((j + (box.length + box.length + 1) : Nat) : Int) := by
    unfold meshCalls
    dsimp only
    simp only [created_append, created_points, created_network, List.length_append, hcre]
    rw [created_nil (cs := List.map (fun j => Call.setTransfiniteCurve _) _) (by
      intro c hc
      obtain ⟨d, -, rfl⟩ := List.mem_map.1 hc
      rfl)]
    simp [created, Call.creates]
  have hpt : ∀ {x : Int}, (∃ k : Nat, x = (k : Int) + 1 ∧ box.length ≤ k ∧
      k < box.length + net.points.length) →
      .dim 0 x ∈ (List.range (box.length + net.points.length)).map
        fun i : Nat => Ent.dim 0 ((i : Int) + 1) := by
    rintro x ⟨k, rfl, -, h2⟩
    exact List.mem_map.2 ⟨k, List.mem_range.2 h2, rfl⟩
  have hlines : created (main.flatMap fun c => (pieces (c.id - (box.length + box.length + 1)) c).map
      (pieceCall (P := P) net.cells (box.length + box.length + 1))) =
      (wholeEdges (box.length + box.length + 1) main).map fun j =>
        .dim 1 ((j + (box.length + box.length + 1) : Nat) : Int) := by
    unfold created wholeEdges
    rw [← List.map_flatMap, List.flatMap_map]
    simp only [pieceCall, Call.creates]
    rw [← List.map_eq_flatMap]
  refine ⟨?_, ?_, ?_, ?_, ?_⟩
  · unfold meshCalls
    dsimp only
    rw [wf_append, wf_append, wf_append, wf_append]
    refine ⟨⟨⟨⟨?_, ?_⟩, ?_⟩, ?_⟩, ?_⟩
    · refine wf_of_refs _ fun c hc => ?_
      obtain ⟨p, -, rfl⟩ := List.mem_map.1 hc
      simp [Call.refs]
    · refine wf_mono _ ?_ v1.2
      intro e he
      rw [created_points] at he
      obtain ⟨i, hi, rfl⟩ := List.mem_map.1 he
      rw [List.nil_append, created_points]
      refine List.mem_map.2 ⟨i, ?_, rfl⟩
      rw [List.mem_range] at hi ⊢
      rw [List.length_append]
      omega
    · unfold networkCalls
      rw [wf_append, wf_append, wf_append]
      simp only [created_append, created_points, List.length_append, List.nil_append, hlines]
      have hv : ∀ v ∈ vertices, .dim 0 (tagAt net.cells (v.id - (box.length + box.length + 1))) ∈
          (List.range (box.length + net.points.length)).map fun i : Nat => Ent.dim 0 ((i : Int) + 1) := by
        intro v hv
        obtain ⟨h1, h2⟩ := hl.mem_vertices.1 hv
        exact hpt (Listed.tagAt_range hf ⟨v, (hf.pos h1).1, h2⟩)
      refine ⟨⟨⟨?_, ?_⟩, ?_⟩, ?_⟩
      · refine wf_of_refs _ fun c hc r hr => ?_
        obtain ⟨d, hd, hc⟩ := List.mem_flatMap.1 hc
        obtain ⟨j, hj, rfl⟩ := List.mem_map.1 hc
        obtain ⟨h1, h2⟩ := hl.ends_range hf (List.mem_flatMap.2 ⟨d, hd, hj⟩)
        refine List.mem_append_left _ ?_
        have : r = .dim 0 (endsAt net.cells j).1 ∨ r = .dim 0 (endsAt net.cells j).2 := by
          simpa [pieceCall, Call.refs, endsAt] using hr
        rcases this with rfl | rfl
        · exact hpt h1
        · exact hpt h2
      · refine wf_of_refs _ fun c hc r hr => ?_
        obtain ⟨d, hd, rfl⟩ := List.mem_map.1 hc
        simp only [Call.refs, List.map_map, List.mem_map, Function.comp] at hr
        obtain ⟨v, h1, rfl⟩ := hr
        have := hv v (List.mem_filter.1 h1).1
        simp only [List.mem_append]
        tauto
      · refine wf_of_refs _ fun c hc r hr => ?_
        obtain ⟨v, h1, rfl⟩ := List.mem_map.1 hc
        simp only [Call.refs, List.map_cons, List.map_nil, List.mem_singleton] at hr
        subst hr
        have := hv v (List.mem_filter.1 h1).1
        simp only [List.mem_append]
        tauto
      · refine wf_of_refs _ fun c hc r hr => ?_
        obtain ⟨d, hd, rfl⟩ := List.mem_map.1 hc
        simp only [Call.refs, pieceTags, List.map_map, List.mem_map, Function.comp] at hr
        obtain ⟨j, hj, rfl⟩ := hr
        have : Ent.dim 1 ((j + (box.length + box.length + 1) : Nat) : Int) ∈
            (wholeEdges (box.length + box.length + 1) main).map fun j =>
              Ent.dim 1 ((j + (box.length + box.length + 1) : Nat) : Int) :=
          List.mem_map.2 ⟨j, List.mem_flatMap.2 ⟨d, hd, hj⟩, rfl⟩
        simp only [List.mem_append]
        tauto
    · simp only [created_append, created_points, created_network, List.length_append,
        List.nil_append, hcre]
      refine wf_of_refs _ fun c hc r hr => ?_
      have hdim2 : r = .dim 2 ((box.length + box.length : Nat) : Int) →
          r ∈ ((List.range (box.length + net.points.length)).map fun i : Nat => Ent.dim 0 ((i : Int) + 1)) ++
            (((List.range box.length).map fun i => .dim 1 ((box.length + i : Nat) : Int)) ++
            [.curveLoop (box.length + box.length : Nat), .dim 2 (box.length + box.length : Nat)]) ++
            (wholeEdges (box.length + box.length + 1) main).map fun j =>
              .dim 1 ((j + (box.length + box.length + 1) : Nat) : Int) := by
        rintro rfl
        simp
      simp only [List.mem_cons, List.not_mem_nil, or_false] at hc
      rcases hc with rfl | rfl
      · rw [Call.refs, List.mem_append] at hr
        rcases hr with hr | hr
        · obtain ⟨x, hx, rfl⟩ := List.mem_map.1 hr
          obtain ⟨j, hj, hx⟩ := List.mem_flatMap.1 hx
          obtain ⟨h1, h2⟩ := hl.ends_range hf hj
          refine List.mem_append_left _ (List.mem_append_left _ ?_)
          simp only [List.mem_cons, List.not_mem_nil, or_false] at hx
          rcases hx with rfl | rfl
          · exact hpt h1
          · exact hpt h2
        · exact hdim2 (List.mem_singleton.1 hr)
      · rw [Call.refs, List.mem_append] at hr
        rcases hr with hr | hr
        · rw [List.map_map] at hr
          exact List.mem_append_right _ hr
        · exact hdim2 (List.mem_singleton.1 hr)
    · simp only [created_append, created_points, created_network, List.length_append,
        List.nil_append, hcre]
      refine wf_of_refs _ fun c hc r hr => ?_
      obtain ⟨j, hj, rfl⟩ := List.mem_map.1 hc
      simp only [Call.refs, List.mem_singleton] at hr
      subst hr
      exact List.mem_append_left _ (List.mem_append_right _ (List.mem_map.2 ⟨j, hj, rfl⟩))
  · rw [hall]
    refine List.nodup_append.2 ⟨List.nodup_append.2 ⟨?_, ?_, ?_⟩, ?_, ?_⟩
    · refine List.Nodup.map ?_ List.nodup_range
      intro i j h
      simpa using h
    · rw [← hcre]
      rw [created_append] at v2
      exact (List.nodup_append.1 v2).2.1
    · intro x hx y hy
      obtain ⟨i, -, rfl⟩ := List.mem_map.1 hx
      simp only [List.mem_append, List.mem_map, List.mem_cons, List.not_mem_nil, or_false] at hy
      rcases hy with ⟨j, -, rfl⟩ | rfl | rfl <;> simp
    · refine List.Nodup.map ?_ (hl.whole_nodup hf)
      intro i j h
      simpa using h
    · intro x hx y hy
      obtain ⟨j, -, rfl⟩ := List.mem_map.1 hy
      simp only [List.mem_append, List.mem_map, List.mem_range, List.mem_cons, List.not_mem_nil,
        or_false] at hx
      rcases hx with ⟨i, -, rfl⟩ | ⟨i, hi, rfl⟩ | rfl | rfl
      · simp
      · intro he
        simp only [Ent.dim.injEq, true_and, Nat.cast_inj] at he
        omega
      · simp
      · simp
  · rw [hall]
    intro e he
    simp only [List.mem_append, List.mem_map, List.mem_cons, List.not_mem_nil, or_false] at he
    have := List.length_pos_iff.2 hb
    rcases he with (⟨i, -, rfl⟩ | ⟨i, -, rfl⟩ | rfl | rfl) | ⟨j, -, rfl⟩ <;>
      simp only [Ent.tag] <;> omega
  · intro j d hd h1 h2
    have hj := (hl.mem_whole hf).2 ⟨d, hd, h1, h2⟩
    obtain ⟨c, hc, hjc⟩ := List.mem_flatMap.1 hj
    have : pieceCall (P := P) net.cells (box.length + box.length + 1) j ∈
        meshCalls box net.points groups a net.cells net.fractureTags main vertices := by
      unfold meshCalls networkCalls
      simp only [List.mem_append]
      exact .inl (.inl (.inr (.inl (.inl (.inl
        (List.mem_flatMap.2 ⟨c, hc, List.mem_map.2 ⟨j, hjc, rfl⟩⟩))))))
    unfold pieceCall at this
    rw [hd] at this
    exact this
  · rw [hall]
    intro tag he
    simp only [List.mem_append, List.mem_map, List.mem_range, List.mem_cons, List.not_mem_nil,
      or_false] at he
    rcases he with (⟨i, -, h1⟩ | ⟨i, hi, h1⟩ | h1 | h1) | ⟨j, hj, h1⟩
    · cases h1
    · simp only [Ent.dim.injEq, true_and] at h1
      exact .inl (by omega)
    · cases h1
    · cases h1
    · simp only [Ent.dim.injEq, true_and] at h1
      obtain ⟨d, hd, h2, h3⟩ := (hl.mem_whole hf).1 hj
      exact .inr ⟨j, d, hd, h2, h3, h1.symm⟩

/-- C87.  The groups: one for every fracture with its whole edges, one with the vertices of its tag,
and one for every vertex with another tag.  When the tags of the sides, of the fractures and of the
other vertices are different, no group is named twice. -/
theorem C87_groups {box : List P} {groups : List (Call P)} {t : Nat → Int} {a : Int}
    (hg : groups.Perm ((List.range box.length).map fun i =>
        .addPhysicalGroup 1 [((box.length + i : Nat) : Int)] (t i)))
    {net : Network P} (hf : Fine net (box.length + box.length + 1) box.length)
    {main vertices : List GCell} (hl : Listed net (box.length + box.length + 1) main vertices)
    {calls : List (Call P)}
    (hc : calls = meshCalls box net.points groups a net.cells net.fractureTags main vertices)
    (h1 : ((List.range box.length).map t).Nodup)
    (h2 : ∀ c ∈ fractures net.cells, c.physical ∈ net.fractureTags.map some ∧
      ∀ i < box.length, c.physical ≠ some (t i))
    (h3 : ((fractures net.cells).map GCell.physical).Nodup)
    (h4 : (((ofDim 0 net.cells).filter fun v => v.physical ∉ net.fractureTags.map some).map
      GCell.physical).Nodup) :
    (groupKeys calls).Nodup ∧
    (∀ c ∈ fractures net.cells, ∃ p, c.physical = some p ∧
      .addPhysicalGroup 1 (pieceTags (box.length + box.length + 1) c) p ∈ calls ∧
      ∃ tags, .addPhysicalGroup 0 tags p ∈ calls ∧ ∀ x, x ∈ tags ↔ ∃ i v, net.cells[i]? = some v ∧
        v.dimension = 0 ∧ v.physical = some p ∧ x = tagAt net.cells i) ∧
    ∀ i v, net.cells[i]? = some v → v.dimension = 0 → v.physical ∉ net.fractureTags.map some →
      ∃ p, v.physical = some p ∧ .addPhysicalGroup 0 [tagAt net.cells i] p ∈ calls := by
  subst hc
  have hphys : ∀ c ∈ net.cells, c.physical = some (c.physical.getD 0) := by
    intro c hc
    obtain ⟨p, hp⟩ := hf.tagged c hc
    rw [hp]; rfl
  have hkeys : groupKeys (meshCalls box net.points groups a net.cells net.fractureTags main vertices) =
      groupKeys groups ++ [(2, a)] ++ (main.map (fun c => (0, c.physical.getD 0)) ++
      (vertices.filter fun v => v.physical ∉ net.fractureTags.map some).map
        (fun v => (0, v.physical.getD 0)) ++ main.map fun c => (1, c.physical.getD 0)) := by
    have happ : ∀ l l' : List (Call P), groupKeys (l ++ l') = groupKeys l ++ groupKeys l' := by
      intro l l'
      simp [groupKeys]
    have e1 : groupKeys (main.flatMap fun c => (pieces (c.id - (box.length + box.length + 1)) c).map
        (pieceCall (P := P) net.cells (box.length + box.length + 1))) = [] := by
      unfold groupKeys
      rw [List.filterMap_eq_nil_iff]
      intro c hc
      obtain ⟨d, -, hc⟩ := List.mem_flatMap.1 hc
      obtain ⟨j, -, rfl⟩ := List.mem_map.1 hc
      rfl
    unfold meshCalls networkCalls areaCalls pointCalls
    simp only [happ, e1]
    unfold groupKeys
    simp only [List.filterMap_map]
    simp [sideCall, Function.comp_def]
  have hgk : (groupKeys groups).Perm ((List.range box.length).map fun i => (1, t i)) := by
    have hk := hg.filterMap fun c : Call P => match c with
      | .addPhysicalGroup k _ p => some (k, p)
      | _ => none
    rw [List.filterMap_map] at hk
    refine hk.trans (List.Perm.of_eq ?_)
    simp [Function.comp_def]
  have hmc : ∀ c ∈ main, c ∈ net.cells := fun c hc => ((hl.mem_main hf).1 hc).1
  have hvc : ∀ c ∈ vertices, c ∈ net.cells := fun c hc => (hl.mem_vertices.1 hc).1
  have hinj : ∀ (k : Nat) (l : List GCell), (∀ c ∈ l, c ∈ net.cells) → (l.map GCell.physical).Nodup →
      (l.map fun c => (k, c.physical.getD 0)).Nodup := by
    intro k l hl h
    refine List.Nodup.map_on ?_ (List.Nodup.of_map _ h)
    intro c hc d hd e
    refine List.inj_on_of_nodup_map h hc hd ?_
    rw [hphys c (hl c hc), hphys d (hl d hd)]
    exact congrArg some (Prod.mk.inj e).2
  refine ⟨?_, ?_, ?_⟩
  · rw [hkeys]
    refine List.nodup_append.2 ⟨List.nodup_append.2 ⟨?_, by simp, ?_⟩, List.nodup_append.2
      ⟨List.nodup_append.2 ⟨?_, ?_, ?_⟩, ?_, ?_⟩, ?_⟩
    · rw [hgk.nodup_iff]
      refine List.Nodup.map_on ?_ (List.Nodup.of_map _ h1)
      intro i hi j hj e
      exact List.inj_on_of_nodup_map h1 hi hj (Prod.mk.inj e).2
    · intro x hx y hy e
      obtain ⟨i, -, rfl⟩ := List.mem_map.1 (hgk.mem_iff.1 hx)
      rw [List.mem_singleton] at hy
      rw [hy] at e
      cases e
    · exact hinj 0 main hmc ((hl.main.map _).nodup_iff.2 h3)
    · refine hinj 0 _ (fun c hc => hvc c (List.mem_filter.1 hc).1) ?_
      exact ((hl.vertices.filter _).map _).nodup_iff.2 h4
    · intro x hx y hy e
      obtain ⟨c, hc, rfl⟩ := List.mem_map.1 hx
      obtain ⟨v, hv, rfl⟩ := List.mem_map.1 hy
      obtain ⟨hv1, hv2⟩ := List.mem_filter.1 hv
      refine of_decide_eq_true hv2 ?_
      rw [hphys v (hvc v hv1), ← (Prod.mk.inj e).2, ← hphys c (hmc c hc)]
      exact (h2 c (hl.main.mem_iff.1 hc)).1
    · exact hinj 1 main hmc ((hl.main.map _).nodup_iff.2 h3)
    · intro x hx y hy e
      obtain ⟨d, hd, rfl⟩ := List.mem_map.1 hy
      rcases List.mem_append.1 hx with hx | hx <;> obtain ⟨c, hc, rfl⟩ := List.mem_map.1 hx <;> cases e
    · intro x hx y hy e
      rcases List.mem_append.1 hx with hx | hx
      · obtain ⟨i, hi, rfl⟩ := List.mem_map.1 (hgk.mem_iff.1 hx)
        rcases List.mem_append.1 hy with hy | hy
        · rcases List.mem_append.1 hy with hy | hy <;> obtain ⟨c, hc, rfl⟩ := List.mem_map.1 hy <;> cases e
        · obtain ⟨c, hc, rfl⟩ := List.mem_map.1 hy
          refine (h2 c (hl.main.mem_iff.1 hc)).2 i (List.mem_range.1 hi) ?_
          rw [hphys c (hmc c hc), (Prod.mk.inj e).2]
      · rw [List.mem_singleton] at hx
        subst hx
        rcases List.mem_append.1 hy with hy | hy
        · rcases List.mem_append.1 hy with hy | hy <;> obtain ⟨c, hc, rfl⟩ := List.mem_map.1 hy <;> cases e
        · obtain ⟨c, hc, rfl⟩ := List.mem_map.1 hy
          cases e
  · intro c hc
    have hc := hl.main.mem_iff.2 hc
    refine ⟨_, hphys c (hmc c hc), ?_, (vertices.filter fun v => v.physical = c.physical).map fun v =>
        tagAt net.cells (v.id - (box.length + box.length + 1)), ?_, ?_⟩
    · unfold meshCalls networkCalls
      simp only [List.mem_append]
      exact .inl (.inl (.inr (.inr (List.mem_map.2 ⟨c, hc, rfl⟩))))
    · unfold meshCalls networkCalls
      simp only [List.mem_append]
      exact .inl (.inl (.inr (.inl (.inl (.inr (List.mem_map.2 ⟨c, hc, rfl⟩))))))
    · intro x
      constructor
      · intro hx
        obtain ⟨v, hv, rfl⟩ := List.mem_map.1 hx
        obtain ⟨hv1, hv2⟩ := List.mem_filter.1 hv
        obtain ⟨g1, g2⟩ := hl.mem_vertices.1 hv1
        refine ⟨_, v, (hf.pos g1).1, g2, ?_, rfl⟩
        rw [← hphys c (hmc c hc)]
        exact of_decide_eq_true hv2
      · rintro ⟨i, v, hv, h0, hp, rfl⟩
        refine List.mem_map.2 ⟨v, List.mem_filter.2
          ⟨hl.mem_vertices.2 ⟨List.mem_of_getElem? hv, h0⟩, ?_⟩, ?_⟩
        · rw [decide_eq_true_eq, hp, ← hphys c (hmc c hc)]
        · rw [hf.ids i v hv, Nat.add_sub_cancel]
  · intro i v hv h0 hp
    have hvm := List.mem_of_getElem? hv
    refine ⟨_, hphys v hvm, ?_⟩
    unfold meshCalls networkCalls
    simp only [List.mem_append]
    refine .inl (.inl (.inr (.inl (.inr (List.mem_map.2 ⟨v, List.mem_filter.2
      ⟨hl.mem_vertices.2 ⟨hvm, h0⟩, decide_eq_true hp⟩, ?_⟩)))))
    rw [hf.ids i v hv, Nat.add_sub_cancel]

/-- C87 (errors).  A network without graph raises `AttributeError`. -/
theorem C87_rejects {b : Builder P} {d : List (Call P) × List Int} {net : Network P}
    (h : describe 2 b = .ok d) (hn : net.graph = none) :
    generate 2 b (some net) = .error .attributeError := by
  unfold generate
  rw [h, Res.bind_ok]
  dsimp only
  rw [if_neg (by simp)]
  have : describeNetwork (net.shift b.points.length b.cells.length) = .error .attributeError := by
    unfold describeNetwork nodesOf Network.shift
    rw [hn]
    rfl
  rw [this]
  rfl

/-! ### Networks of `n` fractures, of which the first two cross -/

/-- The cells of fracture `i`. -/
def fractureCells (n shift i : Nat) : List GCell :=
  [⟨0, 3 * i, some (i + shift : Nat), some (2 * i), [], [], []⟩,
    ⟨0, 3 * i + 1, some (i + shift : Nat), some (2 * i + 1), [], [], []⟩,
    ⟨1, 3 * i + 2, some (i + shift : Nat), none, [3 * i, 3 * i + 1], [],
      if i = 0 then [3 * n + 1, 3 * n + 2] else if i = 1 then [3 * n + 3, 3 * n + 4] else []⟩]

/-- All cells; the vertex of the crossing has the code of the two fractures (C49). -/
def crossCells (n shift : Nat) (code : Int) : List GCell :=
  (List.range n).flatMap (fractureCells n shift) ++
  [⟨0, 3 * n, some code, some (2 * n), [], [], []⟩,
    ⟨1, 3 * n + 1, some (shift : Int), none, [0, 3 * n], [], []⟩,
    ⟨1, 3 * n + 2, some (shift : Int), none, [3 * n, 1], [], []⟩,
    ⟨1, 3 * n + 3, some (shift + 1 : Int), none, [3, 3 * n], [], []⟩,
    ⟨1, 3 * n + 4, some (shift + 1 : Int), none, [3 * n, 4], [], []⟩]

/-- The network with the graph of all cells or of the whole edges. -/
def crossing (all : Bool) (n shift : Nat) (code : Int) : Network Nat :=
  ⟨List.range (2 * n + 1), crossCells n shift code,
    (networkGraph 2 all (crossCells n shift code)).toOption,
    (List.range n).map fun i => ((i + shift : Nat) : Int)⟩

/-- The calls for a square with the network. -/
def squareCalls (tags : Dict Name Int) (net : Network Nat) : Option (List (Call Nat)) :=
  (buildArea (.new tags) [100, 101, 102, 103]).toOption.bind fun b =>
    (generate 2 b (some net)).toOption

/-- Tags that differ from those of the fractures. -/
def farTags : Dict Name Int := [(.area, 100), (.bc 0, 101), (.bc 1, 102), (.bc 2, 103), (.bc 3, 104)]

example : (squareCalls farTags (crossing true 2 1 5)).map groupKeys = some
    [(1, 101), (1, 102), (1, 103), (1, 104), (2, 100), (0, 1), (0, 2), (0, 5), (1, 1), (1, 2)] := by
  decide +kernel

/-- The network of two crossing fractures is as assumed. -/
theorem crossing_fine : Fine (crossing true 2 1 5) 0 0 := by
  have hlen : (crossing true 2 1 5).cells.length = 11 := by decide
  have hv : ∀ i, IsVertex (crossing true 2 1 5).cells i ↔ i ∈ [0, 1, 3, 4, 6] := by
    intro i
    constructor
    · rintro ⟨c, hc, h0⟩
      have hi := (List.getElem?_eq_some_iff.1 hc).1
      rw [hlen] at hi
      interval_cases i <;> first | decide | (cases hc; cases h0)
    · intro hi
      simp only [List.mem_cons, List.not_mem_nil, or_false] at hi
      rcases hi with rfl | rfl | rfl | rfl | rfl <;> exact ⟨_, rfl, rfl⟩
  refine ⟨?_, ?_, ?_, ?_, ?_, ?_, ?_⟩
  · intro i c hc
    have hi := (List.getElem?_eq_some_iff.1 hc).1
    rw [hlen] at hi
    interval_cases i <;> cases hc <;> rfl
  · have : ∀ c ∈ (crossing true 2 1 5).cells, c.physical.isSome := by decide
    exact fun c hc => Option.isSome_iff_exists.1 (this c hc)
  · have : ∀ c ∈ (crossing true 2 1 5).cells, c.dimension = 0 → c.boundary = [] ∧ c.immersed = [] ∧
        ∃ k ∈ c.pointId, 0 ≤ k ∧ k < 0 + (crossing true 2 1 5).points.length := by decide
    intro c hc h0
    obtain ⟨h1, h2, k, h3, h4⟩ := this c hc h0
    exact ⟨h1, h2, k, h3, h4⟩
  · have : ∀ c ∈ (crossing true 2 1 5).cells, c.dimension ≠ 0 → c.dimension = 1 ∧
        c.boundary = [c.boundary.headD 0, c.boundary.getLastD 0] ∧
        c.boundary.headD 0 ∈ [0, 1, 3, 4, 6] ∧ c.boundary.getLastD 0 ∈ [0, 1, 3, 4, 6] := by decide
    intro c hc h0
    obtain ⟨h1, h2, h3, h4⟩ := this c hc h0
    exact ⟨h1, _, _, h2, (hv _).2 h3, (hv _).2 h4⟩
  · have : ∀ c ∈ (crossing true 2 1 5).cells, ∀ j ∈ c.immersed,
        ∃ d ∈ (crossing true 2 1 5).cells[j]?, d.dimension = 1 ∧ d.immersed = [] := by decide
    intro c hc j hj
    obtain ⟨d, h1, h2⟩ := this c hc j hj
    exact ⟨d, h1, h2⟩
  · decide
  · intro i hi
    have := (hv i).1 hi
    revert i
    have : ∀ i ∈ [0, 1, 3, 4, 6], ∃ c ∈ (crossing true 2 1 5).cells, i ∈ c.boundary := by decide
    exact fun i _ hi => this i hi

/-- C87.  After `write_mesh` the network has its own numbers of points again, but its cells keep the
numbers they got for the mesh. -/
theorem C87_write (net : Network P) (points cells : Nat) :
    (net.shift points cells).restore points =
      { net with cells := net.cells.map fun c => { c with id := c.id + cells } } := by
  unfold Network.shift Network.restore
  simp only [List.map_map, Network.mk.injEq, true_and, and_true]
  refine List.map_congr_left fun c _ => ?_
  simp only [Function.comp_apply, GCell.mk.injEq, true_and, and_true]
  split
  · rw [Option.map_map]
    have : (fun k => k - points) ∘ (fun k => k + points) = (id : Nat → Nat) := by
      funext k
      simp
    rw [this, Option.map_id_fun, id]
  · rfl

/-- C87 does not hold for a network that was meshed before, when its graph is built again: the numbers of
the cells are no longer their positions, and the mesher raises `IndexError`. -/
theorem C87_again_violated :
    let cells := (((crossing true 2 1 5).shift 4 9).restore 4).cells
    ∃ b g, buildArea (.new farTags) [100, 101, 102, 103] = .ok b ∧
      networkGraph 2 true cells = .ok g ∧
      generate 2 b (some { crossing true 2 1 5 with cells := cells, graph := some g }) =
        .error .indexError := by
  intro cells
  have key : (buildArea (.new farTags) [100, 101, 102, 103]).toOption.any (fun b =>
      (networkGraph 2 true cells).toOption.any fun g => match
        generate 2 b (some { crossing true 2 1 5 with cells := cells, graph := some g }) with
        | .error .indexError => true
        | _ => false) = true := by decide +kernel
  cases h : buildArea (.new farTags) [100, 101, 102, 103] with
  | error e => rw [h] at key; cases key
  | ok b =>
    cases h' : networkGraph 2 true cells with
    | error e => rw [h, h'] at key; cases key
    | ok g =>
      refine ⟨b, g, rfl, rfl, ?_⟩
      rw [h, h'] at key
      dsimp only [Except.toOption, Option.any_some] at key
      split at key
      · assumption
      · cases key

/-- C87 does not hold with the default tags of the square and of the fractures: the second side and the
second fracture share a group. -/
theorem C87_default_violated :
    (squareCalls [] (crossing true 2 1 5)).map (fun calls => (groupKeys calls).count (1, 2)) =
      some 2 := by
  decide +kernel

/-- C87 does not hold when the graph is built without the divided fractures (the default of
`build_grahp`): each piece of a fracture gets a group of the same name. -/
theorem C87_pieces_violated :
    (squareCalls farTags (crossing false 2 1 5)).map (fun calls => (groupKeys calls).count (1, 1)) =
      some 2 := by
  decide +kernel

/-- C87 does not hold for five fractures: the code of the first two is the tag of the fifth, and the
crossing (point 15) becomes one of the vertices of the fifth fracture (points 13 and 14). -/
theorem C87_code_violated :
    Fracture.pairIntegers 1 2 = 5 ∧
    (squareCalls farTags (crossing true 5 1 (Fracture.pairIntegers 1 2))).map (fun calls =>
      decide (.addPhysicalGroup 0 [13, 14, 15] 5 ∈ calls ∨ .addPhysicalGroup 0 [15, 13, 14] 5 ∈ calls)) =
      some true := by
  refine ⟨by decide, ?_⟩
  decide +kernel

#print axioms C87_network
#print axioms C87_valid
#print axioms C87_groups
#print axioms C87_rejects
#print axioms C87_write
#print axioms C87_again_violated
#print axioms C87_default_violated
#print axioms C87_pieces_violated
#print axioms C87_code_violated

end Verif.Builder
