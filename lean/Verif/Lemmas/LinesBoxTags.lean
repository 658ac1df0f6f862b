/-
Helper lemmas on boxes with lines: the graph and the tags.
-/
import Verif.Lemmas.LinesBoxRun

namespace Verif.LinesBox
open MeshBuild MeshGraph Trace MeshMetrics Geometry VertexOps Topology
open MdBox (asEdg asVtx vertexShape close corners IsBox)
open scoped Classical

/-- The edge without its parts -/
def whole (e : LEdge) : Edg := ⟨e.tag, e.physical, e.first, e.second⟩

theorem view_part (e : Edg) : (partShape e).view = partShape e := rfl

theorem view_edge (e : LEdge) : (edgeShape e).view = edgeShape e := by
  unfold edgeShape
  rw [Shape.view, Shape.viewAll_eq, Shape.viewAll_eq, if_neg (by simp), List.map_map]
  rfl

theorem expand_edges (es : List LEdge) : Shape.expand (es.map edgeShape) = (allPieces es).map partShape := by
  unfold Shape.expand allPieces
  rw [List.flatMap_map, List.map_flatMap]
  congr 1
  funext e
  unfold LEdge.pieces
  by_cases h : e.parts = []
  · rw [if_pos h, if_pos (by simp [edgeShape, Shape.immersed, h])]
    simp [edgeShape, partShape, h]
  · rw [if_neg h, if_neg (by simp [edgeShape, Shape.immersed, h])]
    rfl

theorem view_wire (t : Int) (v : Vtx) (es : List LEdge) :
    (Shape.composed .wire t none [vertexShape v, vertexShape v] (es.map edgeShape)).view =
      .composed .wire t none [vertexShape v, vertexShape v] ((allPieces es).map partShape) := by
  rw [Shape.view, Shape.viewAll_eq, Shape.viewAll_eq, if_pos rfl, List.map_map,
    show es.map (Shape.view ∘ edgeShape) = es.map edgeShape from List.map_congr_left fun e _ => view_edge e,
    expand_edges]
  rfl

theorem view_face (area : Option Int) (t : Int) (v : Vtx) (es ls : List LEdge) :
    (Shape.composed .face 0 area [.composed .wire t none [vertexShape v, vertexShape v] (es.map edgeShape)]
      (ls.map edgeShape)).view =
      .composed .face 0 area [.composed .wire t none [vertexShape v, vertexShape v] ((allPieces es).map partShape)]
        (ls.map edgeShape) := by
  rw [Shape.view, Shape.viewAll_eq, Shape.viewAll_eq, if_neg (by simp), List.map_map, List.map_singleton, view_wire,
    show ls.map (Shape.view ∘ edgeShape) = ls.map edgeShape from List.map_congr_left fun e _ => view_edge e]

theorem gatherAll_eq (m : Nat) (idx : Int × Int) : ∀ l : List (Shape (Pt ℝ)), Topology.gatherAll m idx l =
    l.flatMap fun c => (idx, c.index m) :: if c.dimension ≠ 0 then gatherEdges m c else []
  | [] => rfl
  | c :: cs => by rw [Topology.gatherAll, gatherAll_eq m idx cs, List.flatMap_cons]

theorem gather_part (e : Edg) : gatherEdges 2 (partShape e) =
    [((1, e.tag), (2, e.first.tag)), ((1, e.tag), (2, e.second.tag))] := by
  simp [partShape, gatherEdges, Topology.gatherAll, vertexShape, Shape.index, Shape.dimension, Shape.tag, Kind.dimension]

theorem gather_edge (e : LEdge) : gatherEdges 2 (edgeShape e) =
    ((1, e.tag), (2, e.first.tag)) :: ((1, e.tag), (2, e.second.tag)) ::
      e.parts.flatMap fun q => ((1, e.tag), (1, q.tag)) :: gatherEdges 2 (partShape q) := by
  unfold edgeShape
  rw [gatherEdges, gatherAll_eq, gatherAll_eq, List.flatMap_map]
  simp [vertexShape, Shape.index, Shape.dimension, Shape.tag, Kind.dimension, partShape]

/-- The pairs of the graph -/
theorem gather_face (area : Option Int) (t : Int) (v : Vtx) (ps : List Edg) (ls : List LEdge) :
    gatherEdges 2 (.composed .face 0 area [.composed .wire t none [vertexShape v, vertexShape v] (ps.map partShape)]
      (ls.map edgeShape)) =
    ((0, 0), (1, t)) :: ((1, t), (2, v.tag)) :: ((1, t), (2, v.tag)) ::
      ((ps.flatMap fun q => ((1, t), (1, q.tag)) :: gatherEdges 2 (partShape q)) ++
      ls.flatMap fun e => ((0, 0), (1, e.tag)) :: gatherEdges 2 (edgeShape e)) := by
  rw [gatherEdges, gatherAll_eq, gatherAll_eq, List.flatMap_map, List.flatMap_singleton]
  rw [if_pos (by simp [Shape.dimension, Kind.dimension]), gatherEdges, gatherAll_eq, gatherAll_eq, List.flatMap_map]
  simp [vertexShape, Shape.index, Shape.dimension, Shape.tag, Kind.dimension, partShape, edgeShape]

theorem node_iff (area : Option Int) (t : Int) (v : Vtx) (ps : List Edg) (ls : List LEdge) {k : Int} :
    ((2 : Int), k) ∈ (DiGraph.ofEdges (gatherEdges 2 (.composed .face 0 area [.composed .wire t none
      [vertexShape v, vertexShape v] (ps.map partShape)] (ls.map edgeShape)))).nodes ↔
    k = v.tag ∨ ∃ e ∈ ps ++ ls.map whole ++ allParts ls, k = e.first.tag ∨ k = e.second.tag := by
  rw [DiGraph.mem_ofEdges_nodes, gather_face]
  constructor
  · rintro ⟨x, hx, h⟩
    simp only [List.mem_cons, List.mem_append, List.mem_flatMap, gather_part, gather_edge,
      List.not_mem_nil, or_false] at hx
    simp only [List.mem_append, allParts, List.mem_map, List.mem_flatMap]
    rcases hx with rfl | rfl | rfl | ⟨q, hq, rfl | rfl | rfl⟩ | ⟨e, he, rfl | rfl | rfl | ⟨q, hq, rfl | rfl | rfl⟩⟩ <;>
      simp only [Prod.mk.injEq, OfNat.ofNat_ne_zero, OfNat.ofNat_ne_one, false_and, or_self, false_or, true_and] at h
    · exact Or.inl h
    · exact Or.inl h
    · exact Or.inr ⟨q, Or.inl (Or.inl hq), Or.inl h⟩
    · exact Or.inr ⟨q, Or.inl (Or.inl hq), Or.inr h⟩
    · exact Or.inr ⟨whole e, Or.inl (Or.inr ⟨e, he, rfl⟩), Or.inl h⟩
    · exact Or.inr ⟨whole e, Or.inl (Or.inr ⟨e, he, rfl⟩), Or.inr h⟩
    · exact Or.inr ⟨q, Or.inr ⟨e, he, hq⟩, Or.inl h⟩
    · exact Or.inr ⟨q, Or.inr ⟨e, he, hq⟩, Or.inr h⟩
  · simp only [List.mem_append, allParts, List.mem_map, List.mem_flatMap]
    rintro (rfl | ⟨q, (hq | ⟨e, he, rfl⟩) | ⟨e, he, hq⟩, h⟩)
    · exact ⟨((1, t), (2, v.tag)), by simp, Or.inr rfl⟩
    · refine ⟨((1, q.tag), (2, k)), ?_, Or.inr rfl⟩
      simp only [List.mem_cons, List.mem_append, List.mem_flatMap, gather_part,
        List.not_mem_nil, or_false]
      refine Or.inr (Or.inr (Or.inr (Or.inl ⟨q, hq, Or.inr ?_⟩)))
      rcases h with rfl | rfl
      · exact Or.inl rfl
      · exact Or.inr rfl
    · refine ⟨((1, e.tag), (2, k)), ?_, Or.inr rfl⟩
      simp only [List.mem_cons, List.mem_append, List.mem_flatMap, gather_edge,
        List.not_mem_nil, or_false]
      refine Or.inr (Or.inr (Or.inr (Or.inr ⟨e, he, Or.inr ?_⟩)))
      rcases h with rfl | rfl
      · exact Or.inl rfl
      · exact Or.inr (Or.inl rfl)
    · refine ⟨((1, q.tag), (2, k)), ?_, Or.inr rfl⟩
      simp only [List.mem_cons, List.mem_append, List.mem_flatMap, gather_edge, gather_part,
        List.not_mem_nil, or_false]
      refine Or.inr (Or.inr (Or.inr (Or.inr ⟨e, he, Or.inr (Or.inr (Or.inr ⟨q, hq, Or.inr ?_⟩))⟩)))
      rcases h with rfl | rfl
      · exact Or.inl rfl
      · exact Or.inr rfl

/-! ### Renaming -/

theorem renameAll_eq (F : Nat × Int → Int) (l : List (Shape (Pt ℝ))) : renameAll F l = l.map (rename F) := by
  induction l with
  | nil => rfl
  | cons s l ih => rw [renameAll, ih, List.map_cons]

theorem rename_part (F : Nat × Int → Int) (e : Edg) : rename F (partShape e) =
    partShape (relabelEdg (fun t => F (0, t)) (fun t => F (1, t)) e) := rfl

theorem rename_edge (F : Nat × Int → Int) (e : LEdge) : rename F (edgeShape e) =
    edgeShape (relabelEdge (fun t => F (0, t)) (fun t => F (1, t)) e) := by
  unfold edgeShape relabelEdge
  rw [rename, renameAll_eq, renameAll_eq, List.map_map, List.map_map]
  rfl

theorem rename_wire (F : Nat × Int → Int) (v : Vtx) (es : List LEdge) : rename F (wireOf id id v es) =
    wireOf (fun t => F (0, t)) (fun t => F (1, t)) v es := by
  rw [wireOf_id, wireOf, rename, renameAll_eq, renameAll_eq, List.map_map,
    show es.map (rename F ∘ edgeShape) = _ from List.map_congr_left fun e _ => rename_edge F e]
  rfl

theorem rename_domain (F : Nat × Int → Int) (h2 : F (2, 0) = 0) (area : Option Int) (v : Vtx) (vs : List Vtx)
    (sides cut : List LEdge) :
    (domainOf id id area v vs sides cut).shapes.map (renameAll F) =
      (domainOf (fun t => F (0, t)) (fun t => F (1, t)) area v vs sides cut).shapes := by
  have hE : ∀ es : List LEdge, (es.map edgeShape).map (rename F) =
      es.map fun e => edgeShape (relabelEdge (fun t => F (0, t)) (fun t => F (1, t)) e) := fun es => by
    rw [List.map_map]
    exact List.map_congr_left fun e _ => rename_edge F e
  have hP : ∀ es : List Edg, (es.map partShape).map (rename F) =
      es.map fun e => partShape (relabelEdg (fun t => F (0, t)) (fun t => F (1, t)) e) := fun es => by
    rw [List.map_map]
    rfl
  rw [domainOf_id]
  simp only [List.map_cons, List.map_nil, renameAll_eq, domainOf]
  rw [List.map_append, List.map_append, List.map_append, hE, hE, hP, List.map_singleton, rename_wire]
  congr 1
  · rw [List.map_map]
    rfl
  · congr 2
    unfold faceOf
    rw [rename, renameAll_eq, renameAll_eq, hE, List.map_singleton, rename_wire]
    simp only [Kind.dimension, h2]

/-- The last assignment counts. -/
theorem newTag_append (a b : List ((Nat × Int) × Int)) (i : Nat × Int) :
    newTag (a ++ b) i = if i ∈ b.map Prod.fst then newTag b i else newTag a i := by
  by_cases h : i ∈ b.map Prod.fst
  · rw [if_pos h]
    unfold newTag
    rw [List.reverse_append, List.find?_append]
    obtain ⟨x, hx, rfl⟩ := List.mem_map.1 h
    cases hf : b.reverse.find? fun a => decide (a.1 = x.1) with
    | none =>
      rw [List.find?_eq_none] at hf
      exact absurd (hf x (by simpa using hx)) (by simp)
    | some y => rfl
  · rw [if_neg h]
    unfold newTag
    rw [List.reverse_append, List.find?_append]
    have : (b.reverse.find? fun a => decide (a.1 = i)) = none := by
      rw [List.find?_eq_none]
      intro x hx hxi
      simp only [decide_eq_true_eq] at hxi
      exact h (List.mem_map.2 ⟨x, by simpa using hx, hxi⟩)
    rw [this]
    rfl

/-- Consecutive tags from `t` on -/
def assign (t : Int) (l : List (Shape (Pt ℝ))) : List ((Nat × Int) × Int) :=
  l.zipIdx.map fun x => (x.1.identity, t + (x.2 : Int))

theorem assign_keys (t : Int) (l : List (Shape (Pt ℝ))) : (assign t l).map Prod.fst = l.map Shape.identity := by
  unfold assign
  rw [List.map_map]
  refine List.ext_getElem (by simp) fun i h1 h2 => by simp

theorem assign_append (t : Int) (a b : List (Shape (Pt ℝ))) :
    assign t (a ++ b) = assign t a ++ assign (t + a.length) b := by
  unfold assign
  rw [List.zipIdx_append, List.map_append, Nat.zero_add, List.zipIdx_eq_map_add (i := a.length), List.map_map]
  congr 1
  refine List.map_congr_left fun x _ => ?_
  simp only [Function.comp_apply, Prod.mk.injEq, true_and]
  push_cast
  ring

theorem newTag_assign {t : Int} {l : List (Shape (Pt ℝ))} (hn : (l.map Shape.identity).Nodup) {k : Nat}
    {s : Shape (Pt ℝ)} (h : l[k]? = some s) : newTag (assign t l) s.identity = t + k := by
  obtain ⟨hk, rfl⟩ := List.getElem?_eq_some_iff.1 h
  unfold newTag
  rw [find_of_unique (x := (l[k].identity, t + (k : Int)))]
  · rw [List.mem_reverse]
    refine List.mem_map.2 ⟨(l[k], k), ?_, rfl⟩
    rw [List.mem_iff_getElem?]
    exact ⟨k, by simp [List.getElem?_eq_getElem hk]⟩
  · simp
  · intro y hy hq
    rw [List.mem_reverse] at hy
    obtain ⟨x, hx, rfl⟩ := List.mem_map.1 hy
    obtain ⟨j, hj⟩ := List.mem_iff_getElem?.1 hx
    rw [List.getElem?_zipIdx, Option.map_eq_some_iff] at hj
    obtain ⟨s, hs, rfl⟩ := hj
    simp only [decide_eq_true_eq, zero_add] at hq ⊢
    obtain ⟨hj, rfl⟩ := List.getElem?_eq_some_iff.1 hs
    have : j = k := by
      refine (List.Nodup.getElem_inj_iff hn (hi := by simpa using hj) (hj := by simpa using hk)).1 ?_
      simpa using hq
    subst this
    rfl

theorem assignments_eq (l : List (Shape (Pt ℝ))) : assignments l = assign 0 (taggedShapes l) := by
  unfold assignments assign
  simp

theorem nodup_consec {α : Type} {t : α → Int} {c : Int} {l : List α}
    (h : ∀ (k : Nat) e, l[k]? = some e → t e = c + k) : (l.map t).Nodup := by
  refine List.nodup_iff_injective_get.2 fun i j hij => ?_
  simp only [List.get_eq_getElem, List.getElem_map] at hij
  rw [h i _ (List.getElem?_eq_getElem _), h j _ (List.getElem?_eq_getElem _)] at hij
  ext
  omega

theorem taggedShapes_append (a b : List (Shape (Pt ℝ))) : taggedShapes (a ++ b) = taggedShapes a ++ taggedShapes b := by
  simp [taggedShapes]

theorem tagged_parts (es : List Edg) : taggedShapes (es.map partShape) = es.map partShape := by
  unfold taggedShapes
  rw [List.flatMap_map]
  induction es with
  | nil => rfl
  | cons a l ih => rw [List.flatMap_cons, List.map_cons, ih]; rfl

theorem tagged_vertices (vs : List Vtx) : taggedShapes (vs.map vertexShape) = vs.map vertexShape := by
  unfold taggedShapes
  rw [List.flatMap_map]
  induction vs with
  | nil => rfl
  | cons a l ih => rw [List.flatMap_cons, List.map_cons, ih]; rfl

theorem tagged_edges (es : List LEdge) : taggedShapes (es.map edgeShape) =
    es.flatMap fun e => edgeShape e :: e.parts.map partShape := by
  unfold taggedShapes
  rw [List.flatMap_map]
  refine List.flatMap_congr fun e _ => ?_
  simp only [view_edge]
  rfl

theorem tagged_edges_length (es : List LEdge) : (es.flatMap fun e => edgeShape e :: e.parts.map partShape).length =
    es.length + (allParts es).length := by
  unfold allParts
  induction es with
  | nil => rfl
  | cons e es ih =>
    rw [List.flatMap_cons, List.flatMap_cons, List.length_append, ih]
    simp only [List.length_cons, List.length_map, List.length_append]
    omega

theorem mem_tagged_edges {es : List LEdge} {i : Nat × Int}
    (h : i ∈ (es.flatMap fun e => edgeShape e :: e.parts.map partShape).map Shape.identity) :
    i.1 = 1 ∧ ((∃ e ∈ es, e.tag = i.2) ∨ ∃ e ∈ allParts es, e.tag = i.2) := by
  obtain ⟨s, hs, rfl⟩ := List.mem_map.1 h
  obtain ⟨e, he, hs⟩ := List.mem_flatMap.1 hs
  rcases List.mem_cons.1 hs with rfl | hs
  · exact ⟨rfl, Or.inl ⟨e, he, rfl⟩⟩
  · obtain ⟨q, hq, rfl⟩ := List.mem_map.1 hs
    exact ⟨rfl, Or.inr ⟨q, List.mem_flatMap.2 ⟨e, he, hq⟩, rfl⟩⟩

theorem pieces_mem {es : List LEdge} {q : Edg} (h : q ∈ allPieces es) :
    (∃ e ∈ es, e.parts = [] ∧ q = whole e) ∨ q ∈ allParts es := by
  obtain ⟨e, he, h⟩ := List.mem_flatMap.1 h
  unfold LEdge.pieces at h
  split at h
  · rename_i hp
    exact Or.inl ⟨e, he, hp, List.mem_singleton.1 h⟩
  · exact Or.inr (List.mem_flatMap.2 ⟨e, he, h⟩)

theorem pieces_nodup : ∀ {es : List LEdge}, ((es.map fun e => e.tag) ++ (allParts es).map Edg.tag).Nodup →
    ((allPieces es).map Edg.tag).Nodup
  | [], _ => by simp [allPieces]
  | e :: es, h => by
    have e1 : allPieces (e :: es) = e.pieces ++ allPieces es := rfl
    have e2 : allParts (e :: es) = e.parts ++ allParts es := rfl
    rw [e2, List.map_cons, List.map_append] at h
    have ih := pieces_nodup (es := es) (h.sublist (by
      refine List.Sublist.append (List.sublist_cons_self _ _) (List.sublist_append_right _ _)))
    rw [e1, List.map_append, List.nodup_append]
    rw [List.nodup_append, List.nodup_cons, List.nodup_append] at h
    refine ⟨?_, ih, ?_⟩
    · unfold LEdge.pieces
      split
      · simp
      · exact h.2.1.1
    · intro a ha b hb hab
      subst hab
      obtain ⟨q, hq, rfl⟩ := List.mem_map.1 ha
      obtain ⟨q', hq', hqq⟩ := List.mem_map.1 hb
      unfold LEdge.pieces at hq
      split at hq
      · rw [List.mem_singleton.1 hq] at hqq
        rcases pieces_mem hq' with ⟨e', he', -, rfl⟩ | hq'
        · exact h.1.1 (List.mem_map.2 ⟨e', he', hqq⟩)
        · exact h.2.2 e.tag (by simp) q'.tag (List.mem_append_right _ (List.mem_map.2 ⟨q', hq', rfl⟩)) hqq.symm
      · rcases pieces_mem hq' with ⟨e', he', -, rfl⟩ | hq'
        · exact h.2.2 e'.tag (List.mem_cons_of_mem _ (List.mem_map.2 ⟨e', he', rfl⟩)) q.tag
            (List.mem_append_left _ (List.mem_map.2 ⟨q, hq, rfl⟩)) hqq
        · exact h.2.1.2.2 q.tag (List.mem_map.2 ⟨q, hq, rfl⟩) q'.tag (List.mem_map.2 ⟨q', hq', rfl⟩) hqq.symm

/-- The tags after retagging -/
theorem numbering_spec {n : Nat} {kept : List Vtx} {sides cut : List LEdge} {area : Option Int} {v : Vtx}
    (hv : (kept.map Vtx.tag).Nodup) (hn : sides.length = n)
    (hs : ∀ (k : Nat) e, sides[k]? = some e → e.tag = k)
    (hc : ∀ (k : Nat) e, cut[k]? = some e → e.tag = n + 1 + k)
    (hp : ∀ (k : Nat) e, (allParts sides ++ allParts cut)[k]? = some e → e.tag = n + 1 + cut.length + k) :
    ∃ f g, Numbering n kept sides cut f g ∧
      retagShapes (domainOf id id area v kept sides cut) = domainOf f g area v kept sides cut := by
  set Q := allParts sides ++ allParts cut with hQ
  set X := sides.flatMap fun e => edgeShape e :: e.parts.map partShape with hX
  set Y := cut.flatMap fun e => edgeShape e :: e.parts.map partShape with hY
  set W : List (Shape (Pt ℝ)) := wireOf id id v sides :: (allPieces sides).map partShape with hW
  set A := kept.map vertexShape with hA
  set C : List (Shape (Pt ℝ)) := .composed .face 0 area [wireOf id id v sides] (cut.map edgeShape) ::
    cut.map edgeShape with hC
  set F := newTag (assign 0 A ++ (assign 0 (X ++ W ++ Y ++ Q.map partShape) ++ assign 0 C)) with hF
  have hass : (domainOf id id area v kept sides cut).shapes.flatMap assignments =
      assign 0 A ++ (assign 0 (X ++ W ++ Y ++ Q.map partShape) ++ assign 0 C) := by
    rw [domainOf_id]
    simp only [List.flatMap_cons, List.flatMap_nil, List.append_nil, assignments_eq]
    rw [tagged_vertices, taggedShapes_append, taggedShapes_append, taggedShapes_append, tagged_edges, tagged_edges,
      tagged_parts]
    have hw : taggedShapes [wireOf id id v sides] = W := by
      simp only [taggedShapes, List.flatMap_singleton]
      rw [wireOf_id, view_wire, hW, wireOf_id]
      rfl
    have hf : taggedShapes [(.composed .face 0 area [wireOf id id v sides] (cut.map edgeShape) : Shape (Pt ℝ))] = C := by
      simp only [taggedShapes, List.flatMap_singleton]
      rw [wireOf_id, view_face, hC, wireOf_id]
      rfl
    rw [hw, hf]
  have hret : retagShapes (domainOf id id area v kept sides cut) =
      ⟨2, (domainOf id id area v kept sides cut).shapes.map (renameAll F)⟩ := by
    unfold retagShapes
    rw [hass]
    rfl
  -- where the tags are
  have side_lt : ∀ e ∈ sides, e.tag < n := fun e he => by
    obtain ⟨k, hk⟩ := List.mem_iff_getElem?.1 he
    have := (List.getElem?_eq_some_iff.1 hk).1
    rw [hs k e hk]
    omega
  have cut_between : ∀ e ∈ cut, n < e.tag ∧ e.tag < n + 1 + cut.length := fun e he => by
    obtain ⟨k, hk⟩ := List.mem_iff_getElem?.1 he
    have := (List.getElem?_eq_some_iff.1 hk).1
    rw [hc k e hk]
    omega
  have part_ge : ∀ e ∈ Q, n + 1 + cut.length ≤ e.tag := fun e he => by
    obtain ⟨k, hk⟩ := List.mem_iff_getElem?.1 he
    rw [hp k e hk]
    omega
  have Qs : ∀ e ∈ allParts sides, e ∈ Q := fun e he => List.mem_append_left _ he
  have Qc : ∀ e ∈ allParts cut, e ∈ Q := fun e he => List.mem_append_right _ he
  have keyC : ∀ i ∈ C.map Shape.identity, i = (2, 0) ∨ i.1 = 1 ∧ n < i.2 ∧ i.2 < n + 1 + cut.length := by
    intro i h
    rw [hC, List.map_cons, List.mem_cons] at h
    rcases h with rfl | h
    · exact Or.inl rfl
    · obtain ⟨s, hs', rfl⟩ := List.mem_map.1 h
      obtain ⟨e, he, rfl⟩ := List.mem_map.1 hs'
      exact Or.inr ⟨rfl, cut_between e he⟩
  have keyQ : ∀ i ∈ (Q.map partShape).map Shape.identity, i.1 = 1 ∧ n + 1 + cut.length ≤ i.2 := by
    intro i h
    obtain ⟨s, hs', rfl⟩ := List.mem_map.1 h
    obtain ⟨e, he, rfl⟩ := List.mem_map.1 hs'
    exact ⟨rfl, part_ge e he⟩
  have keyY : ∀ i ∈ Y.map Shape.identity, i.1 = 1 ∧ n < i.2 := by
    intro i h
    obtain ⟨h1, ⟨e, he, h2⟩ | ⟨e, he, h2⟩⟩ := mem_tagged_edges h
    · exact ⟨h1, h2 ▸ (cut_between e he).1⟩
    · have := part_ge e (Qc e he)
      exact ⟨h1, by omega⟩
  have keyW : ∀ i ∈ W.map Shape.identity, i.1 = 1 := by
    intro i h
    rw [hW, List.map_cons, List.mem_cons] at h
    rcases h with rfl | h
    · rfl
    · obtain ⟨s, hs', rfl⟩ := List.mem_map.1 h
      obtain ⟨e, he, rfl⟩ := List.mem_map.1 hs'
      rfl
  have keyX : ∀ i ∈ X.map Shape.identity, i.1 = 1 := fun i h => (mem_tagged_edges h).1
  have nodupC : (C.map Shape.identity).Nodup := by
    rw [hC, List.map_cons, List.nodup_cons]
    constructor
    · intro h
      obtain ⟨s, hs', h'⟩ := List.mem_map.1 h
      obtain ⟨e, he, rfl⟩ := List.mem_map.1 hs'
      have := congrArg Prod.fst h'
      simp [edgeShape, Shape.identity, Shape.dimension, Kind.dimension] at this
    · rw [List.map_map]
      refine List.Nodup.of_map Prod.snd ?_
      rw [List.map_map]
      exact nodup_consec (c := n + 1) (t := fun e : LEdge => e.tag) hc
  have hXl : X.length = n + (allParts sides).length := by rw [hX, tagged_edges_length, hn]
  have hYl : Y.length = cut.length + (allParts cut).length := by rw [hY, tagged_edges_length]
  have sub : ((sides.map fun e => e.tag) ++ (allParts sides).map Edg.tag).Nodup := by
    rw [List.nodup_append]
    refine ⟨nodup_consec (c := 0) fun k e h => by rw [hs k e h]; simp, ?_, ?_⟩
    · refine nodup_consec (c := n + 1 + cut.length) fun k e h => hp k e ?_
      rw [hQ, List.getElem?_append_left (List.getElem?_eq_some_iff.1 h).1, h]
    · intro a ha b hb hab
      obtain ⟨e, he, rfl⟩ := List.mem_map.1 ha
      obtain ⟨q, hq, rfl⟩ := List.mem_map.1 hb
      have h1 := side_lt e he
      have h2 := part_ge q (Qs q hq)
      omega
  have wtag : (wireOf id id v sides).identity = (1, (n : Int)) := by rw [wireOf_id, hn]; rfl
  have nodupW : (W.map Shape.identity).Nodup := by
    rw [hW, List.map_cons, List.nodup_cons, wtag, List.map_map]
    constructor
    · intro h
      obtain ⟨q, hq, h'⟩ := List.mem_map.1 h
      have h' : q.tag = n := congrArg Prod.snd h'
      rcases pieces_mem hq with ⟨e, he, -, rfl⟩ | hq
      · have := side_lt e he
        simp only [whole] at h'
        omega
      · have := part_ge q (Qs q hq)
        omega
    · refine List.Nodup.of_map Prod.snd ?_
      rw [List.map_map]
      exact pieces_nodup sub
  -- values
  have Fmid : ∀ t : Int, (¬ ((n : Int) < t ∧ t < n + 1 + cut.length)) → (1, t) ∈ (X ++ W ++ Y ++ Q.map partShape).map
      Shape.identity → F (1, t) = newTag (assign 0 (X ++ W ++ Y ++ Q.map partShape)) (1, t) := by
    intro t ht hm
    have h1 : (1, t) ∉ C.map Shape.identity := fun h => by
      rcases keyC _ h with h | h
      · simp at h
      · exact ht h.2
    rw [hF, newTag_append, if_pos (by rw [List.map_append, assign_keys, assign_keys]; exact List.mem_append_left _ hm),
      newTag_append, if_neg (by rw [assign_keys]; exact h1)]
  have Fwire : ∀ (k : Nat) s, W[k]? = some s → s.identity.2 ≤ n → F (1, s.identity.2) = n + (allParts sides).length + k := by
    intro k s hk hle
    have hm : s.identity ∈ W.map Shape.identity := List.mem_map.2 ⟨s, List.mem_of_getElem? hk, rfl⟩
    have hid : s.identity = (1, s.identity.2) := by
      have := keyW _ hm
      exact Prod.ext this rfl
    rw [hid] at hm
    rw [Fmid _ (by omega) (by simp only [List.map_append, List.mem_append]; exact Or.inl (Or.inl (Or.inr hm))),
      assign_append, newTag_append, if_neg, assign_append, newTag_append, if_neg, assign_append, newTag_append, if_pos,
      ← hid, newTag_assign nodupW hk]
    · rw [hXl]
      push_cast
      ring
    · rw [assign_keys]
      exact hm
    · rw [assign_keys]
      intro h
      have := (keyY _ h).2
      simp only at this
      omega
    · rw [assign_keys]
      intro h
      have := (keyQ _ h).2
      simp only at this
      omega
  refine ⟨fun t => F (0, t), fun t => F (1, t), ⟨?_, ?_, ?_, ?_, ?_⟩, ?_⟩
  · intro k w hk
    have hk' : A[k]? = some (vertexShape w) := by rw [hA, List.getElem?_map, hk]; rfl
    have h1 : (0, w.tag) ∉ (assign 0 (X ++ W ++ Y ++ Q.map partShape) ++ assign 0 C).map Prod.fst := by
      rw [List.map_append, assign_keys, assign_keys]
      simp only [List.map_append, List.mem_append]
      rintro ((((h | h) | h) | h) | h)
      · simpa using keyX _ h
      · simpa using keyW _ h
      · simpa using (keyY _ h).1
      · simpa using (keyQ _ h).1
      · rcases keyC _ h with h | h
        · simp at h
        · simpa using h.1
    have nodupA : (A.map Shape.identity).Nodup := by
      refine List.Nodup.of_map Prod.snd ?_
      rw [hA, List.map_map, List.map_map]
      exact hv
    have h2 := newTag_assign (t := 0) nodupA hk'
    show F (0, w.tag) = k
    rw [hF, newTag_append, if_neg h1]
    rw [show (0, w.tag) = (vertexShape w).identity from rfl, h2, zero_add]
  · have := Fwire 0 _ (by rw [hW]; rfl) (by rw [wtag])
    rw [wtag] at this
    simpa using this
  · intro k e hk hlt
    have := Fwire (k + 1) (partShape e) (by rw [hW, List.getElem?_cons_succ, List.getElem?_map, hk]; rfl)
      (le_of_lt hlt)
    show F (1, e.tag) = _
    rw [show (1, e.tag) = (1, (partShape e).identity.2) from rfl, this]
    push_cast
    ring
  · intro j e hj
    have hj' : C[j + 1]? = some (edgeShape e) := by rw [hC, List.getElem?_cons_succ, List.getElem?_map, hj]; rfl
    have hm : (edgeShape e).identity ∈ C.map Shape.identity := List.mem_map.2 ⟨_, List.mem_of_getElem? hj', rfl⟩
    show F (1, e.tag) = _
    rw [show (1, e.tag) = (edgeShape e).identity from rfl, hF, newTag_append,
      if_pos (by rw [List.map_append, assign_keys, assign_keys]; exact List.mem_append_right _ hm), newTag_append,
      if_pos (by rw [assign_keys]; exact hm), newTag_assign nodupC hj']
    push_cast
    ring
  · intro k e hk
    have hk' : (Q.map partShape)[k]? = some (partShape e) := by rw [List.getElem?_map, hk]; rfl
    have hm : (1, e.tag) ∈ (Q.map partShape).map Shape.identity := List.mem_map.2 ⟨_, List.mem_of_getElem? hk', rfl⟩
    have nodupQ : ((Q.map partShape).map Shape.identity).Nodup := by
      refine List.Nodup.of_map Prod.snd ?_
      rw [List.map_map, List.map_map]
      exact nodup_consec (c := n + 1 + cut.length) hp
    have hge := part_ge e (List.mem_of_getElem? hk)
    show F (1, e.tag) = _
    rw [Fmid _ (by omega) (by rw [List.map_append]; exact List.mem_append_right _ hm), assign_append, newTag_append,
      if_pos (by rw [assign_keys]; exact hm), show (1, e.tag) = (partShape e).identity from rfl,
      newTag_assign nodupQ hk']
    rw [List.length_append, List.length_append, hXl, hYl, hW, List.length_cons, List.length_map]
    push_cast
    ring
  · rw [hret, rename_domain F ?_]
    · rfl
    · have hm : (2, (0 : Int)) ∈ C.map Shape.identity := List.mem_cons_self
      rw [hF, newTag_append,
        if_pos (by rw [List.map_append, assign_keys, assign_keys]; exact List.mem_append_right _ hm), newTag_append,
        if_pos (by rw [assign_keys]; exact hm)]
      exact newTag_assign (t := 0) (k := 0) nodupC (by rw [hC]; rfl)

end Verif.LinesBox
