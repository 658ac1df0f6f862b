/-
Helper lemmas on boxes with lines: the steps up to the removal of vertices.
-/
import Verif.Lemmas.LinesBox

namespace Verif.LinesBox
open MeshBuild MeshGraph Trace MeshMetrics Geometry VertexOps Topology
open MdBox (asEdg asVtx vertexShape close corners IsBox)
open scoped Classical

theorem find_of_unique {α : Type} {q : α → Bool} : ∀ {l : List α} {x : α}, x ∈ l → q x = true →
    (∀ y ∈ l, q y = true → y = x) → l.find? q = some x
  | y :: l, x, hx, hq, h => by
    rw [List.find?_cons]
    by_cases hy : q y = true
    · rw [hy]
      simp [h y (by simp) hy]
    · rw [Bool.not_eq_true] at hy
      rw [hy]
      simp only
      rcases List.mem_cons.1 hx with rfl | hx
      · rw [hq] at hy; simp at hy
      · exact find_of_unique hx hq fun z hz => h z (by simp [hz])

theorem current_eq {edges : List (Shape (Pt ℝ))} {s x : Shape (Pt ℝ)} (hx : x ∈ edges) (hc : x.composite = false)
    (ht : x.tag = s.tag) (h : ∀ y ∈ edges, y.composite = false → y.tag = s.tag → y = x) : current edges s = x := by
  unfold current
  rw [find_of_unique hx (by simp [hc, ht]) fun y hy hq => by
    simp only [decide_eq_true_eq] at hq
    exact h y hy hq.1 hq.2]
  rfl

theorem edgeShape_id (e : LEdge) : edgeShape (relabelEdge id id e) = edgeShape e := by
  obtain ⟨t, q, a, b, ps⟩ := e
  simp only [edgeShape, relabelEdge, relabelVtx, id_eq, List.map_map]
  congr 1

theorem wireOf_id (v : Vtx) (sides : List LEdge) : wireOf id id v sides =
    .composed .wire sides.length none [vertexShape v, vertexShape v] (sides.map edgeShape) := by
  unfold wireOf
  simp only [edgeShape_id]
  rfl

theorem updateWire_edge (edges : List (Shape (Pt ℝ))) (e : LEdge) : updateWire edges (edgeShape e) = edgeShape e := rfl

section
variable {points : List (Pt ℝ)} {tags : Dict String Int} {rock : List Edg} {p : Int} {lines : List Line}
  {N : Nat → Set (Pt ℝ)} {ptag : Int} {out : Fragments} {sides cut : List LEdge}

theorem forall_currents {edges : List (Shape (Pt ℝ))} {l : List Edg} {es : List LEdge} (hlen : l.length = es.length)
    (h : ∀ (k : Nat) r e, l[k]? = some r → es[k]? = some e → current edges (partShape r) = edgeShape e) :
    (l.map partShape).map (current edges) = es.map edgeShape := by
  refine List.ext_getElem (by simp [hlen]) fun k h1 h2 => ?_
  simp only [List.getElem_map]
  exact h k _ _ (List.getElem?_eq_getElem _) (List.getElem?_eq_getElem _)

/-- The domain after the edges are cut -/
theorem update_spec (hB : IsBox points tags rock) {etag vtag : Int}
    (F : IsFragments N (drawn rock (lineEdges points.length p lines)) etag vtag ptag out)
    (hi : out.items = sides.map some ++ none :: cut.map some) (hl : sides.length = rock.length)
    (hc : cut.length = (lineEdges points.length p lines).length) (V : List (Shape (Pt ℝ))) (v : Vtx)
    (area : Option Int) :
    update ⟨2, [V, rock.map partShape ++
        [.composed .wire points.length none [vertexShape v, vertexShape v] (rock.map partShape)] ++
          (lineEdges points.length p lines).map partShape,
        [.composed .face 0 area [.composed .wire points.length none [vertexShape v, vertexShape v]
          (rock.map partShape)] ((lineEdges points.length p lines).map partShape)]]⟩ out.items =
      .ok ⟨2, [V, sides.map edgeShape ++ [wireOf id id v sides] ++ cut.map edgeShape,
        [.composed .face 0 area [wireOf id id v sides] (cut.map edgeShape)]]⟩ := by
  set ls := lineEdges points.length p lines with hls
  set w : Shape (Pt ℝ) := .composed .wire points.length none [vertexShape v, vertexShape v] (rock.map partShape) with hw
  have hn : rock.length = points.length := hB.length
  have he : writeEdges (rock.map partShape ++ [w] ++ ls.map partShape) out.items =
      sides.map edgeShape ++ [w] ++ cut.map edgeShape := by
    rw [hi, List.append_assoc, writeEdges_eq _ _ (by simp [hl])]
    simp only [List.singleton_append, writeEdges, List.append_assoc]
    have := writeEdges_eq (ls.map partShape) cut (by simp [hc]) [] []
    simp only [List.append_nil] at this
    rw [this]
    simp [writeEdges]
  set edges := sides.map edgeShape ++ [w] ++ cut.map edgeShape with hedges
  have uniq : ∀ (x : LEdge), edgeShape x ∈ edges → ∀ y ∈ edges, y.composite = false → y.tag = x.tag →
      y = edgeShape x := by
    have key : ∀ y ∈ edges, y.composite = false → (∃ (k : Nat) (e : LEdge), sides[k]? = some e ∧ y = edgeShape e ∧ e.tag = k) ∨
        ∃ (k : Nat) (e : LEdge), cut[k]? = some e ∧ y = edgeShape e ∧ e.tag = points.length + 1 + k := by
      intro y hy hyc
      simp only [hedges, List.mem_append, List.mem_map, List.mem_singleton] at hy
      rcases hy with (⟨e, he, rfl⟩ | rfl) | ⟨e, he, rfl⟩
      · obtain ⟨k, hk⟩ := List.mem_iff_getElem?.1 he
        exact Or.inl ⟨k, e, hk, rfl, side_tag hB F hi hl hk⟩
      · simp [hw, Shape.composite, Kind.composite] at hyc
      · obtain ⟨k, hk⟩ := List.mem_iff_getElem?.1 he
        exact Or.inr ⟨k, e, hk, rfl, cut_tag hB F hi hl hc hk⟩
    intro x hx y hy hyc hyt
    have bound : ∀ {k : Nat} {e : LEdge}, sides[k]? = some e → k < points.length := fun h => by
      have := (List.getElem?_eq_some_iff.1 h).1
      omega
    have tg : ∀ e, (edgeShape e).tag = e.tag := fun _ => rfl
    have hxt : (edgeShape x).tag = x.tag := rfl
    rcases key y hy hyc with ⟨k, e, h1, rfl, h3⟩ | ⟨k, e, h1, rfl, h3⟩ <;>
      rcases key _ hx rfl with ⟨k', e', h1', h2', h3'⟩ | ⟨k', e', h1', h2', h3'⟩ <;>
      rw [tg] at hyt <;> rw [h2', tg] at hxt <;> rw [h2'] <;> rw [← hxt, h3', h3] at hyt
    · have : k = k' := by omega
      subst this
      rw [h1] at h1'
      rw [Option.some.inj h1']
    · have := bound h1
      omega
    · have := bound h1'
      omega
    · have : k = k' := by omega
      subst this
      rw [h1] at h1'
      rw [Option.some.inj h1']
  have c1 : (rock.map partShape).map (current edges) = sides.map edgeShape := by
    refine forall_currents (by omega) fun k r e hr hs => ?_
    have hm : edgeShape e ∈ edges := by
      simp only [hedges, List.mem_append, List.mem_map]
      exact Or.inl (Or.inl ⟨e, List.mem_of_getElem? hs, rfl⟩)
    have ht : e.tag = r.tag := by rw [side_tag hB F hi hl hs, (hB.side k r hr).1]
    refine current_eq hm rfl ht fun y hy h1 h2 => uniq e hm y hy h1 ?_
    rw [h2, ht]
    rfl
  have c2 : (ls.map partShape).map (current edges) = cut.map edgeShape := by
    refine forall_currents (by omega) fun k r e hr hs => ?_
    have hm : edgeShape e ∈ edges := by
      simp only [hedges, List.mem_append, List.mem_map]
      exact Or.inr ⟨e, List.mem_of_getElem? hs, rfl⟩
    have ht : e.tag = r.tag := by
      rw [cut_tag hB F hi hl hc hs]
      obtain ⟨l, -, rfl⟩ := lineEdges_getElem? hr
      rfl
    refine current_eq hm rfl ht fun y hy h1 h2 => uniq e hm y hy h1 ?_
    rw [h2, ht]
    rfl
  have hw' : updateWire edges w = wireOf id id v sides := by
    rw [wireOf_id, hl, hn]
    simp only [hw, updateWire, Kind.composite, if_true, c1]
  have hmap : edges.map (updateWire edges) = sides.map edgeShape ++ [wireOf id id v sides] ++ cut.map edgeShape := by
    have hid : ∀ es : List LEdge, (es.map edgeShape).map (updateWire edges) = es.map edgeShape := fun es => by
      rw [List.map_map]; rfl
    conv_lhs => rw [hedges]
    rw [List.map_append, List.map_append, hid, hid, List.map_singleton, ← hedges, hw']
  unfold update
  simp only [show ∀ a b c : List (Shape (Pt ℝ)), getIdx [a, b, c] 1 = .ok b from fun _ _ _ => rfl,
    show ∀ a b c : List (Shape (Pt ℝ)), getIdx [a, b, c] 2 = .ok c from fun _ _ _ => rfl, Res.bind_ok, he]
  rw [hmap]
  simp only [List.set_cons_succ, List.set_cons_zero, List.map_singleton, updateFace, hw', c2]
  rfl

theorem physical_mem {V : List Vtx} (hV : ∀ v ∈ V, v.physical = none) (rock ls : List Edg) (area : Option Int)
    (w w' : Int) (b b' i i' j : List (Shape (Pt ℝ))) {t : Int} :
    t ∈ (Domain.all (⟨2, [V.map vertexShape, rock.map partShape ++ [.composed .wire w none b i] ++ ls.map partShape,
      [.composed .face 0 area b' j]]⟩ : Domain (Pt ℝ))).filterMap Shape.physicalTag ↔
      (∃ e ∈ rock, e.physical = some t) ∨ (∃ e ∈ ls, e.physical = some t) ∨ area = some t := by
  simp only [Domain.all, List.flatten_cons, List.flatten_nil, List.append_nil, List.mem_filterMap, List.mem_append,
    List.mem_map, List.mem_singleton]
  constructor
  · rintro ⟨s, h | ((h | h) | h) | h, h'⟩
    · obtain ⟨v, hv, rfl⟩ := h
      simp [vertexShape, Shape.physicalTag, hV v hv] at h'
    · obtain ⟨e, he, rfl⟩ := h
      exact Or.inl ⟨e, he, h'⟩
    · subst h
      simp [Shape.physicalTag] at h'
    · obtain ⟨e, he, rfl⟩ := h
      exact Or.inr (Or.inl ⟨e, he, h'⟩)
    · subst h
      exact Or.inr (Or.inr h')
  · rintro (⟨e, he, h⟩ | ⟨e, he, h⟩ | h)
    · exact ⟨_, Or.inr (Or.inl (Or.inl (Or.inl ⟨e, he, rfl⟩))), h⟩
    · exact ⟨_, Or.inr (Or.inl (Or.inr ⟨e, he, rfl⟩)), h⟩
    · exact ⟨_, Or.inr (Or.inr rfl), h⟩

theorem corners_physical {v : Vtx} (h : v ∈ corners points) : v.physical = none := by
  obtain ⟨x, -, rfl⟩ := List.mem_map.1 h
  rfl

theorem rock_physical (hB : IsBox points tags rock) {t : Int} :
    (∃ e ∈ rock, e.physical = some t) ↔ ∃ i < points.length, tags.get? (bcLabel i) = some t := by
  constructor
  · rintro ⟨e, he, h⟩
    obtain ⟨i, hi⟩ := List.mem_iff_getElem?.1 he
    have := (List.getElem?_eq_some_iff.1 hi).1
    rw [hB.length] at this
    exact ⟨i, this, by rw [← (hB.side i e hi).2.1, h]⟩
  · rintro ⟨i, hi, h⟩
    rw [← hB.length] at hi
    refine ⟨rock[i], List.getElem_mem _, ?_⟩
    rw [(hB.side i _ (List.getElem?_eq_getElem hi)).2.1, h]

theorem lines_physical {n : Nat} {t : Int} :
    (∃ e ∈ lineEdges n p lines, e.physical = some t) ↔ p < t ∧ t ≤ p + lines.length := by
  constructor
  · rintro ⟨e, he, h⟩
    obtain ⟨j, hj⟩ := List.mem_iff_getElem?.1 he
    have hlt := (List.getElem?_eq_some_iff.1 hj).1
    rw [lineEdges_length] at hlt
    obtain ⟨l, -, rfl⟩ := lineEdges_getElem? hj
    simp only [lineEdge, Option.some.injEq] at h
    omega
  · rintro ⟨h1, h2⟩
    obtain ⟨j, hj⟩ : ∃ j : Nat, t = p + 1 + j := ⟨(t - p - 1).toNat, by omega⟩
    have hlt : j < (lineEdges n p lines).length := by rw [lineEdges_length]; omega
    refine ⟨_, List.getElem_mem hlt, ?_⟩
    obtain ⟨l, -, h⟩ := lineEdges_getElem? (List.getElem?_eq_getElem hlt)
    rw [h, hj]
    rfl

theorem maxPhysical_box (hB : IsBox points tags rock) (hp : IsMaxTag points.length tags p)
    (w w' : Int) (b b' i i' j : List (Shape (Pt ℝ))) :
    Domain.maxPhysicalTag (⟨2, [(corners points).map vertexShape, rock.map partShape ++ [.composed .wire w none b i],
        [.composed .face 0 (tags.get? "area") b' j]]⟩ : Domain (Pt ℝ)) = .ok p := by
  have key := fun t => physical_mem (V := corners points) (fun v hv => corners_physical hv) rock [] (tags.get? "area")
    w w' b b' i i' j (t := t)
  simp only [List.map_nil, List.append_nil, rock_physical hB, List.not_mem_nil, false_and, exists_false,
    false_or] at key
  unfold Domain.maxPhysicalTag
  rw [intMax_spec]
  refine ⟨(key p).2 hp.1.symm, fun t ht => hp.2 ((key t).1 ht).symm⟩

theorem maxPhysical_lines (hB : IsBox points tags rock) (hp : IsMaxTag points.length tags p)
    (w w' : Int) (b b' i i' j : List (Shape (Pt ℝ))) :
    Domain.maxPhysicalTag (⟨2, [(corners points ++ (lineEdges points.length p lines).flatMap
        fun e => [e.first, e.second]).map vertexShape,
      rock.map partShape ++ [.composed .wire w none b i] ++ (lineEdges points.length p lines).map partShape,
        [.composed .face 0 (tags.get? "area") b' j]]⟩ : Domain (Pt ℝ)) = .ok (p + lines.length) := by
  have hV : ∀ v ∈ corners points ++ (lineEdges points.length p lines).flatMap (fun e => [e.first, e.second]),
      v.physical = none := by
    intro v hv
    rcases List.mem_append.1 hv with hv | hv
    · exact corners_physical hv
    · obtain ⟨e, he, hv⟩ := List.mem_flatMap.1 hv
      obtain ⟨j, hj⟩ := List.mem_iff_getElem?.1 he
      obtain ⟨l, -, rfl⟩ := lineEdges_getElem? hj
      rcases List.mem_cons.1 hv with rfl | hv
      · rfl
      · rw [List.mem_singleton.1 hv]
        rfl
  have key := fun t => physical_mem hV rock (lineEdges points.length p lines) (tags.get? "area")
    w w' b b' i i' j (t := t)
  simp only [rock_physical hB, lines_physical] at key
  unfold Domain.maxPhysicalTag
  rw [intMax_spec]
  refine ⟨(key _).2 ?_, fun t ht => ?_⟩
  · by_cases h0 : lines.length = 0
    · rw [h0, Nat.cast_zero, add_zero]
      exact hp.1.elim (fun h => Or.inr (Or.inr h)) Or.inl
    · exact Or.inr (Or.inl ⟨by omega, le_refl _⟩)
  · rcases (key t).1 ht with h | h | h
    · have := hp.2 (Or.inr h : t ∈ _)
      omega
    · omega
    · have := hp.2 (Or.inl h : t ∈ _)
      omega

theorem domainOf_id (area : Option Int) (v : Vtx) (vs : List Vtx) (sides cut : List LEdge) :
    domainOf id id area v vs sides cut = ⟨2, [vs.map vertexShape,
      sides.map edgeShape ++ [wireOf id id v sides] ++ cut.map edgeShape ++
        (allParts sides ++ allParts cut).map partShape,
      [.composed .face 0 area [wireOf id id v sides] (cut.map edgeShape)]]⟩ := by
  unfold domainOf faceOf
  simp only [edgeShape_id]
  rfl

theorem append0 {d : Nat} {a b c l : List (Shape (Pt ℝ))} (h : ∀ s ∈ l, s.dimension = 0) :
    Domain.append ⟨d, [a, b, c]⟩ l = .ok ⟨d, [a ++ l, b, c]⟩ := by
  rw [MdBox.append_list h (by rfl)]
  rfl

theorem append1 {d : Nat} {a b c l : List (Shape (Pt ℝ))} (h : ∀ s ∈ l, s.dimension = 1) :
    Domain.append ⟨d, [a, b, c]⟩ l = .ok ⟨d, [a, b ++ l, c]⟩ := by
  rw [MdBox.append_list h (by rfl)]
  rfl

/-- Everything up to the point where the domain is fragmented -/
theorem run_until {argsort : List ℝ → List Nat} {argsortTag : List Int → List Nat} (ha : IsArgsort argsortTag)
    (h2 : 2 ≤ points.length) {physicalTags : Option (Dict String Int)} (ht : tags = physicalTags.getD defaultTags2)
    (hp : IsMaxTag points.length tags p) :
    ∃ rock v, IsBox points tags rock ∧ (corners points)[0]? = some v ∧
      ∀ out, intersectEdges argsort (drawn rock (lineEdges points.length p lines)) 2
        (points.length + 1 + lines.length) (points.length + 2 * lines.length) (p + lines.length) = .ok out →
      (∃ N, IsFragments N (drawn rock (lineEdges points.length p lines)) (points.length + 1 + lines.length)
        (points.length + 2 * lines.length) (p + lines.length) out) → ∀ sides cut,
      out.items = sides.map some ++ none :: cut.map some → sides.length = rock.length →
      cut.length = (lineEdges points.length p lines).length →
      buildBoxWithLines argsort argsortTag points lines physicalTags = (do
        let d := domainOf id id (tags.get? "area") v
          (allVertices points (lineEdges points.length p lines) out.vertices) sides cut
        let orientations ← refreshWires d
        let g ← d.buildGraph 2
        let d ← removeVertex d g
        let d := retagShapes d
        let g ← d.buildGraph 2
        pure ⟨d, orientations, g⟩) := by
  obtain ⟨rock, v, hB, hv, hbox⟩ := box_form ha h2 tags
  refine ⟨rock, v, hB, hv, ?_⟩
  rintro out hout ⟨N, F⟩ sides cut hi hl hc
  set ls := lineEdges points.length p lines with hls
  have hn := hB.length
  have hm : ls.length = lines.length := lineEdges_length _
  have hlen1 : (rock.map partShape ++ [(.composed .wire points.length none [vertexShape v, vertexShape v]
      (rock.map partShape) : Shape (Pt ℝ))]).length = points.length + 1 := by simp [hn]
  have hlen0 : ((corners points).map vertexShape).length = points.length := by simp [corners]
  unfold buildBoxWithLines
  simp only [← ht]
  simp only [hbox, Res.bind_ok, show ∀ a b c : List (Shape (Pt ℝ)), getIdx [a, b, c] 0 = .ok a from fun _ _ _ => rfl,
    show ∀ a b c : List (Shape (Pt ℝ)), getIdx [a, b, c] 1 = .ok b from fun _ _ _ => rfl,
    show ∀ a b c : List (Shape (Pt ℝ)), getIdx [a, b, c] 2 = .ok c from fun _ _ _ => rfl,
    show ∀ a : Shape (Pt ℝ), getIdx [a] 0 = .ok a from fun _ => rfl]
  rw [maxPhysical_box hB hp _ 0 _ _ _ [] _, Res.bind_ok, hlen0, hlen1, disjointLines_spec, ← hls]
  have hemb : embedEdges ((ls.map fun e => (e.first, e.second, e)).map fun x => partShape x.2.2)
      (.composed .face 0 (tags.get? "area") [.composed .wire points.length none [vertexShape v, vertexShape v]
        (rock.map partShape)] []) = .ok (.composed .face 0 (tags.get? "area")
          [.composed .wire points.length none [vertexShape v, vertexShape v] (rock.map partShape)]
            (ls.map partShape)) := by
    rw [List.map_map]
    simp only [embedEdges, Shape.setImmersed, List.nil_append]
    rw [if_pos]
    · rfl
    · rw [List.all_eq_true]
      intro s hs
      obtain ⟨e, -, rfl⟩ := List.mem_map.1 hs
      rfl
  rw [hemb, Res.bind_ok]
  simp only [List.set_cons_succ, List.set_cons_zero]
  rw [append0, Res.bind_ok, append1, Res.bind_ok]
  rotate_left
  · intro s hs
    obtain ⟨e, -, rfl⟩ := List.mem_map.1 hs
    rfl
  · intro s hs
    obtain ⟨e, -, hs⟩ := List.mem_flatMap.1 hs
    rcases List.mem_cons.1 hs with rfl | hs
    · rfl
    · rw [List.mem_singleton.1 hs]
      rfl
  have e1 : ((ls.map fun e => (e.first, e.second, e)).map fun x => partShape x.2.2) = ls.map partShape := by
    rw [List.map_map]
    rfl
  have e0 : (corners points).map vertexShape ++ ((ls.map fun e => (e.first, e.second, e)).flatMap
      fun x => [vertexShape x.1, vertexShape x.2.1]) =
      (corners points ++ ls.flatMap fun e => [e.first, e.second]).map vertexShape := by
    rw [List.map_append, List.flatMap_map, List.map_flatMap]
    rfl
  rw [e1, e0]
  simp only [Res.bind_ok, show ∀ a b c : List (Shape (Pt ℝ)), getIdx [a, b, c] 0 = .ok a from fun _ _ _ => rfl,
    show ∀ a b c : List (Shape (Pt ℝ)), getIdx [a, b, c] 1 = .ok b from fun _ _ _ => rfl]
  rw [maxPhysical_lines hB hp _ 0 _ _ _ [] _, Res.bind_ok, asItems, Res.bind_ok]
  have l1 : ((rock.map partShape ++ [(.composed .wire points.length none [vertexShape v, vertexShape v]
      (rock.map partShape) : Shape (Pt ℝ))] ++ ls.map partShape).length : Int) = points.length + 1 + lines.length := by
    simp [hn, hm]
    ring
  have l0 : (((corners points ++ ls.flatMap fun e => [e.first, e.second]).map vertexShape).length : Int) =
      points.length + 2 * lines.length := by
    have : ∀ l : List Edg, (l.flatMap fun e => [e.first, e.second]).length = 2 * l.length := by
      intro l
      induction l with
      | nil => rfl
      | cons a l ih =>
        rw [List.flatMap_cons, List.length_append, ih, List.length_cons]
        simp only [List.length_cons, List.length_nil]
        omega
    rw [List.length_map, List.length_append, this, corners_length, hm]
    push_cast
    ring
  rw [l1, l0, hout, Res.bind_ok, update_spec hB F hi hl hc, Res.bind_ok, append0, Res.bind_ok, append1, Res.bind_ok]
  · rw [domainOf_id, F.edges_eq, newEdges_split hi, allVertices, List.map_append (l₂ := out.vertices)]
  · intro s hs
    obtain ⟨e, -, rfl⟩ := List.mem_map.1 hs
    rfl
  · intro s hs
    obtain ⟨e, -, rfl⟩ := List.mem_map.1 hs
    rfl

end
end Verif.LinesBox
