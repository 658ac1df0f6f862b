/-
C96: a box cut by fractures.
-/
import Verif.Lemmas.MdBoxExample

namespace Verif.MdBox
open MeshBuild MeshGraph Trace MeshMetrics Geometry VertexOps DomainOps Topology Shape
open scoped Classical

/-- C96.  Without lines the domain is the box.  Its sides are read off in order: side `i` joins the
corner `i` to the next one and has the tag for `bc_i`, and the new tags start after the number of
points. -/
theorem C96_box {E : Env} (ha : IsArgsort E.argsortTag) {points : List (Pt ℝ)}
    (h2 : 2 ≤ points.length) (domainTags fractureTags : Option (Dict String Int)) :
    ∃ d rock, createMdBox2D E points domainTags none fractureTags = .ok d ∧
      rockEdges d = .ok rock ∧ IsBox points (domainTags.getD defaultTags2) rock ∧
      d.maxTag = .ok (points.length : Int) := by
  obtain ⟨d, rock, h1, h3, h4, h5⟩ := box_spec ha h2 (domainTags.getD defaultTags2)
  refine ⟨d, rock, ?_, h3, h4, h5⟩
  unfold createMdBox2D
  simp only [h1, Res.bind_ok, Res.pure_eq]

/-- C96.  Of the cut shapes those are kept that are in the box: the vertices by their points, the
edges by their middles.  What lies in a triangle of the box is kept. -/
theorem C96_restrict {E : Env} (he : 0 ≤ E.eps) {points : List (Pt ℝ)} {triangles : List Triangle}
    (ht : E.triangulate points = .ok triangles) {u : UDom} (hu : ∀ e ∈ u.edges, e.boundary ≠ []) :
    ∃ u', restrict E points u = .ok u' ∧ u'.vertices.Sublist u.vertices ∧
      u'.edges.Sublist u.edges ∧
      (∀ v ∈ u.vertices, v ∈ u'.vertices ↔
        pointPolygonIntersection E.P.collapse E.triangulate v.point points E.eps ≠ .ok none) ∧
      (∀ e ∈ u.edges, ∃ m, middle e = .ok m ∧ (e ∈ u'.edges ↔
        pointPolygonIntersection E.P.collapse E.triangulate m points E.eps ≠ .ok none)) ∧
      (∀ v ∈ u.vertices, (∃ t ∈ triangles, InTriangle v.point t.1 t.2.1 t.2.2) →
        v ∈ u'.vertices) ∧
      (∀ e ∈ u.edges, ∀ m, middle e = .ok m → (∃ t ∈ triangles, InTriangle m t.1 t.2.1 t.2.2) →
        e ∈ u'.edges) := by
  have hm : ∀ e ∈ u.edges, ∃ m, middle e = .ok m := fun e h => by
    unfold middle
    rw [if_neg (hu e h)]
    exact ⟨_, rfl⟩
  have hin : ∀ x, inside E points x = true ↔
      pointPolygonIntersection E.P.collapse E.triangulate x points E.eps ≠ .ok none := by
    intro x
    obtain ⟨o, ho⟩ : ∃ o, pointPolygonIntersection E.P.collapse E.triangulate x points E.eps =
        .ok o := by
      unfold pointPolygonIntersection
      simp only [ht, Res.bind_ok, Res.pure_eq]
      exact ⟨_, rfl⟩
    unfold inside
    rw [ho]
    cases o <;> simp
  have hacc : ∀ x, (∃ t ∈ triangles, InTriangle x t.1 t.2.1 t.2.2) →
      pointPolygonIntersection E.P.collapse E.triangulate x points E.eps ≠ .ok none := by
    rintro x ⟨t, h1, h2⟩ h
    rw [C61_accepts ht h1 h2 he] at h
    cases h
  refine ⟨_, restrict_spec ht hm, List.filter_sublist, List.filter_sublist, ?_, ?_, ?_, ?_⟩
  · intro v hv
    simp only [List.mem_filter, hv, true_and, hin]
  · intro e h
    obtain ⟨m, hm⟩ := hm e h
    refine ⟨m, hm, ?_⟩
    simp only [List.mem_filter, h, true_and, keeps, hm, hin]
  · intro v hv h
    simp only [List.mem_filter, hv, true_and, hin]
    exact hacc _ h
  · intro e h m hm h'
    simp only [List.mem_filter, h, true_and, keeps, hm, hin]
    exact hacc _ h'

/-- C96.  The fractured box: if the tags tell the sides apart, the face is bounded by a wire that
goes along the sides of the box in turn; the parts of each side are in order from its first to its
second end, through the points where fractures meet it.  The face has all the edges that are in the
box immersed. -/
theorem C96_sides {E : Env} {points : List (Pt ℝ)} {domainTags fractureTags : Option (Dict String Int)}
    {lines : List Line} {rock fractures : List Edg} {c1 : List Vtx}
    (h : IsSetup E points (domainTags.getD defaultTags2)
      (fractureTags.getD defaultFractureTags) lines rock fractures c1) {area : Int}
    (ha : (domainTags.getD defaultTags2).get? "area" = some area) {T : Int}
    (hT : T = points.length + 1 + c1.length + 3 * (lines.length : Int)) :
    ∃ (u u' : UDom) (sides : List (List UEdge)) (v : Vtx) (wire : Shape (Pt ℝ)),
      split E rock fractures c1 T = .ok u ∧ restrict E points u = .ok u' ∧
      List.Forall₂ (IsSide c1) rock sides ∧
      (∀ es ∈ sides, ∀ e ∈ es, e ∈ u'.edges) ∧
      wire = .composed .wire T none [vertexShape v] (sides.flatten.map edgeShape) ∧
      createMdBox2D E points domainTags (some lines) fractureTags = .ok ⟨2,
        [u'.vertices.map vertexShape, u'.edges.map edgeShape ++ [wire],
          [.composed .face (T + 1) (some area) [wire] (u'.edges.map edgeShape)]]⟩ := by
  obtain ⟨u, u', blocks, signs, first, rest, v, w, wire, h1, h2, h3, h4, -, -, -, -, h9, h10⟩ :=
    made h rfl rfl ha hT
  obtain ⟨u2, triangles, -, k1, k2, k3, -⟩ := sides_parts h.ready h.differ (setup_tagged h)
  rw [hT] at h1
  rw [h1, Except.ok.injEq] at k1
  subst k1
  refine ⟨u, u', blocks, v, wire, hT ▸ h1, ?_, ?_, h4, h9, h10⟩
  · rw [h2]
    exact restrict_spec k2 k3
  · rw [List.forall₂_iff_get]
    refine ⟨h3.length_eq, fun i hi hi' => ?_⟩
    obtain ⟨chain, hc⟩ := h3.get hi hi'
    refine ⟨chain, hc.isChain, fun x hx => ?_, ?_⟩
    · obtain ⟨j, hj⟩ := List.mem_iff_getElem?.1 hx
      exact (hc.part j x hj).1
    · have := (parts_walk (setup_tagged h).one (e := rock.get ⟨i, hi⟩)
        (List.mem_append_left _ (List.get_mem ..)) hc).chain.1
      rw [List.map_map] at this
      exact this

/-- C96.  If moreover no fracture ends on the last side, the wire is closed: its edges form a loop
through the corners and the points where fractures meet the sides, and its orientation follows
it. -/
theorem C96_closed_partial {E : Env} {points : List (Pt ℝ)}
    {domainTags fractureTags : Option (Dict String Int)} {lines : List Line}
    {rock fractures : List Edg} {c1 : List Vtx}
    (h : IsSetup E points (domainTags.getD defaultTags2)
      (fractureTags.getD defaultFractureTags) lines rock fractures c1) {area : Int}
    (ha : (domainTags.getD defaultTags2).get? "area" = some area)
    (hlast : ∀ e, rock[points.length - 1]? = some e → ¬ ∃ v, OnEdge c1 e v) :
    ∃ (d : Domain (Pt ℝ)) (face wire v : Shape (Pt ℝ)) (t : Int) (edges : List (Shape (Pt ℝ)))
      (stops : List Vtx),
      createMdBox2D E points domainTags (some lines) fractureTags = .ok d ∧
      d.shapes[2]? = some [face] ∧ face.boundary = [wire] ∧
      wire = .composed .wire t none [v] edges ∧
      ClosedLoop close edges (stops.map vertexShape) ∧
      ∀ s, s ∈ stops ↔ ∃ e ∈ rock, ∃ x, IsStop c1 e x ∧ s = finalAt c1 e x := by
  obtain ⟨u, u', blocks, signs, first, rest, v, w, wire, h1, h2, h3, h4, h5, h6, h7, h8, h9, h10⟩ :=
    made h rfl rfl ha rfl
  set n := points.length with hn
  have hn2 := h.enough
  have hl := h3.length_eq
  have hbl := h.box.length
  have htag := setup_tagged h
  have hne : ∀ e ∈ rock, e.first.point ≠ e.second.point := fun e he =>
    (h.ready.clear e (by simp [he])).ne
  -- the last side
  have hlt : n - 1 < rock.length := by omega
  obtain ⟨e, he⟩ : ∃ e, rock[n - 1]? = some e := ⟨_, List.getElem?_eq_getElem hlt⟩
  have her := List.mem_of_getElem? he
  obtain ⟨b, hb⟩ : ∃ b, blocks[n - 1]? = some b := ⟨_, List.getElem?_eq_getElem (hl ▸ hlt)⟩
  obtain ⟨chain, hch⟩ : ∃ chain, IsParts c1 e chain b := by
    have := h3.get hlt (hl ▸ hlt)
    simp only [List.get_eq_getElem] at this
    rw [List.getElem?_eq_getElem hlt, Option.some.injEq] at he
    rw [List.getElem?_eq_getElem (hl ▸ hlt), Option.some.injEq] at hb
    rw [he, hb] at this
    exact this
  have hno := hlast e he
  have htwo := chain_two hch.isChain hno (hne e her)
  obtain ⟨-, -, cl, c0, hcl, hc0, hends⟩ := h.box.side (n - 1) e he
  rw [if_pos (by omega)] at hc0 hends
  obtain ⟨zs, c', hc', hwalk, hhead, htail, hmem⟩ := sides_walk h.box htag.one
    (fun e he => List.mem_append_left _ he) hne h3 hc0 (n - 1) (by omega)
  rw [hcl, Option.some.injEq] at hc'
  subst hc'
  -- no tools at the ends of the last side
  have hnone : ∀ x, x = e.first.point ∨ x = e.second.point → ∀ t ∈ c1, t.point ≠ x := by
    rintro x hx t ht rfl
    refine hno ⟨t, ht, ?_⟩
    rcases hx with hx | hx
    · rw [hx]; exact left_mem_segment ..
    · rw [hx]; exact right_mem_segment ..
  have hf0 : final c1 c0 = c0 := final_old fun t ht => by
    rw [← hends.1]; exact hnone _ (Or.inl rfl) t ht
  -- the walk along the last side, backwards
  have hlastwalk : Walk (b.map edgeShape) [vertexShape (final c1 cl), vertexShape (final c1 c0)] := by
    have hbl : b.length = 1 := by have := hch.length; rw [htwo] at this; simpa using this
    obtain ⟨x, rfl⟩ := List.length_eq_one_iff.1 hbl
    have hw := parts_walk htag.one (List.mem_append_left _ her) hch
    rw [htwo] at hw
    have a1 : finalAt c1 e e.first.point = final c1 c0 := by rw [finalAt_first, hends.1]
    have a2 : finalAt c1 e e.second.point = final c1 cl := by
      rw [finalAt_second c1 (hne e her), hends.2]
    simp only [List.map_cons, List.map_nil, a1, a2] at hw ⊢
    generalize hva : final c1 c0 = va at hw ⊢
    generalize hvb : final c1 cl = vb at hw ⊢
    have hd : va.tag ≠ vb.tag := by
      have := hw.chain.2 0 _ _ rfl rfl
      simpa [vertexShape, Shape.tag] using this
    have hj := hw.chain.1.joins 0 _ _ _ rfl rfl rfl
    exact .cons hj.symm hd.symm (.nil _)
  have hflat : blocks.flatten = (blocks.take (n - 1)).flatten ++ b := by
    have : blocks = blocks.take (n - 1) ++ [b] := by
      have hlen : blocks.length = n - 1 + 1 := by omega
      conv_lhs => rw [← List.take_length (l := blocks), hlen, List.take_add_one, hb]
      rfl
    conv_lhs => rw [this, List.flatten_append, List.flatten_singleton]
  obtain ⟨front, hfront⟩ := List.getLast?_eq_some_iff.1 htail
  have hall : Walk (blocks.flatten.map edgeShape) (zs.map vertexShape ++ [vertexShape c0]) := by
    rw [hflat, List.map_append]
    rw [hfront, List.map_append] at hwalk ⊢
    have := hwalk.append hlastwalk
    rw [hf0] at this
    simpa using this
  obtain ⟨tail, htl⟩ : ∃ tail, zs = c0 :: tail := by
    rw [hf0] at hhead
    cases zs with
    | nil => simp at hhead
    | cons a l => exact ⟨l, by simpa using hhead⟩
  have hall' := hall
  rw [htl, List.map_cons, List.cons_append] at hall'
  have hvc : v = c0 := seed_corner h h3 h5 h6 hc0 fun t ht => by
    rw [← hends.1]; exact hnone _ (Or.inl rfl) t ht
  obtain ⟨signs', hs1, hs2⟩ := orientFrom_chain close_self hall'.chain.1 hall'.chain.2
  rw [hvc] at h8
  refine ⟨_, _, wire, vertexShape v, _, _, zs, h10, rfl, rfl, h9, ⟨vertexShape c0,
    tail.map vertexShape, signs, by rw [htl]; rfl, ?_, h7, ?_⟩, fun s => ?_⟩
  · exact hall.chain.1
  · rw [h8, Except.ok.injEq] at hs1
    rw [hs1, htl]
    exact hs2
  · rw [hmem]
    constructor
    · rintro (hs | ⟨i, e', x, -, he', hx, rfl⟩)
      · refine ⟨e, her, e.first.point, Or.inl rfl, ?_⟩
        rw [hs, finalAt_first, hends.1]
      · exact ⟨e', List.mem_of_getElem? he', x, hx, rfl⟩
    · rintro ⟨e', he', x, hx, rfl⟩
      obtain ⟨i, hi⟩ := List.mem_iff_getElem?.1 he'
      by_cases hi1 : i < n - 1
      · exact Or.inr ⟨i, e', x, hi1, hi, hx, rfl⟩
      · have : i = n - 1 := by
          have := (List.getElem?_eq_some_iff.1 hi).1
          omega
        subst this
        rw [he, Option.some.injEq] at hi
        subst hi
        rcases hx with rfl | rfl | ⟨t, ht, -⟩
        · left; rw [finalAt_first, hends.1]
        · -- the last corner is the end of the side before
          rw [finalAt_second c1 (hne e her), hends.2]
          have : final c1 cl ∈ zs := by rw [hfront]; simp
          exact (hmem _).1 this
        · exact absurd ⟨t, ht⟩ hno

/-- C96 does not hold for the last side.  It is kept with its ends in the order of their tags, from
the first corner to the last, so that its parts are sorted against the direction of the wire.  If a
fracture ends inside it, and none at its ends, the orientation arrives twice at the last corner and
never leaves it, and the wire is not a closed loop. -/
theorem C96_last_side_violated {E : Env} {points : List (Pt ℝ)}
    {domainTags fractureTags : Option (Dict String Int)} {lines : List Line}
    {rock fractures : List Edg} {c1 : List Vtx}
    (h : IsSetup E points (domainTags.getD defaultTags2)
      (fractureTags.getD defaultFractureTags) lines rock fractures c1) {area : Int}
    (ha : (domainTags.getD defaultTags2).get? "area" = some area)
    {e : Edg} (he : rock[points.length - 1]? = some e) {t : Vtx} (ht : OnEdge c1 e t)
    (hin : t.point ≠ e.first.point ∧ t.point ≠ e.second.point)
    (hno : ∀ s ∈ c1, s.point ≠ e.first.point ∧ s.point ≠ e.second.point) :
    ∃ (d : Domain (Pt ℝ)) (face wire v : Shape (Pt ℝ)) (tag : Int) (edges : List (Shape (Pt ℝ)))
      (signs : List Int),
      createMdBox2D E points domainTags (some lines) fractureTags = .ok d ∧
      d.shapes[2]? = some [face] ∧ face.boundary = [wire] ∧
      wire = .composed .wire tag none [v] edges ∧ orientEdges close edges = .ok signs ∧
      flow (points.length - 1) edges signs = 2 ∧ ∀ corners, ¬ ClosedLoop close edges corners := by
  obtain ⟨u, u', blocks, signs, first, rest, v, w, wire, h1, h2, h3, h4, h5, h6, h7, h8, h9, h10⟩ :=
    made h rfl rfl ha rfl
  set n := points.length with hn
  have hn2 := h.enough
  have hl := h3.length_eq
  have hbl := h.box.length
  have htag := setup_tagged h
  have hne : ∀ e ∈ rock, e.first.point ≠ e.second.point := fun e he =>
    (h.ready.clear e (by simp [he])).ne
  have hlt : n - 1 < rock.length := by omega
  have her := List.mem_of_getElem? he
  obtain ⟨b, hb⟩ : ∃ b, blocks[n - 1]? = some b := ⟨_, List.getElem?_eq_getElem (hl ▸ hlt)⟩
  obtain ⟨chain, hch⟩ : ∃ chain, IsParts c1 e chain b := by
    have := h3.get hlt (hl ▸ hlt)
    simp only [List.get_eq_getElem] at this
    have he' := he
    rw [List.getElem?_eq_getElem hlt, Option.some.injEq] at he'
    have hb' := hb
    rw [List.getElem?_eq_getElem (hl ▸ hlt), Option.some.injEq] at hb'
    rw [he', hb'] at this
    exact this
  obtain ⟨-, -, cl, c0, hcl, hc0, hends⟩ := h.box.side (n - 1) e he
  rw [if_pos (by omega)] at hc0 hends
  obtain ⟨zs, c', hc', hwalk, hhead, htail, -⟩ := sides_walk h.box htag.one
    (fun e he => List.mem_append_left _ he) hne h3 hc0 (n - 1) (by omega)
  rw [hcl, Option.some.injEq] at hc'
  subst hc'
  have hf0 : final c1 c0 = c0 := final_old fun s hs => by
    rw [← hends.1]; exact (hno s hs).1
  have hfl : final c1 cl = cl := final_old fun s hs => by
    rw [← hends.2]; exact (hno s hs).2
  rw [hf0] at hhead
  rw [hfl] at htail
  have hc0t : c0.tag = 0 := by
    rw [corners_getElem?] at hc0
    obtain ⟨x, -, rfl⟩ := Option.map_eq_some_iff.1 hc0
    rfl
  have hclt : cl.tag = ((n - 1 : Nat) : Int) := by
    rw [corners_getElem?] at hcl
    obtain ⟨x, -, rfl⟩ := Option.map_eq_some_iff.1 hcl
    rfl
  have hvc : v = c0 := seed_corner h h3 h5 h6 hc0 fun s hs => by
    rw [← hends.1]; exact (hno s hs).1
  subst hvc
  have hflat : blocks.flatten = (blocks.take (n - 1)).flatten ++ b := by
    have : blocks = blocks.take (n - 1) ++ [b] := by
      have hlen : blocks.length = n - 1 + 1 := by omega
      conv_lhs => rw [← List.take_length (l := blocks), hlen, List.take_add_one, hb]
      rfl
    conv_lhs => rw [this, List.flatten_append, List.flatten_singleton]
  -- the sides before
  obtain ⟨s1, hs1, ho1, hfl1⟩ := hwalk.orient (v := vertexShape v) (m := vertexShape cl)
    (by rw [List.head?_map, hhead]; rfl) (by rw [List.getLast?_map, htail]; rfl)
  -- the last part of the last side
  obtain ⟨front, x, rfl⟩ : ∃ front x, b = front ++ [x] := by
    have hbne : b ≠ [] := by
      rintro rfl
      have hlen := hch.length
      have h1 := hch.isChain.first
      have h2 := hch.isChain.last
      match chain, hlen, h1, h2 with
      | [x], _, h1, h2 =>
        simp only [List.head?_cons, Option.some.injEq, List.getLast?_singleton] at h1 h2
        exact hne e her (h1 ▸ h2)
    exact ⟨b.dropLast, b.getLast hbne, (List.dropLast_append_getLast hbne).symm⟩
  have hclen : chain.length = front.length + 2 := by
    have := hch.length
    simp at this
    omega
  have hlastc : chain[front.length + 1]? = some e.second.point := by
    have := hch.isChain.last
    rw [List.getLast?_eq_getElem?, hclen] at this
    simpa using this
  have hfirstc : chain[0]? = some e.first.point := by
    rw [← List.head?_eq_getElem?]; exact hch.isChain.first
  have hfne : front ≠ [] := by
    rintro rfl
    have hm : t.point ∈ chain := (hch.isChain.mem _).2 (Or.inr (Or.inr ⟨t, ht, rfl⟩))
    obtain ⟨i, hi⟩ := List.mem_iff_getElem?.1 hm
    have hi2 : i < 2 := by
      have := (List.getElem?_eq_some_iff.1 hi).1
      rw [hclen] at this
      simpa using this
    match i, hi2, hi with
    | 0, _, hi => rw [hfirstc, Option.some.injEq] at hi; exact hin.1 hi.symm
    | 1, _, hi =>
      rw [show (1 : Nat) = ([] : List UEdge).length + 1 from rfl, hlastc, Option.some.injEq] at hi
      exact hin.2 hi.symm
  have hfat : finalAt c1 e e.second.point = cl := by
    rw [finalAt_second c1 (hne e her), hends.2, hfl]
  have hold : ∀ z, Old (rock ++ fractures) c1 (finalAt c1 e z) := by
    intro z
    rcases finalAt_mem (tools := c1) (e := e) z with h | h | h
    · exact Or.inl h
    · exact Or.inr ⟨e, by simp [her], Or.inl h⟩
    · exact Or.inr ⟨e, by simp [her], Or.inr h⟩
  have htagne : ∀ (i : Nat) z, i ≤ front.length → chain[i]? = some z →
      (finalAt c1 e z).tag ≠ ((n - 1 : Nat) : Int) := by
    intro i z hi hz hzt
    have := htag.one _ _ (hold z) (hold e.second.point) (by rw [hzt, hfat, hclt])
    have := congrArg Vtx.point this
    rw [finalAt_point hch.isChain (List.mem_of_getElem? hz),
      finalAt_point hch.isChain (List.mem_of_getElem? hlastc)] at this
    subst this
    have := chain_index hch.isChain hz hlastc
    omega
  obtain ⟨s2, next, hs2, ho2, hfl2, hnext⟩ := orient_avoid (t := ((n - 1 : Nat) : Int))
    (front.map edgeShape) cl fun s hs => by
      obtain ⟨y, hy, rfl⟩ := List.mem_map.1 hs
      obtain ⟨i, hi⟩ := List.mem_iff_getElem?.1 hy
      have hil := (List.getElem?_eq_some_iff.1 hi).1
      obtain ⟨-, -, p, q, hp, hq, hpq⟩ := hch.part i y (by rw [List.getElem?_append_left hil, hi])
      have tp := htagne i p (by omega) hp
      have tq := htagne (i + 1) q (by omega) hq
      rcases hpq with hpq | hpq
      · exact ⟨_, _, by simp [edgeShape, Shape.boundary, hpq], tp, tq⟩
      · exact ⟨_, _, by simp [edgeShape, Shape.boundary, hpq], tq, tp⟩
  have hnext := hnext (Or.inl (by simpa using hfne))
  -- the last part starts at the last corner
  obtain ⟨q, hq, hxb⟩ : ∃ q : Vtx, q.tag ≠ ((n - 1 : Nat) : Int) ∧ x.boundary = [cl, q] := by
    obtain ⟨-, hle, p, q, hp, hq, hpq⟩ := hch.part front.length x (by simp)
    rw [hlastc, Option.some.injEq] at hq
    subst hq
    rw [hfat] at hpq
    have tp := htagne front.length p (le_refl _) hp
    rcases hpq with hpq | hpq
    · exfalso
      rw [hpq] at hle
      have hle : (finalAt c1 e p).tag ≤ cl.tag := by simpa using hle
      have hpt : finalAt c1 e p ∈ c1 := by
        rcases (hch.isChain.mem p).1 (List.mem_of_getElem? hp) with rfl | rfl | ⟨s, hs, rfl⟩
        · have := chain_index hch.isChain hp hfirstc
          exact absurd (List.length_eq_zero_iff.1 this) hfne
        · have := chain_index hch.isChain hp hlastc
          omega
        · rw [finalAt_tool h.ready.separated.one hs.1]
          exact hs.1
      have := tool_tag h hpt
      omega
    · exact ⟨_, tp, hpq⟩
  have hox : orientFrom close (vertexShape next) [edgeShape x] = .ok [-1] := by
    have e0 : endPoint (edgeShape x) 0 = .ok (vertexShape cl) := by
      simp [endPoint, edgeShape, Shape.boundary, hxb, getIdx]
    have hnc : next.tag ≠ cl.tag := by rw [hclt]; exact hnext
    simp only [orientFrom, e0, eq_other hnc, Res.bind_ok, Res.pure_eq]
    rfl
  have hsigns : signs = s1 ++ (s2 ++ [-1]) := by
    rw [hflat, List.map_append, List.map_append, ho1, ho2, List.map_singleton, hox] at h8
    simp only [Res.bind_ok, Res.pure_eq, Except.ok.injEq] at h8
    exact h8.symm
  have hflow : flow ((n : Int) - 1) (blocks.flatten.map edgeShape) signs = 2 := by
    have hcast : ((n : Int) - 1) = ((n - 1 : Nat) : Int) := by omega
    rw [hcast, hflat, hsigns, List.map_append, List.map_append, flow_append hs1, flow_append hs2,
      hfl1, hfl2, List.map_singleton, flow_cons (v := vertexShape cl) (w := vertexShape q)
        (by simp [edgeShape, Shape.boundary, hxb])]
    have a1 : at_ ((n - 1 : Nat) : Int) (vertexShape cl) = 1 := by
      simp [at_, vertexShape, Shape.tag, hclt]
    have a2 : at_ ((n - 1 : Nat) : Int) (vertexShape v) = 0 := by
      simp only [at_, vertexShape, Shape.tag, hc0t]
      rw [if_neg (by omega)]
    have a3 : at_ ((n - 1 : Nat) : Int) (vertexShape q) = 0 := by
      simp [at_, vertexShape, Shape.tag, hq]
    rw [a1, a2, a3]
    rfl
  refine ⟨_, _, wire, vertexShape v, _, _, signs, h10, rfl, rfl, h9, h7, hflow, ?_⟩
  rintro corners ⟨a, l, signs', rfl, hchain, ho, hfollow⟩
  rw [h7, Except.ok.injEq] at ho
  subst ho
  have := flow_chain (t := (n : Int) - 1) hchain hfollow (v := a) (m := a) rfl
    (by rw [List.getLast?_append]; rfl)
  rw [hflow, sub_self] at this
  exact absurd this (by decide)

/-- The hypotheses of `C96_sides` and `C96_closed_partial` hold for the unit square with a fracture
from the middle of the first side to the centre, which is cut there. -/
example (lstsq : Pt ℝ → Pt ℝ → Pt ℝ → ℝ × ℝ) : ∃ (E : Env) (c1 : List Vtx) (t : Vtx),
    IsSetup E exPoints ((none : Option (Dict String Int)).getD defaultTags2)
      ((none : Option (Dict String Int)).getD defaultFractureTags) [(![1 / 2, 0, 0], exMid)] exRock
      [exFracture ![1 / 2, 0, 0]] c1 ∧
    defaultTags2.get? "area" = some 1 ∧
    (∀ e, exRock[exPoints.length - 1]? = some e → ¬ ∃ v, OnEdge c1 e v) ∧
    ∀ e, exRock[0]? = some e → OnEdge c1 e t := by
  obtain ⟨argsort, hs⟩ := Fracture.exists_argsort
  have hst := ex_start_first lstsq
  refine ⟨exEnv argsort stableArgsort lstsq, _, ⟨5, some 2, ![1 / 2, 0, 0]⟩,
    ex_setup hst hs stableArgsort_is List.mem_cons_self rfl, by decide +kernel, ?_, ?_⟩
  · intro e he
    cases he
    rintro ⟨v, hv, hv'⟩
    rw [List.mem_singleton] at hv
    subst hv
    obtain ⟨t, -, -, h⟩ := mem_segment_iff.1 hv'
    have := congrFun h 0
    simp at this
  · intro e he
    cases he
    exact ⟨by simp, hst.segment _ List.mem_cons_self rfl⟩

/-- C96, violated for the unit square with the default tags, and a fracture from the middle of the
last side to the centre: the wire of the face is not a closed loop. -/
theorem C96_square_violated {argsort : List ℝ → List Nat} (hs : Fracture.IsArgsort argsort)
    {argsortTag : List Int → List Nat} (ha : IsArgsort argsortTag)
    (lstsq : Pt ℝ → Pt ℝ → Pt ℝ → ℝ × ℝ) :
    ∃ (d : Domain (Pt ℝ)) (face wire v : Shape (Pt ℝ)) (tag : Int) (edges : List (Shape (Pt ℝ))),
      createMdBox2D (exEnv argsort argsortTag lstsq) exPoints none
        (some [(![0, 1 / 2, 0], ![1 / 2, 1 / 2, 0])]) none = .ok d ∧
      d.shapes[2]? = some [face] ∧ face.boundary = [wire] ∧
      wire = .composed .wire tag none [v] edges ∧ ∀ corners, ¬ ClosedLoop close edges corners := by
  have hst := ex_start_last lstsq
  have hset := ex_setup hst hs ha (e0 := ⟨3, some 5, ⟨0, none, ![0, 0, 0]⟩, ⟨3, none, ![0, 1, 0]⟩⟩)
    (by simp [exRock]) rfl
  have hne : (![0, 1 / 2, 0] : Pt ℝ) ≠ ![0, 0, 0] ∧ (![0, 1 / 2, 0] : Pt ℝ) ≠ ![0, 1, 0] :=
    ⟨(hst.far _ (by simp [exPoints])).1, (hst.far _ (by simp [exPoints])).1⟩
  obtain ⟨d, face, wire, v, tag, edges, signs, h1, h2, h3, h4, -, -, h5⟩ :=
    C96_last_side_violated (domainTags := none) (fractureTags := none) hset (area := 1)
      (by decide +kernel) (e := ⟨3, some 5, ⟨0, none, ![0, 0, 0]⟩, ⟨3, none, ![0, 1, 0]⟩⟩) rfl
      (t := ⟨5, some 5, ![0, 1 / 2, 0]⟩)
      ⟨by simp, hst.segment _ (by simp [exRock]) rfl⟩ hne (by
        intro s hs
        rw [List.mem_singleton] at hs
        subst hs
        exact hne)
  exact ⟨d, face, wire, v, tag, edges, h1, h2, h3, h4, h5⟩

example : ∃ (argsort : List ℝ → List Nat) (argsortTag : List Int → List Nat),
    Fracture.IsArgsort argsort ∧ IsArgsort argsortTag := by
  obtain ⟨argsort, hs⟩ := Fracture.exists_argsort
  exact ⟨argsort, stableArgsort, hs, stableArgsort_is⟩

/-- C96 needs the tags to tell the sides apart: sides with the same physical tag get the same edges,
so that the wire has them twice. -/
theorem C96_same_tag_violated {E : Env} (ha : Fracture.IsArgsort E.P.argsort) {edges : List UEdge}
    {e e' : Edg} (hp : e.physical = e'.physical) :
    (∀ b b', sideEdges E edges e = .ok b → sideEdges E edges e' = .ok b' → b ≠ [] ∧ b.Perm b') ∧
    ∀ (rock : List Edg) (i j : Nat) wired, i ≠ j → rock[i]? = some e → rock[j]? = some e' →
      wireEdges E rock edges = .ok wired → ¬ wired.Nodup := by
  have key : ∀ d b, sideEdges E edges d = .ok b → b ≠ [] ∧
      b.Perm (edges.filter fun x => x.physical = d.physical) := by
    intro d b h
    unfold sideEdges at h
    obtain ⟨mids, hm, h⟩ := Res.bind_eq_ok.1 h
    split at h
    · cases h
    · rename_i hne
      have hlen : mids.length = (edges.filter fun x => x.physical = d.physical).length :=
        (mapRes_iff.1 hm).length_eq.symm
      have hperm := (ha (mids.map fun x => norm3 (x - d.first.point))).1
      rw [List.length_map, hlen] at hperm
      have pick : ∀ {l : List UEdge} {idx : List Nat} {r : List UEdge}, fancy l idx = .ok r →
          r = idx.filterMap fun i => l[i]? := by
        intro l idx r h
        have hf := fancy_iff.1 h
        clear h
        induction hf with
        | nil => rfl
        | cons h _ ih => rw [List.filterMap_cons, h, ← ih]
      have hb := pick h
      have hrange : (List.range (edges.filter fun x => x.physical = d.physical).length).filterMap
          (fun i => (edges.filter fun x => x.physical = d.physical)[i]?) =
          edges.filter fun x => x.physical = d.physical := by
        exact (pick (fancy_range _)).symm
      have hbp : b.Perm (edges.filter fun x => x.physical = d.physical) := by
        rw [hb]
        conv_rhs => rw [← hrange]
        exact hperm.filterMap _
      refine ⟨?_, hbp⟩
      rintro rfl
      exact hne (List.nil_perm.1 hbp)
  refine ⟨fun b b' h h' => ?_, fun rock i j wired hij hi hj h hnd => ?_⟩
  · obtain ⟨h1, h2⟩ := key e b h
    obtain ⟨-, h3⟩ := key e' b' h'
    rw [← hp] at h3
    exact ⟨h1, h2.trans h3.symm⟩
  · unfold wireEdges at h
    obtain ⟨blocks, hb, h⟩ := Res.bind_eq_ok.1 h
    rw [Res.pure_eq, Except.ok.injEq] at h
    subst h
    have hb := mapRes_iff.1 hb
    have get : ∀ (k : Nat) d, rock[k]? = some d → ∃ b, blocks[k]? = some b ∧
        sideEdges E edges d = .ok b := by
      intro k d hk
      obtain ⟨hlt, rfl⟩ := List.getElem?_eq_some_iff.1 hk
      exact ⟨_, List.getElem?_eq_getElem (hb.length_eq ▸ hlt), hb.get hlt (hb.length_eq ▸ hlt)⟩
    obtain ⟨b, hbi, hbs⟩ := get i e hi
    obtain ⟨b', hbj, hbs'⟩ := get j e' hj
    obtain ⟨hne, hperm⟩ := key e b hbs
    obtain ⟨-, hperm'⟩ := key e' b' hbs'
    rw [← hp] at hperm'
    obtain ⟨x, hx⟩ := List.exists_mem_of_ne_nil b hne
    have hx' : x ∈ b' := (hperm.trans hperm'.symm).mem_iff.1 hx
    have hd := (List.nodup_flatten.1 hnd).2
    have hd := List.pairwise_iff_getElem.1 hd
    obtain ⟨li, rfl⟩ := List.getElem?_eq_some_iff.1 hbi
    obtain ⟨lj, rfl⟩ := List.getElem?_eq_some_iff.1 hbj
    rcases Nat.lt_or_gt_of_ne hij with hlt | hlt
    · exact hd i j li lj hlt hx hx'
    · exact hd j i lj li hlt hx' hx

/-- C96.  The default tags name four sides: a box with six corners or more and the default tags has
two sides without a tag. -/
theorem C96_default_tags_violated {points : List (Pt ℝ)} {rock : List Edg}
    (hb : IsBox points defaultTags2 rock) (h6 : 6 ≤ points.length) :
    ∃ e e', rock[4]? = some e ∧ rock[5]? = some e' ∧ e.physical = none ∧ e'.physical = none := by
  have hl := hb.length
  refine ⟨_, _, List.getElem?_eq_getElem (by omega), List.getElem?_eq_getElem (by omega), ?_, ?_⟩
  · rw [(hb.side 4 _ (List.getElem?_eq_getElem (by omega))).2.1]
    decide +kernel
  · rw [(hb.side 5 _ (List.getElem?_eq_getElem (by omega))).2.1]
    decide +kernel

example : ∃ points rock, IsBox points defaultTags2 rock ∧ 6 ≤ points.length := by
  obtain ⟨d, rock, -, -, h, -⟩ := box_spec stableArgsort_is (points := exPoints ++ exPoints)
    (by simp [exPoints]) defaultTags2
  exact ⟨_, rock, h, by simp [exPoints]⟩

/-- C96.  A side without parts in the box, and tags that are not given, are refused. -/
theorem C96_rejects {E : Env} :
    (∀ (edges : List UEdge) (e : Edg), (∀ x ∈ edges, x.physical ≠ e.physical) →
      sideEdges E edges e = .error .valueError) ∧
    (∀ (tags : Dict String Int) (tag : Int) (lines : List Line), lines ≠ [] →
      (tags.get? "internal_bc" = none ∨ tags.get? "line" = none) →
      fractureEdges tags tag lines = .error .keyError) ∧
    (∀ (points : List (Pt ℝ)) (domainTags fractureTags : Option (Dict String Int))
      (lines : List Line) (rock fractures : List Edg) (c1 : List Vtx),
      IsSetup E points (domainTags.getD defaultTags2)
        (fractureTags.getD defaultFractureTags) lines rock fractures c1 →
      (domainTags.getD defaultTags2).get? "area" = none →
      createMdBox2D E points domainTags (some lines) fractureTags = .error .keyError) := by
  have none : ∀ {tags : Dict String Int} {k : String}, tags.get? k = none →
      tags.getItem k = .error .keyError := by
    intro tags k h
    unfold Dict.getItem
    rw [h]
  refine ⟨fun edges e h => ?_, fun tags tag lines hne h => ?_, ?_⟩
  · have : (edges.filter fun x => x.physical = e.physical) = [] :=
      List.filter_eq_nil_iff.2 fun x hx => by simpa using h x hx
    unfold sideEdges
    simp only [this, mapRes, Res.bind_ok, if_true]
  · obtain ⟨⟨x, y⟩, lines, rfl⟩ := List.exists_cons_of_ne_nil hne
    rw [fractureEdges]
    cases hb : tags.getItem "internal_bc" with
    | error err =>
      have : err = .keyError := by
        unfold Dict.getItem at hb
        split at hb <;> cases hb
        rfl
      rw [this]
      rfl
    | ok bc =>
      rcases h with h | h
      · rw [none h] at hb; cases hb
      · rw [Res.bind_ok, none h]; rfl
  · intro points domainTags fractureTags lines rock fractures c1 h harea
    obtain ⟨u, u', blocks, signs, first, rest, v, w, wire, -, -, -, -, -, -, -, -, -, h10⟩ :=
      made_item h rfl rfl rfl
    rw [h10, none harea]
    rfl

/-! ### The vertices that cut -/

theorem rawVertices_mem {E : Env} {rock : List Edg} {pts : List (Pt ℝ)} {v : Vtx} :
    v ∈ rawVertices E rock pts ↔ ∃ e ∈ rock, ∃ x ∈ pts, ∃ y,
      pointLineIntersection E.P.collapse x e.first.point e.second.point E.eps = some y ∧
      v = ⟨minTag, e.physical, y⟩ := by
  unfold rawVertices pointsLineIntersection withMask
  simp only [List.mem_flatMap, List.mem_map, List.mem_filterMap, List.mem_filter]
  constructor
  · rintro ⟨e, he, y, ⟨r, ⟨⟨x, hx, rfl⟩, -⟩, hr⟩, rfl⟩
    refine ⟨e, he, x, hx, y, ?_, rfl⟩
    cases hp : pointLineIntersection E.P.collapse x e.first.point e.second.point E.eps with
    | none => rw [hp] at hr; cases hr
    | some z => rw [hp] at hr; exact hr
  · rintro ⟨e, he, x, hx, y, hy, rfl⟩
    exact ⟨e, he, y, ⟨.array y, ⟨⟨x, hx, by rw [hy]; rfl⟩, rfl⟩, rfl⟩, rfl⟩

theorem uniqueVertices_mem {E : Env} {raw : List Vtx} {v : Vtx} (h : v ∈ uniqueVertices E raw) : v ∈ raw := by
  unfold uniqueVertices at h
  simp only [List.mem_map, List.mem_filter] at h
  obtain ⟨x, ⟨hx, -⟩, rfl⟩ := h
  exact List.fst_mem_of_mem_zipIdx hx

theorem uniqueVertices_covers {E : Env} {raw : List Vtx}
    (hu : VertexOps.UniqueOn E.P.uniqueIdx (raw.map Vtx.point)) {v : Vtx} (hv : v ∈ raw) :
    ∃ w ∈ uniqueVertices E raw, w.point = v.point := by
  obtain ⟨i, hi, hp⟩ := hu.covers v.point (List.mem_map_of_mem hv)
  rw [List.getElem?_map, Option.map_eq_some_iff] at hp
  obtain ⟨w, hw, hp⟩ := hp
  refine ⟨w, ?_, hp⟩
  unfold uniqueVertices
  simp only [List.mem_map, List.mem_filter]
  exact ⟨(w, i), ⟨List.mem_zipIdx_iff_getElem?.2 hw, by simpa using hi⟩, rfl⟩

/-- C96.  The vertices at which the box and the fractures are cut: numbered from the given tag on; one at every
point where fractures meet, with the tag of points; one at every point where a fracture meets a side, with the
physical tag of a side through it; and no other ones.  Without a tag for points, fractures that meet give a
`KeyError`. -/
theorem C96_tools {E : Env} {rock : List Edg} {lines : List Line} {tags : Dict String Int} (tag : Int)
    {bp fp : List (Pt ℝ)} (hb : linesLinesPoints E.tol E.lstsq E.dedup lines (rock.map ends) E.eps = .ok bp)
    (hf : linesLinesPoints E.tol E.lstsq E.dedup lines lines E.eps = .ok fp) :
    (∀ t, tags.get? "point" = some t → ∃ c1, tools E rock lines tags tag = .ok c1 ∧
      (∀ (i : Nat) v, c1[i]? = some v → v.tag = tag + (i : Int)) ∧
      (∀ x ∈ fp, ∃ v ∈ c1, v.point = x ∧ v.physical = some t) ∧
      (VertexOps.UniqueOn E.P.uniqueIdx ((rawVertices E rock bp).map Vtx.point) →
        ∀ x ∈ bp, ∀ e ∈ rock, ∀ y,
          pointLineIntersection E.P.collapse x e.first.point e.second.point E.eps = some y →
          ∃ v ∈ c1, v.point = y ∧ ∃ e' ∈ rock, v.physical = e'.physical) ∧
      ∀ v ∈ c1, (v.point ∈ fp ∧ v.physical = some t) ∨ ∃ e ∈ rock, ∃ x ∈ bp, v.physical = e.physical ∧
        pointLineIntersection E.P.collapse x e.first.point e.second.point E.eps = some v.point) ∧
    (tags.get? "point" = none → fp ≠ [] → tools E rock lines tags tag = .error .keyError) := by
  constructor
  · intro t ht
    have hpv : pointVertices tags fp = .ok (fp.map fun x => ⟨minTag, some t, x⟩) :=
      mapRes_pure fun x _ => by simp only [Dict.getItem_of_get? ht, Res.bind_ok, Res.pure_eq]
    have mem : ∀ {l : List Vtx} {v}, v ∈ l → ∃ w ∈ retag tag l, w.point = v.point ∧ w.physical = v.physical := by
      intro l v hv
      obtain ⟨i, hi⟩ := List.mem_iff_getElem?.1 hv
      exact ⟨{ v with tag := tag + (i : Int) }, List.mem_map.2 ⟨(v, i), List.mem_zipIdx_iff_getElem?.2 hi, rfl⟩,
        rfl, rfl⟩
    have of : ∀ {l : List Vtx} {w}, w ∈ retag tag l → ∃ v ∈ l, w.point = v.point ∧ w.physical = v.physical := by
      intro l w hw
      obtain ⟨x, hx, rfl⟩ := List.mem_map.1 hw
      exact ⟨x.1, List.fst_mem_of_mem_zipIdx hx, rfl, rfl⟩
    refine ⟨retag tag (uniqueVertices E (rawVertices E rock bp) ++ fp.map fun x => ⟨minTag, some t, x⟩),
      ?_, ?_, ?_, ?_, ?_⟩
    · unfold tools
      simp only [hb, hf, hpv, Res.bind_ok, Res.pure_eq]
    · intro i v hv
      unfold retag at hv
      rw [List.getElem?_map, Option.map_eq_some_iff] at hv
      obtain ⟨w, hw, rfl⟩ := hv
      rw [List.getElem?_zipIdx, Option.map_eq_some_iff] at hw
      obtain ⟨u, -, rfl⟩ := hw
      simp
    · intro x hx
      exact mem (v := ⟨minTag, some t, x⟩) (List.mem_append_right _ (List.mem_map.2 ⟨x, hx, rfl⟩))
    · intro hu x hx e he y hy
      obtain ⟨w, hw, hp⟩ := uniqueVertices_covers hu (rawVertices_mem.2 ⟨e, he, x, hx, y, hy, rfl⟩)
      obtain ⟨v, hv, h1, h2⟩ := mem (List.mem_append_left (fp.map fun x => ⟨minTag, some t, x⟩) hw)
      obtain ⟨e', he', _, _, _, _, hw'⟩ := rawVertices_mem.1 (uniqueVertices_mem hw)
      exact ⟨v, hv, h1.trans hp, e', he', by rw [h2, hw']⟩
    · intro v hv
      obtain ⟨w, hw, h1, h2⟩ := of hv
      rcases List.mem_append.1 hw with hw | hw
      · obtain ⟨e, he, x, hx, y, hy, rfl⟩ := rawVertices_mem.1 (uniqueVertices_mem hw)
        exact Or.inr ⟨e, he, x, hx, h2, by rw [h1]; exact hy⟩
      · obtain ⟨x, hx, rfl⟩ := List.mem_map.1 hw
        exact Or.inl ⟨by rw [h1]; exact hx, h2⟩
  · intro ht hne
    have hpv : pointVertices tags fp = .error .keyError := by
      obtain ⟨x, l, rfl⟩ := List.exists_cons_of_ne_nil hne
      unfold pointVertices mapRes Dict.getItem
      rw [ht]
      rfl
    unfold tools
    simp only [hb, hf, hpv, Res.bind_ok]
    rfl

example {argsort : List ℝ → List Nat} (hs : Fracture.IsArgsort argsort)
    (lstsq : Pt ℝ → Pt ℝ → Pt ℝ → ℝ × ℝ) : ∃ (E : Env) (rock : List Edg) (lines : List Line) (bp fp : List (Pt ℝ)),
    linesLinesPoints E.tol E.lstsq E.dedup lines (rock.map ends) E.eps = .ok bp ∧
    linesLinesPoints E.tol E.lstsq E.dedup lines lines E.eps = .ok fp ∧ lines ≠ [] := by
  have h := (ex_setup (ex_start_first lstsq) hs stableArgsort_is List.mem_cons_self rfl).isTools
  unfold tools at h
  obtain ⟨bp, hb, h⟩ := Res.bind_eq_ok.1 h
  obtain ⟨fp, hf, -⟩ := Res.bind_eq_ok.1 h
  exact ⟨_, _, _, bp, fp, hb, hf, by simp⟩

#print axioms C96_tools
#print axioms C96_box
#print axioms C96_restrict
#print axioms C96_sides
#print axioms C96_closed_partial
#print axioms C96_last_side_violated
#print axioms C96_square_violated
#print axioms C96_same_tag_violated
#print axioms C96_default_tags_violated
#print axioms C96_rejects

end Verif.MdBox
