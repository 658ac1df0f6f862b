/-
Helper lemmas for C96: the box, the fractures, and how the parts of the function are composed.
-/
import Verif.Lemmas.MdBoxWire
import Verif.Props.DomainMarket

namespace Verif.MdBox
open MeshBuild MeshGraph Trace MeshMetrics Geometry VertexOps DomainOps Topology Shape
open scoped Classical

theorem fractureEdges_spec {tags : Dict String Int} : ∀ {lines : List Line} {tag : Int}
    {fractures : List Edg}, fractureEdges tags tag lines = .ok fractures →
    ∃ bc ln, IsFractures bc ln tag lines fractures ∧
      (lines ≠ [] → tags.get? "internal_bc" = some bc ∧ tags.get? "line" = some ln)
  | [], tag, fractures, h => by
    rw [fractureEdges, Res.pure_eq, Except.ok.injEq] at h
    subst h
    exact ⟨0, 0, ⟨rfl, fun i e l h => by simp at h⟩, by simp⟩
  | (x, y) :: lines, tag, fractures, h => by
    rw [fractureEdges] at h
    obtain ⟨bc, hbc, h⟩ := Res.bind_eq_ok.1 h
    obtain ⟨ln, hln, h⟩ := Res.bind_eq_ok.1 h
    obtain ⟨rest, hrest, h⟩ := Res.bind_eq_ok.1 h
    rw [Res.pure_eq, Except.ok.injEq] at h
    subst h
    have get : ∀ {k : String} {v : Int}, tags.getItem k = .ok v → tags.get? k = some v := by
      intro k v h
      unfold Dict.getItem at h
      cases hk : tags.get? k with
      | none => rw [hk] at h; cases h
      | some w => rw [hk] at h; cases h; rfl
    obtain ⟨bc', ln', ⟨hl, hf⟩, hk⟩ := fractureEdges_spec hrest
    refine ⟨bc, ln, ⟨by simp [hl], fun i e l he hl' => ?_⟩, fun _ => ⟨get hbc, get hln⟩⟩
    cases i with
    | zero =>
      simp only [List.getElem?_cons_zero, Option.some.injEq] at he hl'
      subst he hl'
      simp [mkEdge]
    | succ i =>
      simp only [List.getElem?_cons_succ] at he hl'
      have hne : lines ≠ [] := by rintro rfl; simp at hl'
      obtain ⟨k1, k2⟩ := hk hne
      rw [get hbc, Option.some.injEq] at k1
      rw [get hln, Option.some.injEq] at k2
      subst k1 k2
      rw [hf i e l he hl']
      push_cast
      ring_nf

theorem retag_tags (tag : Int) (l : List Vtx) : (retag tag l).map Vtx.tag = consec tag l.length := by
  refine List.ext_getElem (by simp [retag, consec]) fun i h1 h2 => ?_
  simp [retag, consec]

theorem tools_tags {E : Env} {rock : List Edg} {lines : List Line} {tags : Dict String Int}
    {tag : Int} {c1 : List Vtx} (h : tools E rock lines tags tag = .ok c1) :
    c1.map Vtx.tag = consec tag c1.length := by
  unfold tools at h
  obtain ⟨a, -, h⟩ := Res.bind_eq_ok.1 h
  obtain ⟨b, -, h⟩ := Res.bind_eq_ok.1 h
  obtain ⟨f, -, h⟩ := Res.bind_eq_ok.1 h
  rw [Res.pure_eq, Except.ok.injEq] at h
  subst h
  rw [retag_tags]
  simp [retag]

theorem isBox_unique {points : List (Pt ℝ)} {tags : Dict String Int} {rock rock' : List Edg}
    (h : IsBox points tags rock) (h' : IsBox points tags rock') : rock = rock' := by
  refine List.ext_getElem (by rw [h.length, h'.length]) fun i h1 h2 => ?_
  obtain ⟨a1, a2, v, w, a3, a4, a5⟩ := h.side i _ (List.getElem?_eq_getElem h1)
  obtain ⟨b1, b2, v', w', b3, b4, b5⟩ := h'.side i _ (List.getElem?_eq_getElem h2)
  rw [a3, Option.some.injEq] at b3
  rw [a4, Option.some.injEq] at b4
  subst b3 b4
  generalize rock[i] = e at *
  generalize rock'[i] = e' at *
  obtain ⟨t, p, f, s⟩ := e
  obtain ⟨t', p', f', s'⟩ := e'
  simp only at a1 a2 a5 b1 b2 b5
  split at a5
  · rw [if_pos (by assumption)] at b5
    rw [a1, a2, b1, b2, a5.1, a5.2, b5.1, b5.2]
  · rw [if_neg (by assumption)] at b5
    rw [a1, a2, b1, b2, a5.1, a5.2, b5.1, b5.2]

/-- The box. -/
theorem box_spec {argsort : List Int → List Nat} (ha : IsArgsort argsort) {points : List (Pt ℝ)}
    (h2 : 2 ≤ points.length) (tags : Dict String Int) :
    ∃ d rock, buildBox2D close argsort points (some tags) = .ok d ∧ rockEdges d = .ok rock ∧
      IsBox points tags rock ∧ d.maxTag = .ok (points.length : Int) := by
  obtain ⟨vs, es, v, wire, face, h1, ⟨hvl, hvs⟩, hv0, hel, hes, hloop, hw, hf⟩ :=
    C70_polygon close_self ha h2 (some tags)
  simp only [Option.getD_some] at hes hf
  obtain ⟨v', rest, signs, hvr, hchain, -, -⟩ := hloop
  have : v' = v := by rw [hvr] at hv0; simpa using hv0
  subst this
  set n := points.length with hn
  have hvat : ∀ i, i < n → ∃ x, points[i]? = some x ∧ vs[i]? = some (.vertex i none x) :=
    fun i hi => ⟨_, List.getElem?_eq_getElem hi, hvs i _ (List.getElem?_eq_getElem hi)⟩
  have hnext : ∀ i, i < n → (vs ++ [v'])[i + 1]? = vs[if i + 1 = n then 0 else i + 1]? := by
    intro i hi
    by_cases h : i + 1 = n
    · rw [if_pos h, hv0, h, show n = vs.length from hvl.symm]; simp
    · rw [if_neg h, List.getElem?_append_left (by omega)]
  -- the edges, one by one
  have hedge : ∀ (i : Nat) e, es[i]? = some e → e.composite = false ∧ ∃ r : Edg, asEdg e = .ok r ∧
      r.tag = i ∧ r.physical = tags.get? (bcLabel i) ∧
      ∃ a b, (corners points)[i]? = some a ∧
        (corners points)[if i + 1 = n then 0 else i + 1]? = some b ∧
        if i + 1 = n then r.first = b ∧ r.second = a else r.first = a ∧ r.second = b := by
    intro i e he
    have hi : i < n := by have := (List.getElem?_eq_some_iff.1 he).1; omega
    obtain ⟨x, hx, hvx⟩ := hvat i hi
    obtain ⟨y, hy, hvy⟩ := hvat (if i + 1 = n then 0 else i + 1) (by split <;> omega)
    have hj := hchain.joins i e _ _ he (by rw [List.getElem?_append_left (by omega)]; exact hvx)
      (by rw [hnext i hi]; exact hvy)
    obtain ⟨b, hbs, rfl⟩ := hes i e he
    refine ⟨rfl, ?_⟩
    simp only [Shape.boundary] at hj
    have hc1 : (corners points)[i]? = some ⟨i, none, x⟩ := by rw [corners_getElem?, hx]; rfl
    have hc2 : (corners points)[if i + 1 = n then 0 else i + 1]? =
        some ⟨((if i + 1 = n then 0 else i + 1 : Nat) : Int), none, y⟩ := by
      rw [corners_getElem?, hy]; rfl
    by_cases hl : i + 1 = n
    · simp only [if_pos hl] at hj hc2 ⊢
      rcases hj with rfl | rfl
      · simp [Shape.tag] at hbs
        omega
      · exact ⟨⟨i, tags.get? (bcLabel i), ⟨0, none, y⟩, ⟨i, none, x⟩⟩, by
          simp [asEdg, Shape.boundary, mapRes, asVtx, Shape.tag, Shape.physicalTag, bcLabel,
            bind, Except.bind, pure, Except.pure], rfl, rfl, _, _, hc1, hc2, rfl, rfl⟩
    · simp only [if_neg hl] at hj hc2 ⊢
      rcases hj with rfl | rfl
      · exact ⟨⟨i, tags.get? (bcLabel i), ⟨i, none, x⟩, ⟨(i + 1 : Nat), none, y⟩⟩, by
          simp [asEdg, Shape.boundary, mapRes, asVtx, Shape.tag, Shape.physicalTag, bcLabel,
            bind, Except.bind, pure, Except.pure], rfl, rfl, _, _, hc1, hc2, rfl, rfl⟩
      · simp [Shape.tag] at hbs
  have hfilter : (es ++ [wire]).filter (fun s => !s.composite) = es := by
    rw [List.filter_append, List.filter_eq_self.2, List.filter_eq_nil_iff.2, List.append_nil]
    · intro s hs
      rw [List.mem_singleton.1 hs, hw]
      simp [Shape.composite, Kind.composite]
    · intro s hs
      obtain ⟨i, hi⟩ := List.mem_iff_getElem?.1 hs
      simp [(hedge i s hi).1]
  have hg : ∀ e ∈ es, ∃ r, asEdg e = .ok r := by
    intro e he
    obtain ⟨i, hi⟩ := List.mem_iff_getElem?.1 he
    obtain ⟨-, r, hr, -⟩ := hedge i e hi
    exact ⟨r, hr⟩
  have : Nonempty Edg := ⟨⟨0, none, ⟨0, none, 0⟩, ⟨0, none, 0⟩⟩⟩
  choose! g hg using hg
  refine ⟨_, es.map g, h1, ?_, ⟨by rw [List.length_map]; exact hel, fun i e he => ?_⟩, ?_⟩
  · unfold rockEdges
    simp only [show getIdx [vs, es ++ [wire], [face]] 1 = .ok (es ++ [wire]) from rfl, Res.bind_ok]
    rw [hfilter]
    exact mapRes_ok_of hg
  · rw [List.getElem?_map, Option.map_eq_some_iff] at he
    obtain ⟨s, hs, rfl⟩ := he
    obtain ⟨-, r, hr, hrest⟩ := hedge i s hs
    rw [hg s (List.mem_of_getElem? hs), Except.ok.injEq] at hr
    rw [hr]
    exact hrest
  · unfold Domain.maxTag
    rw [intMax_spec]
    constructor
    · refine List.mem_map.2 ⟨wire, ?_, by rw [hw]; rfl⟩
      simp [Domain.all]
    · intro t ht
      obtain ⟨s, hs, rfl⟩ := List.mem_map.1 ht
      simp only [Domain.all, List.flatten_cons, List.flatten_nil, List.mem_append,
        List.mem_singleton, List.append_nil] at hs
      rcases hs with hs | (hs | rfl) | rfl
      · obtain ⟨i, hi⟩ := List.mem_iff_getElem?.1 hs
        have hlt : i < n := by have := (List.getElem?_eq_some_iff.1 hi).1; omega
        obtain ⟨x, -, hx⟩ := hvat i hlt
        rw [hi, Option.some.injEq] at hx
        subst hx
        simp only [Shape.tag]
        omega
      · obtain ⟨i, hi⟩ := List.mem_iff_getElem?.1 hs
        have hlt : i < n := by have := (List.getElem?_eq_some_iff.1 hi).1; omega
        obtain ⟨b, -, rfl⟩ := hes i s hi
        simp only [Shape.tag]
        omega
      · rw [hw]; exact le_refl _
      · rw [hf]
        simp only [Shape.tag]
        omega

theorem append_list {d : Domain (Pt ℝ)} {shapes old : List (Shape (Pt ℝ))} {k : Nat}
    (h : ∀ s ∈ shapes, s.dimension = k) (hk : d.shapes[k]? = some old) :
    d.append shapes = .ok { d with shapes := d.shapes.set k (old ++ shapes) } := by
  by_cases hne : shapes = []
  · subst hne
    obtain ⟨dim, l⟩ := d
    simp only at hk
    obtain ⟨hlt, rfl⟩ := List.getElem?_eq_some_iff.1 hk
    simp [Domain.append]
  · rw [append_same hne h, hk]

/-- Edges with two vertices can be oriented. -/
theorem orientFrom_ok : ∀ (us : List UEdge) (seed : Vtx),
    (∀ u ∈ us, ∃ v w, u.boundary = [v, w]) →
    ∃ signs, orientFrom close (vertexShape seed) (us.map edgeShape) = .ok signs
  | [], seed, _ => ⟨[], rfl⟩
  | u :: us, seed, h => by
    obtain ⟨v, w, hu⟩ := h u (by simp)
    have e0 : endPoint (edgeShape u) 0 = .ok (vertexShape v) := by
      simp [endPoint, edgeShape, Shape.boundary, hu, getIdx]
    have e1 : endPoint (edgeShape u) 1 = .ok (vertexShape w) := by
      simp [endPoint, edgeShape, Shape.boundary, hu, getIdx]
    obtain ⟨s1, h1⟩ := orientFrom_ok us v fun x hx => h x (by simp [hx])
    obtain ⟨s2, h2⟩ := orientFrom_ok us w fun x hx => h x (by simp [hx])
    simp only [List.map_cons, orientFrom, e0, e1, eq_vertex, Res.bind_ok, h1, h2]
    split
    · exact ⟨_, rfl⟩
    · exact ⟨_, rfl⟩

/-- The last lines of the function. -/
theorem assemble_spec {E : Env} (ha : IsArgsort E.argsortTag) {tags : Dict String Int} {rock : List Edg} {u : UDom} {tag : Int}
    {blocks : List (List UEdge)} (hb : mapRes (sideEdges E u.edges) rock = .ok blocks)
    {first : UEdge} {rest : List UEdge} (hf : blocks.flatten = first :: rest)
    (h2 : ∀ b ∈ blocks, ∀ x ∈ b, ∃ v w, x.boundary = [v, w] ∧ v.tag ≤ w.tag)
    {v w : Vtx} (hv : first.boundary = [v, w]) :
    ∃ signs wire, orientEdges close (blocks.flatten.map edgeShape) = .ok signs ∧
      orientFrom close (vertexShape v) (blocks.flatten.map edgeShape) = .ok signs ∧
      wire = .composed .wire tag none [vertexShape v] (blocks.flatten.map edgeShape) ∧
      assemble E tags rock u tag = (do
        let area ← tags.getItem "area"
        pure ⟨2, [u.vertices.map vertexShape, u.edges.map edgeShape ++ [wire],
          [.composed .face (tag + 1) (some area) [wire] (u.edges.map edgeShape)]]⟩) := by
  obtain ⟨signs, hs⟩ := orientFrom_ok blocks.flatten v fun x hx => by
    obtain ⟨b, hb, hx⟩ := List.mem_flatten.1 hx
    obtain ⟨v, w, h, -⟩ := h2 b hb x hx
    exact ⟨v, w, h⟩
  have hle : v.tag ≤ w.tag := by
    have hm : first ∈ blocks.flatten := by rw [hf]; simp
    obtain ⟨b, hb, hx⟩ := List.mem_flatten.1 hm
    obtain ⟨v', w', h, hle⟩ := h2 b hb _ hx
    rw [hv, List.cons.injEq, List.cons.injEq] at h
    rw [h.1, h.2.1]
    exact hle
  have hseed : seedVertex (blocks.flatten.map edgeShape) = .ok (vertexShape v) := by
    simp only [hf, List.map_cons, seedVertex, getIdx, List.getElem?_cons_zero, Res.bind_ok,
      endPoint, edgeShape, Shape.boundary, hv, List.map_nil, List.getElem?_cons_succ]
    rw [if_neg (by simpa [vertexShape, Shape.tag] using hle)]
    rfl
  have ho : orientEdges close (blocks.flatten.map edgeShape) = .ok signs := by
    unfold orientEdges
    rw [hseed, Res.bind_ok, hs]
  refine ⟨signs, _, ho, hs, rfl, ?_⟩
  have hw : wireEdges E rock u.edges = .ok blocks.flatten := by
    unfold wireEdges
    rw [hb]
    rfl
  have hg0 : getIdx blocks.flatten 0 = .ok first := by rw [hf]; rfl
  have hg1 : getIdx first.boundary 0 = .ok v := by rw [hv]; rfl
  have hbd : setBoundary E.argsortTag .face
      [(.composed .wire tag none [vertexShape v] (blocks.flatten.map edgeShape) : Shape (Pt ℝ))] =
      .ok [.composed .wire tag none [vertexShape v] (blocks.flatten.map edgeShape)] :=
    setBoundary_one ha (by simp [Shape.dimension, Kind.dimension, Kind.admissible])
  have himm : setImmersed .face (u.edges.map edgeShape) = .ok (u.edges.map edgeShape) := by
    unfold setImmersed
    rw [if_pos]
    · rfl
    · refine List.all_eq_true.2 fun s hs => ?_
      obtain ⟨u, -, rfl⟩ := List.mem_map.1 hs
      rfl
  unfold assemble
  simp only [hw, hg0, hg1, mkWire_edges ha ho, hbd, himm, Res.bind_ok]
  cases tags.getItem "area" with
  | error err => rfl
  | ok area =>
  simp only [Res.bind_ok]
  rw [append_list (k := 0) (old := []) (by
    intro s hs
    obtain ⟨u, -, rfl⟩ := List.mem_map.1 hs
    rfl) rfl, Res.bind_ok, append_list (k := 1) (old := []) (by
    intro s hs
    obtain ⟨u, -, rfl⟩ := List.mem_map.1 hs
    rfl) rfl, Res.bind_ok, append_one (k := 1) (old := u.edges.map edgeShape) rfl rfl, Res.bind_ok,
    append_one (k := 2) (old := []) rfl rfl]
  rfl

theorem sideEdges_mem {E : Env} {edges b : List UEdge} {e : Edg} (h : sideEdges E edges e = .ok b) :
    ∀ x ∈ b, x ∈ edges ∧ x.physical = e.physical := by
  unfold sideEdges at h
  obtain ⟨mids, -, h⟩ := Res.bind_eq_ok.1 h
  split at h
  · cases h
  · have h := fancy_iff.1 h
    intro x hx
    obtain ⟨i, hi⟩ := List.mem_iff_getElem?.1 hx
    obtain ⟨hlt, rfl⟩ := List.getElem?_eq_some_iff.1 hi
    have := h.get (h.length_eq ▸ hlt) hlt
    simp only [List.get_eq_getElem] at this
    have := List.mem_filter.1 (List.mem_of_getElem? this)
    exact ⟨this.1, by simpa using this.2⟩

theorem setup_tagged {E : Env} {points : List (Pt ℝ)} {tags fTags : Dict String Int}
    {lines : List Line} {rock fractures : List Edg} {c1 : List Vtx}
    (h : IsSetup E points tags fTags lines rock fractures c1) :
    Tagged (rock ++ fractures) c1 (points.length + 1 + c1.length + 3 * (lines.length : Int)) := by
  obtain ⟨bc, ln, hf, -⟩ := fractureEdges_spec h.isFractures
  exact tagged h.box (tools_tags h.isTools) hf

/-- The function from the box and the fractures on. -/
theorem create_setup {E : Env} {points : List (Pt ℝ)} {tags fTags : Dict String Int}
    {lines : List Line} {rock fractures : List Edg} {c1 : List Vtx}
    (h : IsSetup E points tags fTags lines rock fractures c1) {domainTags : Option (Dict String Int)}
    {fractureTags : Option (Dict String Int)} (hd : domainTags.getD defaultTags2 = tags)
    (hf : fractureTags.getD defaultFractureTags = fTags) :
    createMdBox2D E points domainTags (some lines) fractureTags =
      (do
        let u ← split E rock fractures c1
          (points.length + 1 + c1.length + 3 * (lines.length : Int))
        let u ← restrict E points u
        assemble E tags rock u (points.length + 1 + c1.length + 3 * (lines.length : Int))) := by
  obtain ⟨d, rock', h1, h2, h3, h4⟩ := box_spec h.argsort h.enough tags
  obtain rfl := isBox_unique h.box h3
  unfold createMdBox2D
  simp only [hd, hf, h1, h2, h4, h.isTools, h.isFractures, Res.bind_ok]

/-- What the function makes, up to the tag of the face. -/
theorem made_item {E : Env} {points : List (Pt ℝ)} {tags fTags : Dict String Int}
    {lines : List Line} {rock fractures : List Edg} {c1 : List Vtx}
    (h : IsSetup E points tags fTags lines rock fractures c1) {domainTags : Option (Dict String Int)}
    {fractureTags : Option (Dict String Int)} (hd : domainTags.getD defaultTags2 = tags)
    (hf : fractureTags.getD defaultFractureTags = fTags) {T : Int}
    (hT : T = points.length + 1 + c1.length + 3 * (lines.length : Int)) :
    ∃ (u u' : UDom) (blocks : List (List UEdge)) (signs : List Int) (first : UEdge)
      (rest : List UEdge) (v w : Vtx) (wire : Shape (Pt ℝ)), split E rock fractures c1 T = .ok u ∧
      u' = ⟨u.vertices.filter fun v => inside E points v.point, u.edges.filter (keeps E points)⟩ ∧
      List.Forall₂ (fun e us => ∃ chain, IsParts c1 e chain us) rock blocks ∧
      (∀ b ∈ blocks, ∀ x ∈ b, x ∈ u'.edges) ∧
      blocks.flatten = first :: rest ∧ first.boundary = [v, w] ∧
      orientEdges close (blocks.flatten.map edgeShape) = .ok signs ∧
      orientFrom close (vertexShape v) (blocks.flatten.map edgeShape) = .ok signs ∧
      wire = .composed .wire T none [vertexShape v] (blocks.flatten.map edgeShape) ∧
      createMdBox2D E points domainTags (some lines) fractureTags = (do
        let area ← tags.getItem "area"
        pure ⟨2, [u'.vertices.map vertexShape, u'.edges.map edgeShape ++ [wire],
          [.composed .face (T + 1) (some area) [wire] (u'.edges.map edgeShape)]]⟩) := by
  subst hT
  obtain ⟨u, triangles, blocks, h1, h2, h3, h4, h5, -⟩ :=
    sides_parts h.ready h.differ (setup_tagged h)
  have hbound : ∀ b ∈ blocks, ∀ x ∈ b, ∃ v w, x.boundary = [v, w] ∧ v.tag ≤ w.tag := by
    intro b hb x hx
    obtain ⟨i, hi⟩ := List.mem_iff_getElem?.1 hb
    obtain ⟨hlt, rfl⟩ := List.getElem?_eq_some_iff.1 hi
    obtain ⟨chain, hc⟩ := h5.get (h5.length_eq ▸ hlt) hlt
    obtain ⟨j, hj⟩ := List.mem_iff_getElem?.1 hx
    obtain ⟨-, hle, p, q, -, -, hpq⟩ := hc.part j x hj
    rcases hpq with hpq | hpq <;>
    · rw [hpq] at hle
      refine ⟨_, _, hpq, ?_⟩
      simpa using hle
  obtain ⟨first, rest, hfr⟩ : ∃ first rest, blocks.flatten = first :: rest := by
    have hl := h5.length_eq
    have hlen := h.enough
    rw [← h.box.length, hl] at hlen
    obtain ⟨chain, hc⟩ := h5.get (i := 0) (by omega) (by omega)
    simp only [List.get_eq_getElem] at hc
    have hne : blocks[0] ≠ [] := by
      intro hnil
      have hlen := hc.length
      rw [hnil] at hlen
      have h1 := hc.isChain.first
      have h2 := hc.isChain.last
      match chain, hlen, h1, h2 with
      | [x], _, h1, h2 =>
        simp only [List.head?_cons, Option.some.injEq, List.getLast?_singleton] at h1 h2
        exact (h.ready.clear rock[0] (by simp)).ne (h1 ▸ h2)
    have hne' : blocks.flatten ≠ [] := by
      intro hnil
      exact hne (List.flatten_eq_nil_iff.1 hnil _ (List.getElem_mem _))
    exact List.exists_cons_of_ne_nil hne'
  obtain ⟨v, w, hvw, -⟩ : ∃ v w, first.boundary = [v, w] ∧ v.tag ≤ w.tag := by
    have hm : first ∈ blocks.flatten := by rw [hfr]; simp
    obtain ⟨b, hb, hx⟩ := List.mem_flatten.1 hm
    exact hbound b hb _ hx
  obtain ⟨signs, wire, k1, k2, k3, k4⟩ := assemble_spec h.argsort (tags := tags) (u := ⟨u.vertices.filter
    fun v => inside E points v.point, u.edges.filter (keeps E points)⟩)
    (tag := points.length + 1 + c1.length + 3 * (lines.length : Int)) h4 hfr hbound hvw
  refine ⟨u, _, blocks, signs, first, rest, v, w, wire, h1, rfl, h5, ?_, hfr, hvw, k1, k2, k3, ?_⟩
  · intro b hb x hx
    have h4 := mapRes_iff.1 h4
    obtain ⟨i, hi⟩ := List.mem_iff_getElem?.1 hb
    obtain ⟨hlt, rfl⟩ := List.getElem?_eq_some_iff.1 hi
    exact (sideEdges_mem (h4.get (h4.length_eq ▸ hlt) hlt) x hx).1
  · rw [create_setup h hd hf, h1, Res.bind_ok, restrict_spec h2 h3, Res.bind_ok, k4]

/-- What the function makes. -/
theorem made {E : Env} {points : List (Pt ℝ)} {tags fTags : Dict String Int}
    {lines : List Line} {rock fractures : List Edg} {c1 : List Vtx}
    (h : IsSetup E points tags fTags lines rock fractures c1) {domainTags : Option (Dict String Int)}
    {fractureTags : Option (Dict String Int)} (hd : domainTags.getD defaultTags2 = tags)
    (hf : fractureTags.getD defaultFractureTags = fTags) {area : Int}
    (harea : tags.get? "area" = some area) {T : Int}
    (hT : T = points.length + 1 + c1.length + 3 * (lines.length : Int)) :
    ∃ (u u' : UDom) (blocks : List (List UEdge)) (signs : List Int) (first : UEdge)
      (rest : List UEdge) (v w : Vtx) (wire : Shape (Pt ℝ)), split E rock fractures c1 T = .ok u ∧
      u' = ⟨u.vertices.filter fun v => inside E points v.point, u.edges.filter (keeps E points)⟩ ∧
      List.Forall₂ (fun e us => ∃ chain, IsParts c1 e chain us) rock blocks ∧
      (∀ b ∈ blocks, ∀ x ∈ b, x ∈ u'.edges) ∧
      blocks.flatten = first :: rest ∧ first.boundary = [v, w] ∧
      orientEdges close (blocks.flatten.map edgeShape) = .ok signs ∧
      orientFrom close (vertexShape v) (blocks.flatten.map edgeShape) = .ok signs ∧
      wire = .composed .wire T none [vertexShape v] (blocks.flatten.map edgeShape) ∧
      createMdBox2D E points domainTags (some lines) fractureTags = .ok ⟨2,
        [u'.vertices.map vertexShape, u'.edges.map edgeShape ++ [wire],
          [.composed .face (T + 1) (some area) [wire] (u'.edges.map edgeShape)]]⟩ := by
  obtain ⟨u, u', blocks, signs, first, rest, v, w, wire, h1, h2, h3, h4, h5, h6, h7, h8, h9, h10⟩ :=
    made_item h hd hf hT
  refine ⟨u, u', blocks, signs, first, rest, v, w, wire, h1, h2, h3, h4, h5, h6, h7, h8, h9, ?_⟩
  have hitem : tags.getItem "area" = .ok area := by
    unfold Dict.getItem
    rw [harea]
  rw [h10, hitem]
  rfl

/-- An edge without tools has one part. -/
theorem chain_two {tools : List Vtx} {e : Edg} {chain : List (Pt ℝ)}
    (hc : VertexOps.IsChain tools e chain) (hno : ¬ ∃ v, OnEdge tools e v)
    (hne : e.first.point ≠ e.second.point) : chain = [e.first.point, e.second.point] := by
  have hm : ∀ x ∈ chain, x = e.first.point ∨ x = e.second.point := by
    intro x hx
    rcases (hc.mem x).1 hx with h | h | ⟨v, hv, -⟩
    · exact Or.inl h
    · exact Or.inr h
    · exact absurd ⟨v, hv⟩ hno
  have h1 := hc.first
  have h2 := hc.last
  have h3 := hc.ordered
  match chain, h1, h2, h3, hm with
  | [], h1, _, _, _ => simp at h1
  | [x], h1, h2, _, _ =>
    simp only [List.head?_cons, Option.some.injEq, List.getLast?_singleton] at h1 h2
    exact absurd (h1.symm.trans h2) hne
  | [x, y], h1, h2, _, _ =>
    simp only [List.head?_cons, Option.some.injEq, List.getLast?_cons_cons,
      List.getLast?_singleton] at h1 h2
    rw [h1, h2]
  | x :: y :: z :: l, h1, _, h3, hm =>
    simp only [List.head?_cons, Option.some.injEq] at h1
    subst h1
    simp only [List.pairwise_cons] at h3
    have hy : y = e.second.point := by
      rcases hm y (by simp) with h | h
      · have := h3.1 y (by simp)
        rw [h] at this
        exact absurd this (lt_irrefl _)
      · exact h
    have hz : z = e.second.point := by
      rcases hm z (by simp) with h | h
      · have := h3.1 z (by simp)
        rw [h] at this
        exact absurd this (lt_irrefl _)
      · exact h
    have := h3.2.1 z (by simp)
    rw [hy, hz] at this
    exact absurd this (lt_irrefl _)

/-- Signs that follow a closed chain: one leaves every vertex as often as one arrives. -/
theorem flow_chain {t : Int} : ∀ {es vs : List (Shape (Pt ℝ))} {signs : List Int}
    {v m : Shape (Pt ℝ)}, Topology.IsChain es vs → FollowsChain es vs signs → vs.head? = some v →
    vs.getLast? = some m → flow t es signs = at_ t m - at_ t v
  | [], vs, signs, v, m, h, hf, hv, hm => by
    have := h.length
    match vs, this, hv, hm with
    | [x], _, hv, hm =>
      simp only [List.head?_cons, Option.some.injEq, List.getLast?_singleton] at hv hm
      subst hv hm
      simp [flow]
  | e :: es, vs, signs, v, m, h, hf, hv, hm => by
    have hl := h.length
    match vs, hl, hv, hm, h, hf with
    | [x], hl, _, _, _, _ => simp at hl
    | x :: y :: vs, hl, hv, hm, h, hf =>
      match signs, hf with
      | [], hf => have := hf.1; simp at this
      | s :: signs, hf =>
        simp only [List.head?_cons, Option.some.injEq] at hv
        subst hv
        rw [List.getLast?_cons_cons] at hm
        have hstep := hf.2 0 e x y s rfl rfl rfl rfl
        have ht : Topology.IsChain es (y :: vs) := ⟨by simpa using hl, fun i e' a b h1 h2 h3 =>
          h.joins (i + 1) e' a b (by simpa using h1) (by simpa using h2) (by simpa using h3),
          fun u hu => h.isVertex u (by simp [List.mem_cons.1 hu])⟩
        have hft : FollowsChain es (y :: vs) signs := ⟨by simpa using hf.1,
          fun i e' a b s' h1 h2 h3 h4 => hf.2 (i + 1) e' a b s' (by simpa using h1)
            (by simpa using h2) (by simpa using h3) (by simpa using h4)⟩
        have ih := flow_chain (t := t) ht hft rfl hm
        rcases hstep with ⟨rfl, hb⟩ | ⟨rfl, hb⟩
        · rw [flow_cons hb, ih]; ring
        · rw [flow_cons hb, ih]; ring

/-- The tags of the tools come after those of the box. -/
theorem tool_tag {E : Env} {points : List (Pt ℝ)} {tags fTags : Dict String Int}
    {lines : List Line} {rock fractures : List Edg} {c1 : List Vtx}
    (h : IsSetup E points tags fTags lines rock fractures c1) {v : Vtx} (hv : v ∈ c1) :
    (points.length : Int) < v.tag := by
  have : v.tag ∈ c1.map Vtx.tag := List.mem_map_of_mem hv
  rw [tools_tags h.isTools, mem_consec] at this
  omega


/-- The traversal starts at the first corner, if no tool is there. -/
theorem seed_corner {E : Env} {points : List (Pt ℝ)} {tags fTags : Dict String Int}
    {lines : List Line} {rock fractures : List Edg} {c1 : List Vtx}
    (h : IsSetup E points tags fTags lines rock fractures c1) {blocks : List (List UEdge)}
    (h3 : List.Forall₂ (fun e us => ∃ chain, IsParts c1 e chain us) rock blocks)
    {first : UEdge} {rest : List UEdge} (h5 : blocks.flatten = first :: rest) {v w : Vtx}
    (h6 : first.boundary = [v, w]) {c0 : Vtx} (hc0 : (corners points)[0]? = some c0)
    (hno : ∀ t ∈ c1, t.point ≠ c0.point) : v = c0 := by
  have hl := h3.length_eq
  have hbl := h.box.length
  have hn2 := h.enough
  obtain ⟨e, rock', rfl⟩ : ∃ e l, rock = e :: l := by
    cases rock with
    | nil => simp at hbl; omega
    | cons a l => exact ⟨a, l, rfl⟩
  obtain ⟨b, blocks', rfl⟩ : ∃ b l, blocks = b :: l := by
    cases blocks with
    | nil => simp at hl
    | cons a l => exact ⟨a, l, rfl⟩
  obtain ⟨chain, hc⟩ := (List.forall₂_cons.1 h3).1
  have hne := (h.ready.clear e (by simp)).ne
  obtain ⟨-, -, a, z, ha, -, hends⟩ := h.box.side 0 e rfl
  rw [if_neg (by omega)] at hends
  rw [hc0, Option.some.injEq] at ha
  subst ha
  obtain ⟨x, b', rfl⟩ : ∃ x l, b = x :: l := by
    cases b with
    | nil =>
      exfalso
      have h1 := hc.isChain.first
      have h2 := hc.isChain.last
      have hlen := hc.length
      match chain, hlen, h1, h2 with
      | [x], _, h1, h2 =>
        simp only [List.head?_cons, Option.some.injEq, List.getLast?_singleton] at h1 h2
        exact hne (h1 ▸ h2)
    | cons a l => exact ⟨a, l, rfl⟩
  simp only [List.flatten_cons, List.cons_append, List.cons.injEq] at h5
  obtain ⟨rfl, -⟩ := h5
  obtain ⟨-, hle, p, q, hp, hq, hpq⟩ := hc.part 0 x rfl
  have hp' : p = e.first.point := by
    have := hc.isChain.first
    rw [List.head?_eq_getElem?, hp] at this
    simpa using this
  subst hp'
  have hfp : finalAt c1 e e.first.point = c0 := by
    rw [finalAt_first, hends.1]
    exact final_old hno
  have hc0t : c0.tag = 0 := by
    rw [corners_getElem?] at hc0
    obtain ⟨x, -, rfl⟩ := Option.map_eq_some_iff.1 hc0
    rfl
  rw [hfp] at hpq
  rcases hpq with hpq | hpq
  · rw [h6, List.cons.injEq] at hpq
    exact hpq.1
  · exfalso
    rw [hpq] at hle
    have hle : (finalAt c1 e q).tag ≤ c0.tag := by simpa using hle
    have hold : Old (e :: rock' ++ fractures) c1 (finalAt c1 e q) ∧ 0 ≤ (finalAt c1 e q).tag := by
      rcases finalAt_mem (tools := c1) (e := e) q with hx | hx | hx
      · exact ⟨Or.inl hx, by have := tool_tag h hx; omega⟩
      · rw [hx]
        obtain ⟨i, -, -, hi⟩ := side_ends h.box (e := e) (by simp) (v := e.first) (Or.inl rfl)
        exact ⟨Or.inr ⟨e, by simp, Or.inl rfl⟩, by omega⟩
      · rw [hx]
        obtain ⟨i, -, -, hi⟩ := side_ends h.box (e := e) (by simp) (v := e.second) (Or.inr rfl)
        exact ⟨Or.inr ⟨e, by simp, Or.inr rfl⟩, by omega⟩
    have heq : finalAt c1 e q = c0 := (setup_tagged h).one _ _ hold.1
      (Or.inr ⟨e, by simp, Or.inl hends.1.symm⟩) (by omega)
    have h1 := finalAt_point hc.isChain (List.mem_of_getElem? hq)
    have h2 := finalAt_point hc.isChain (List.mem_of_getElem? hp)
    rw [heq] at h1
    rw [hfp] at h2
    have := chain_index hc.isChain (hq.trans (by rw [← h1])) (hp.trans (by rw [← h2]))
    omega

end Verif.MdBox
