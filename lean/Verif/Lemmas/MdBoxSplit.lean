/-
Helper lemmas for C96: tags, splitting and restriction.
-/
import Verif.Lemmas.MdBox
import Verif.Props.DomainOps
import Verif.Props.PointGeometry

namespace Verif.MdBox
open MeshBuild MeshGraph Trace MeshMetrics Geometry VertexOps DomainOps Topology
open scoped Classical

/-! ### Tags -/

theorem corners_getElem? (points : List (Pt ℝ)) (i : Nat) :
    (corners points)[i]? = points[i]?.map fun x => ⟨i, none, x⟩ := by
  simp [corners, List.getElem?_zipIdx, Option.map_map, Function.comp_def]

/-- What is used of the tags. -/
structure Tagged (edges : List Edg) (tools : List Vtx) (tag : Int) : Prop where
  edgeTags : (edges.map Edg.tag).Nodup
  edgesLt : ∀ e ∈ edges, e.tag < tag
  verticesLt : ∀ v, Old edges tools v → v.tag < tag
  one : OneTag (Old edges tools)
  toolTags : (tools.map Vtx.tag).Nodup

theorem side_ends {points : List (Pt ℝ)} {tags : Dict String Int} {rock : List Edg}
    (h : IsBox points tags rock) {e : Edg} (he : e ∈ rock) {v : Vtx} (hv : Edg.Ends e v) :
    ∃ i : Nat, i < points.length ∧ (corners points)[i]? = some v ∧ v.tag = i := by
  obtain ⟨i, hi⟩ := List.mem_iff_getElem?.1 he
  obtain ⟨-, -, a, b, ha, hb, hab⟩ := h.side i e hi
  have key : ∀ (j : Nat) (w : Vtx), (corners points)[j]? = some w → v = w →
      ∃ i : Nat, i < points.length ∧ (corners points)[i]? = some v ∧ v.tag = i := by
    rintro j w hw rfl
    refine ⟨j, ?_, hw, ?_⟩
    · have := (List.getElem?_eq_some_iff.1 hw).1
      simpa [corners] using this
    · rw [corners_getElem?] at hw
      obtain ⟨x, -, rfl⟩ := Option.map_eq_some_iff.1 hw
      rfl
  by_cases hl : i + 1 = points.length
  · rw [if_pos hl] at hab
    rcases hv with rfl | rfl
    · exact key _ b hb hab.1
    · exact key _ a ha hab.2
  · rw [if_neg hl] at hab
    rcases hv with rfl | rfl
    · exact key _ a ha hab.1
    · exact key _ b hb hab.2

theorem tagged {points : List (Pt ℝ)} {tags : Dict String Int} {rock fractures : List Edg}
    {tools : List Vtx} {lines : List Line} {bc ln : Int} (hb : IsBox points tags rock)
    (ht : tools.map Vtx.tag = consec (points.length + 1) tools.length)
    (hf : IsFractures bc ln (points.length + 1 + tools.length) lines fractures) :
    Tagged (rock ++ fractures) tools
      (points.length + 1 + tools.length + 3 * (lines.length : Int)) := by
  set n := points.length with hn
  have hrock : ∀ (i : Nat) e, rock[i]? = some e → e.tag = i ∧ i < n := by
    intro i e hi
    refine ⟨(hb.side i e hi).1, ?_⟩
    have := (List.getElem?_eq_some_iff.1 hi).1
    rw [hb.length] at this
    exact this
  have hfr : ∀ (i : Nat) e, fractures[i]? = some e → ∃ l, lines[i]? = some l ∧ i < lines.length ∧
      e = ⟨n + 1 + tools.length + 3 * (i : Int) + 2, some ln,
        ⟨n + 1 + tools.length + 3 * (i : Int), some bc, l.1⟩,
        ⟨n + 1 + tools.length + 3 * (i : Int) + 1, some bc, l.2⟩⟩ := by
    intro i e hi
    have hl := (List.getElem?_eq_some_iff.1 hi).1
    rw [hf.1] at hl
    exact ⟨_, List.getElem?_eq_getElem hl, hl, hf.2 i e _ hi (List.getElem?_eq_getElem hl)⟩
  have htool : ∀ v ∈ tools, (n : Int) + 1 ≤ v.tag ∧ v.tag < n + 1 + tools.length := by
    intro v hv
    have : v.tag ∈ tools.map Vtx.tag := List.mem_map_of_mem hv
    rw [ht, mem_consec] at this
    exact this
  have htn : (tools.map Vtx.tag).Nodup := by rw [ht]; exact nodup_consec _ _
  have hold : ∀ v, Old (rock ++ fractures) tools v → v ∈ tools ∨
      (∃ i : Nat, i < n ∧ (corners points)[i]? = some v ∧ v.tag = i) ∨
      ∃ (i : Nat) (l : Line), lines[i]? = some l ∧ i < lines.length ∧
        (v = ⟨n + 1 + tools.length + 3 * (i : Int), some bc, l.1⟩ ∨
          v = ⟨n + 1 + tools.length + 3 * (i : Int) + 1, some bc, l.2⟩) := by
    rintro v (hv | ⟨e, he, hv⟩)
    · exact Or.inl hv
    · rcases List.mem_append.1 he with he | he
      · exact Or.inr (Or.inl (side_ends hb he hv))
      · obtain ⟨i, hi⟩ := List.mem_iff_getElem?.1 he
        obtain ⟨l, h1, h2, rfl⟩ := hfr i e hi
        exact Or.inr (Or.inr ⟨i, l, h1, h2, hv⟩)
  refine ⟨?_, ?_, ?_, ?_, htn⟩
  · rw [List.map_append, List.nodup_append]
    refine ⟨?_, ?_, ?_⟩
    · rw [List.Nodup, List.pairwise_map, List.pairwise_iff_getElem]
      intro i j hi hj hij
      rw [(hrock i _ (List.getElem?_eq_getElem hi)).1, (hrock j _ (List.getElem?_eq_getElem hj)).1]
      omega
    · rw [List.Nodup, List.pairwise_map, List.pairwise_iff_getElem]
      intro i j hi hj hij
      obtain ⟨l, -, -, h1⟩ := hfr i _ (List.getElem?_eq_getElem hi)
      obtain ⟨l', -, -, h2⟩ := hfr j _ (List.getElem?_eq_getElem hj)
      rw [h1, h2]
      simp only [ne_eq]
      omega
    · intro a ha b hb' hab
      obtain ⟨e, he, rfl⟩ := List.mem_map.1 ha
      obtain ⟨f, hf', rfl⟩ := List.mem_map.1 hb'
      obtain ⟨i, hi⟩ := List.mem_iff_getElem?.1 he
      obtain ⟨j, hj⟩ := List.mem_iff_getElem?.1 hf'
      obtain ⟨l', -, -, h2⟩ := hfr j _ hj
      rw [(hrock i e hi).1, h2] at hab
      have := (hrock i e hi).2
      simp only at hab
      omega
  · intro e he
    rcases List.mem_append.1 he with he | he <;> obtain ⟨i, hi⟩ := List.mem_iff_getElem?.1 he
    · have := hrock i e hi
      omega
    · obtain ⟨l, -, h1, rfl⟩ := hfr i _ hi
      simp only
      omega
  · intro v hv
    rcases hold v hv with h | ⟨i, h1, -, h2⟩ | ⟨i, l, -, h1, rfl | rfl⟩
    · have := htool v h
      omega
    · omega
    · simp only; omega
    · simp only; omega
  · intro v w hv hw hvw
    rcases hold v hv with h | ⟨i, h1, h2, h3⟩ | ⟨i, l, h0, h1, h2⟩ <;>
    rcases hold w hw with h' | ⟨j, h1', h2', h3'⟩ | ⟨j, l', h0', h1', h2'⟩
    · exact List.inj_on_of_nodup_map htn h h' hvw
    · have := htool v h; omega
    · have := htool v h
      rcases h2' with rfl | rfl <;> simp only at hvw <;> omega
    · have := htool w h'; omega
    · have : i = j := by omega
      subst this
      rw [h2] at h2'
      exact Option.some.inj h2'
    · rcases h2' with rfl | rfl <;> simp only at hvw <;> omega
    · have := htool w h'
      rcases h2 with rfl | rfl <;> simp only at hvw <;> omega
    · rcases h2 with rfl | rfl <;> simp only at hvw <;> omega
    · rcases h2 with rfl | rfl <;> rcases h2' with rfl | rfl <;> simp only at hvw
      · have : i = j := by omega
        subst this
        rw [h0] at h0'
        cases h0'
        rfl
      · omega
      · omega
      · have : i = j := by omega
        subst this
        rw [h0] at h0'
        cases h0'
        rfl

/-! ### Splitting -/

theorem blocks_of {α β γ : Type} {R : β → γ → Prop} {f : α → List β} : ∀ {out : List α}
    {us : List γ}, List.Forall₂ R (out.flatMap f) us → ∃ blocks, us = blocks.flatten ∧
      List.Forall₂ (fun r b => List.Forall₂ R (f r) b) out blocks
  | [], us, h => by
    rw [List.flatMap_nil, List.forall₂_nil_left_iff] at h
    subst h
    exact ⟨[], rfl, .nil⟩
  | a :: out, us, h => by
    rw [List.flatMap_cons] at h
    have h1 := List.forall₂_take_append us (f a) (out.flatMap f) (R := fun x y => R y x) h.flip
    have h2 := List.forall₂_drop_append us (f a) (out.flatMap f) (R := fun x y => R y x) h.flip
    obtain ⟨blocks, e, hb⟩ := blocks_of h2.flip
    exact ⟨us.take (f a).length :: blocks, by rw [List.flatten_cons, ← e, List.take_append_drop],
      .cons h1.flip hb⟩

theorem keepVertices_id {hash : Nat → Int → Int} {tools : List Vtx}
    (hh : ∀ v ∈ tools, ∀ w ∈ tools, hash 0 v.tag = hash 0 w.tag → v.tag = w.tag)
    (ht : (tools.map Vtx.tag).Nodup) : keepVertices hash tools = tools := by
  have := values_store (keyed_nil fun v : Vtx => hash 0 v.tag) tools (by
    rw [show Dict.values ([] : Dict Int Vtx) = [] from rfl, List.nil_append, List.Nodup,
      List.pairwise_map]
    rw [List.Nodup, List.pairwise_map] at ht
    refine ht.imp_of_mem fun {v w} hv hw h e => h (hh v hv w hw e))
  exact this

/-- The box and the fractures after the splitting: for every edge its parts, in order. -/
theorem split_parts {E : Env} {points : List (Pt ℝ)} {rock fractures : List Edg} {tools : List Vtx}
    {tag : Int} (hr : Ready E points rock fractures tools tag)
    (ht : Tagged (rock ++ fractures) tools tag) :
    ∃ u blocks, split E rock fractures tools tag = .ok u ∧ u.edges = blocks.flatten ∧
      List.Forall₂ (fun e us => ∃ chain, IsParts tools e chain us) (rock ++ fractures) blocks ∧
      (u.vertices.map Vtx.tag).Nodup ∧ (∀ v, v ∈ u.vertices ↔ ∃ x ∈ u.edges, v ∈ x.boundary) ∧
      (u.edges.map UEdge.tag).Nodup := by
  obtain ⟨d, out, h1, h2, h3, h4, h5, h6⟩ := C68_difference hr.clear ht.edgeTags ht.edgesLt
    ht.verticesLt ht.one
  obtain ⟨hm, hnear⟩ := C69_mergeable hr.clear ht.edgeTags ht.edgesLt ht.verticesLt ht.one
    hr.separated ht.toolTags h1
  obtain ⟨hh0, hh1⟩ := hr.hash d h1
  obtain ⟨u, hu, hu', -⟩ := C69_difference_union hr.clear ht.edgeTags ht.edgesLt ht.verticesLt
    ht.one hr.separated ht.toolTags h1 hh0 hh1
  have hedges := hu'.edges
  rw [h3] at hedges
  obtain ⟨blocks, e1, hb⟩ := blocks_of hedges
  have hM : ∀ w ∈ d.vertices, Replaced tools w (merge E.P tools w) := by
    intro w hw
    rcases merge_cases E.P tools w with ⟨k1, k2⟩ | ⟨k1, k2⟩
    · exact Or.inl ⟨k1, ((hnear w hw _ k1).1 k2).symm⟩
    · exact Or.inr ⟨k1, fun t ht h => k2 t ht ((hnear w hw t ht).2 h.symm)⟩
  refine ⟨u, blocks, ?_, e1, ?_, hu'.vertexTags, hu'.ends, ?_⟩
  · unfold split
    simp only [keepVertices_id hr.hashTools ht.toolTags, h1, Res.bind_ok]
    exact hu
  · rw [List.forall₂_iff_get] at h2 hb ⊢
    refine ⟨h2.1.trans hb.1, fun i hi hi' => ?_⟩
    have hio : i < out.length := by rw [← h2.1]; exact hi
    refine parts_of_union (h2.2 i hi hio) (hr.clear _ (List.get_mem _ _)).ne hr.separated.one ?_
      (hb.2 i hio hi')
    intro p hp w hw
    refine hM w ((h4.ends w).2 ⟨p, ?_, hw⟩)
    rw [h3]
    exact List.mem_flatMap.2 ⟨_, List.get_mem _ _, hp⟩
  · have : u.edges.map UEdge.tag = d.edges.map Edg.tag := by
      have := hu'.edges
      clear * - this
      generalize u.edges = us at this
      generalize d.edges = ds at this
      induction this with
      | nil => rfl
      | cons h _ ih => simp [h.1, ih]
    rw [this]
    exact h4.edgeTags

/-! ### Restriction -/

/-- What the mask says of one point. -/
noncomputable def inside (E : Env) (points : List (Pt ℝ)) (x : Pt ℝ) : Bool :=
  match pointPolygonIntersection E.P.collapse E.triangulate x points E.eps with
  | .ok o => o.isSome
  | .error _ => false

theorem pointsPolygon_mask {E : Env} {points : List (Pt ℝ)} {triangles : List Triangle}
    (ht : E.triangulate points = .ok triangles) (xs : List (Pt ℝ)) :
    ∃ out, pointsPolygonIntersection E.P.collapse E.triangulate xs points E.eps =
      .ok (out, xs.map (inside E points)) := by
  have h : ∀ x, ∃ o, pointPolygonIntersection E.P.collapse E.triangulate x points E.eps = .ok o := by
    intro x
    unfold pointPolygonIntersection
    simp only [ht, Res.bind_ok, Res.pure_eq]
    exact ⟨_, rfl⟩
  choose g hg using h
  unfold pointsPolygonIntersection
  rw [mapRes_ok_of (g := g) fun x _ => hg x]
  refine ⟨((xs.map g).map Out.ofOption).filter Out.isNotNone, ?_⟩
  simp only [Res.bind_ok, Res.pure_eq, withMask]
  congr 2
  rw [List.map_map, List.map_map]
  refine List.map_congr_left fun x _ => ?_
  simp only [Function.comp_apply, inside, hg x]
  cases g x <;> rfl

theorem maskFilter_map {α : Type} (l : List α) (p : α → Bool) : maskFilter l (l.map p) = l.filter p := by
  induction l with
  | nil => rfl
  | cons a l ih =>
    simp only [maskFilter] at ih ⊢
    rw [List.map_cons, List.zip_cons_cons, List.filter_cons, List.filter_cons]
    cases h : p a <;> simp [ih]

/-- The edges with their middle in the box. -/
noncomputable def keeps (E : Env) (points : List (Pt ℝ)) (u : UEdge) : Bool :=
  match middle u with
  | .ok m => inside E points m
  | .error _ => false

theorem restrict_spec {E : Env} {points : List (Pt ℝ)} {triangles : List Triangle}
    (ht : E.triangulate points = .ok triangles) {u : UDom}
    (hm : ∀ e ∈ u.edges, ∃ m, middle e = .ok m) :
    restrict E points u = .ok ⟨u.vertices.filter fun v => inside E points v.point,
      u.edges.filter (keeps E points)⟩ := by
  obtain ⟨o1, h1⟩ := pointsPolygon_mask ht (u.vertices.map Vtx.point)
  choose! g hg using hm
  obtain ⟨o2, h2⟩ := pointsPolygon_mask ht (u.edges.map g)
  unfold restrict
  rw [h1, Res.bind_ok, mapRes_ok_of hg, Res.bind_ok, h2, Res.bind_ok, Res.pure_eq]
  simp only [List.map_map]
  rw [maskFilter_map, ← maskFilter_map u.edges]
  congr 3
  refine List.map_congr_left fun e he => ?_
  simp only [Function.comp_apply, keeps, hg e he]

theorem filter_flatten {α : Type} {p : α → Bool} : ∀ {blocks : List (List α)} {i : Nat}
    {b : List α}, blocks[i]? = some b → (∀ u ∈ b, p u = true) →
    (∀ (j : Nat) b', j ≠ i → blocks[j]? = some b' → ∀ u ∈ b', p u = false) →
    blocks.flatten.filter p = b
  | [], i, b, h, _, _ => by simp at h
  | c :: blocks, 0, b, h, h1, h2 => by
    simp only [List.getElem?_cons_zero, Option.some.injEq] at h
    subst h
    rw [List.flatten_cons, List.filter_append, List.filter_eq_self.2 h1, List.filter_eq_nil_iff.2,
      List.append_nil]
    intro u hu
    obtain ⟨b', hb', hu'⟩ := List.mem_flatten.1 hu
    obtain ⟨j, hj⟩ := List.mem_iff_getElem?.1 hb'
    simp [h2 (j + 1) b' (by omega) hj u hu']
  | c :: blocks, i + 1, b, h, h1, h2 => by
    rw [List.flatten_cons, List.filter_append, List.filter_eq_nil_iff.2, List.nil_append]
    · exact filter_flatten (i := i) (by simpa using h) h1 fun j b' hj hb' =>
        h2 (j + 1) b' (by omega) (by simpa using hb')
    · intro u hu
      simp [h2 0 c (by omega) rfl u hu]

/-- The sides of the box with their parts, as the wire is made of them. -/
theorem sides_parts {E : Env} {points : List (Pt ℝ)} {rock fractures : List Edg} {tools : List Vtx}
    {tag : Int} (hr : Ready E points rock fractures tools tag) (hd : TagsDiffer rock fractures)
    (ht : Tagged (rock ++ fractures) tools tag) :
    ∃ u triangles blocks, split E rock fractures tools tag = .ok u ∧
      E.triangulate points = .ok triangles ∧ (∀ e ∈ u.edges, ∃ m, middle e = .ok m) ∧
      mapRes (sideEdges E (u.edges.filter (keeps E points))) rock = .ok blocks ∧
      List.Forall₂ (fun e us => ∃ chain, IsParts tools e chain us) rock blocks ∧
      (∀ b ∈ blocks, ∀ x ∈ b, x ∈ u.edges) := by
  obtain ⟨u, all, h1, h2, h3, -⟩ := split_parts hr ht
  obtain ⟨triangles, ht1, ht2⟩ := hr.triangles
  have hlen := h3.length_eq
  rw [List.length_append] at hlen
  have hat : ∀ (i : Nat) e, (rock ++ fractures)[i]? = some e → ∃ b chain, all[i]? = some b ∧
      IsParts tools e chain b := by
    intro i e hi
    obtain ⟨hi', rfl⟩ := List.getElem?_eq_some_iff.1 hi
    have hi2 : i < all.length := by rw [← h3.length_eq]; exact hi'
    obtain ⟨chain, hc⟩ := List.Forall₂.get h3 hi' hi2
    exact ⟨_, chain, List.getElem?_eq_getElem hi2, hc⟩
  have hback : ∀ (i : Nat) b, all[i]? = some b → ∃ e chain, (rock ++ fractures)[i]? = some e ∧
      IsParts tools e chain b := by
    intro i b hi
    have hi' : i < (rock ++ fractures).length := by
      rw [h3.length_eq]; exact (List.getElem?_eq_some_iff.1 hi).1
    obtain ⟨b', chain, hb', hc⟩ := hat i _ (List.getElem?_eq_getElem hi')
    rw [hi] at hb'
    cases hb'
    exact ⟨_, chain, List.getElem?_eq_getElem hi', hc⟩
  have hne : ∀ (i : Nat) e, (rock ++ fractures)[i]? = some e → e.first.point ≠ e.second.point :=
    fun i e hi => (hr.clear e (List.mem_of_getElem? hi)).ne
  have hmid : ∀ e ∈ u.edges, ∃ m, middle e = .ok m := by
    intro x hx
    rw [h2] at hx
    obtain ⟨b, hb, hx⟩ := List.mem_flatten.1 hx
    obtain ⟨i, hi⟩ := List.mem_iff_getElem?.1 hb
    obtain ⟨e, chain, he, hc⟩ := hback i b hi
    obtain ⟨m, hm, -⟩ := middle_on (hne i e he) hc hx
    exact ⟨m, hm⟩
  have hphys : ∀ (i : Nat) b e, all[i]? = some b → (rock ++ fractures)[i]? = some e → ∀ x ∈ b,
      x.physical = e.physical := by
    intro i b e hb he x hx
    obtain ⟨e', chain, he', hc⟩ := hback i b hb
    rw [he] at he'
    cases he'
    obtain ⟨k, hk⟩ := List.mem_iff_getElem?.1 hx
    exact (hc.part k x hk).1
  have hside : ∀ (i : Nat) e, rock[i]? = some e → ∃ b chain, all[i]? = some b ∧
      IsParts tools e chain b ∧ sideEdges E (u.edges.filter (keeps E points)) e = .ok b := by
    intro i e hi
    have hil := (List.getElem?_eq_some_iff.1 hi).1
    have hi' : (rock ++ fractures)[i]? = some e := by rw [List.getElem?_append_left hil, hi]
    obtain ⟨b, chain, hb, hc⟩ := hat i e hi'
    refine ⟨b, chain, hb, hc, ?_⟩
    have hem := List.mem_of_getElem? hi
    refine sideEdges_parts (hr.clear e (by simp [hem])).argsort (hne i e hi') hc ?_ ?_
    · rw [h2, List.filter_filter]
      refine filter_flatten hb ?_ ?_
      · intro x hx
        rw [Bool.and_eq_true, decide_eq_true_eq]
        refine ⟨hphys i b e hb hi' x hx, ?_⟩
        obtain ⟨m, hm, hon⟩ := middle_on (hne i e hi') hc hx
        obtain ⟨t, ht, hin⟩ := ht2 e hem m hon
        simp only [keeps, hm, inside]
        rw [C61_accepts ht1 ht hin (hr.clear e (by simp [hem])).eps_nonneg]
        rfl
      · intro j b' hj hb' x hx
        obtain ⟨e', -, he', -⟩ := hback j b' hb'
        have : x.physical ≠ e.physical := by
          rw [hphys j b' e' hb' he' x hx]
          by_cases hjr : j < rock.length
          · rw [List.getElem?_append_left hjr] at he'
            have hp := List.pairwise_iff_getElem.1 hd.sides
            rw [List.getElem?_eq_getElem hjr, Option.some.injEq] at he'
            rw [List.getElem?_eq_getElem hil, Option.some.injEq] at hi
            rw [← he', ← hi]
            rcases Nat.lt_or_gt_of_ne hj with h | h
            · exact hp j i hjr hil h
            · exact (hp i j hil hjr h).symm
          · rw [List.getElem?_append_right (by omega)] at he'
            exact hd.fractures e hem e' (List.mem_of_getElem? he')
        simp [this]
    · intro hb0
      have h4 := hc.length
      rw [hb0] at h4
      obtain ⟨x, hx⟩ := List.length_eq_one_iff.1 h4.symm
      have hf := hc.isChain.first
      have hl := hc.isChain.last
      rw [hx] at hf hl
      simp only [List.head?_cons, List.getLast?_singleton, Option.some.injEq] at hf hl
      exact hne i e hi' (hf.symm.trans hl)
  have hforall : List.Forall₂ (fun e b => sideEdges E (u.edges.filter (keeps E points)) e = .ok b)
      rock (all.take rock.length) := by
    rw [List.forall₂_iff_get]
    refine ⟨by simp [← hlen], fun i hi hi' => ?_⟩
    obtain ⟨b, -, hb, -, hs⟩ := hside i _ (List.getElem?_eq_getElem hi)
    simp only [List.get_eq_getElem, List.getElem_take]
    rw [(List.getElem?_eq_some_iff.1 hb).2]
    exact hs
  refine ⟨u, triangles, all.take rock.length, h1, ht1, hmid, mapRes_iff.2 hforall, ?_, ?_⟩
  · rw [List.forall₂_iff_get]
    refine ⟨by simp [← hlen], fun i hi hi' => ?_⟩
    obtain ⟨b, chain, hb, hc, -⟩ := hside i _ (List.getElem?_eq_getElem hi)
    simp only [List.get_eq_getElem, List.getElem_take]
    rw [(List.getElem?_eq_some_iff.1 hb).2]
    exact ⟨chain, hc⟩
  · intro b hb x hx
    rw [h2]
    exact List.mem_flatten.2 ⟨b, List.mem_of_mem_take hb, hx⟩

end Verif.MdBox
