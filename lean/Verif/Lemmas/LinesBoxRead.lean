/-
Helper lemmas on boxes with lines: what is read from the domain.
-/
import Verif.Lemmas.LinesBoxMake

namespace Verif.LinesBox
open MeshBuild MeshGraph Trace MeshMetrics Geometry VertexOps Topology
open MdBox (asEdg asVtx vertexShape close corners IsBox)
open scoped Classical

theorem pieces_relabel (f g : Int → Int) (e : LEdge) : (relabelEdge f g e).pieces = e.pieces.map (relabelEdg f g) := by
  unfold LEdge.pieces
  by_cases h : e.parts = []
  · rw [if_pos h, if_pos (by simp [relabelEdge, h])]
    rfl
  · rw [if_neg h, if_neg (by simp [relabelEdge, h])]
    rfl

theorem allPieces_relabel (f g : Int → Int) (es : List LEdge) :
    allPieces (es.map (relabelEdge f g)) = (allPieces es).map (relabelEdg f g) := by
  unfold allPieces
  rw [List.flatMap_map, List.map_flatMap]
  exact List.flatMap_congr fun e _ => pieces_relabel f g e

theorem map_edges (f g : Int → Int) (es : List LEdge) :
    (es.map fun e => edgeShape (relabelEdge f g e)) = (es.map (relabelEdge f g)).map edgeShape := by
  rw [List.map_map]
  rfl

theorem faceOf_view (f g : Int → Int) (area : Option Int) (v : Vtx) (sides cut : List LEdge) :
    (faceOf f g area v sides cut).view = .composed .face 0 area [.composed .wire (g sides.length) none
      [vertexShape (relabelVtx f v), vertexShape (relabelVtx f v)] (((allPieces sides).map (relabelEdg f g)).map partShape)]
      ((cut.map (relabelEdge f g)).map edgeShape) := by
  unfold faceOf wireOf
  rw [map_edges, map_edges, view_face, allPieces_relabel]

theorem pieceShapes_faceOf (f g : Int → Int) (area : Option Int) (v : Vtx) (sides cut : List LEdge) :
    pieceShapes (faceOf f g area v sides cut) =
      ((allPieces sides ++ allPieces cut).map (relabelEdg f g)).map partShape := by
  unfold pieceShapes
  rw [faceOf_view, List.map_append, List.map_append]
  simp only [Shape.boundary, List.flatMap_singleton, Shape.immersed]
  rw [expand_edges, allPieces_relabel]

theorem lineTags_faceOf (f g : Int → Int) (area : Option Int) (v : Vtx) (sides cut : List LEdge) :
    lineTags (faceOf f g area v sides cut) =
      (((sides.length : Int) :: (allPieces sides).map Edg.tag) ++ cut.flatMap fun e => e.tag :: e.parts.map Edg.tag).map g := by
  unfold lineTags
  rw [faceOf_view]
  simp only [Shape.boundary, Shape.immersed, List.singleton_append, List.flatMap_cons, Shape.tag]
  rw [List.map_append, List.map_cons, List.map_map, List.map_map, List.map_map, List.flatMap_map,
    List.map_flatMap, List.map_map]
  refine congrArg₂ _ rfl (List.flatMap_congr fun e _ => ?_)
  simp only [Function.comp_apply, edgeShape, relabelEdge, Shape.tag, Shape.immersed, List.map_map, List.map_cons]
  rfl

section
variable {points : List (Pt ℝ)} {tags : Dict String Int} {rock : List Edg} {p : Int} {lines : List Line}
  {ptag : Int} {out : Fragments} {sides cut : List LEdge}

/-- No two points of the vertices that stay are equal, unless something is cut at corner 0. -/
theorem kept_once (hB : IsBox points tags rock) {etag : Int}
    (hD : Drawing (axesOf 2) (drawn rock (lineEdges points.length p lines)))
    (F : IsFragments (fun i => {z | CutAt (drawn rock (lineEdges points.length p lines)) i z})
      (drawn rock (lineEdges points.length p lines)) etag (points.length + 2 * lines.length) ptag out)
    {x : Pt ℝ} (hx : points[0]? = some x) :
    ((keptVertices points rock (lineEdges points.length p lines) out.vertices).Pairwise fun v w => v.point ≠ w.point) ↔
      ¬ ∃ i, CutAt (drawn rock (lineEdges points.length p lines)) i x := by
  set ls := lineEdges points.length p lines with hls
  set items := drawn rock ls with hitems
  have once : Once out.vertices := F.sorted.imp fun h => h.2
  have mem : ∀ {v}, v ∈ keptVertices points rock ls out.vertices ↔ v ∈ allVertices points ls out.vertices ∧
      (v.tag = 0 ∨ v ∈ out.vertices ∨ ¬ ∃ i, CutAt items i v.point) := by
    intro v
    rw [keptVertices, List.mem_filter, decide_eq_true_eq]
  have hnd : (keptVertices points rock ls out.vertices).Nodup :=
    List.Nodup.of_map Vtx.tag ((allVertices_nodup F).sublist (List.Sublist.map _ List.filter_sublist))
  have h0 : (⟨0, none, x⟩ : Vtx) ∈ allVertices points ls out.vertices := by
    refine List.mem_append_left _ (List.mem_append_left _ (List.mem_of_getElem? (i := 0) ?_))
    rw [MdBox.corners_getElem?, hx]
    rfl
  constructor
  · rintro h hcut
    obtain ⟨u, hu, hux⟩ := (F.points x).2 hcut
    have k0 := mem.2 ⟨h0, Or.inl rfl⟩
    have ku := mem.2 ⟨List.mem_append_right _ hu, Or.inr (Or.inl hu)⟩
    have hne : (⟨0, none, x⟩ : Vtx) ≠ u := by
      intro he
      have ht : u.physical ∈ out.vertices.map Vtx.physical := List.mem_map.2 ⟨u, hu, rfl⟩
      rw [F.ptags, ← he] at ht
      simp at ht
    haveI : Std.Symm fun v w : Vtx => v.point ≠ w.point := ⟨fun _ _ h => h.symm⟩
    exact h.forall k0 ku hne hux.symm
  · intro hcut
    refine (List.Pairwise.and_mem.1 hnd).imp fun {v w} h hp => ?_
    obtain ⟨hv, hw, hne⟩ := h
    obtain ⟨av, cv⟩ := mem.1 hv
    obtain ⟨aw, cw⟩ := mem.1 hw
    have zero : ∀ {u : Vtx}, u ∈ allVertices points ls out.vertices → u.tag = 0 → u.point = x := fun hu ht => by
      rw [allVertices_eq F hu h0 ht]
    have cv' : v ∈ out.vertices ∨ ¬ ∃ i, CutAt items i v.point := by
      rcases cv with h | h | h
      · exact Or.inr (by rw [zero av h]; exact hcut)
      · exact Or.inl h
      · exact Or.inr h
    have cw' : w ∈ out.vertices ∨ ¬ ∃ i, CutAt items i w.point := by
      rcases cw with h | h | h
      · exact Or.inr (by rw [zero aw h]; exact hcut)
      · exact Or.inl h
      · exact Or.inr h
    have isCut : ∀ {u : Vtx}, u ∈ out.vertices → ∃ i, CutAt items i u.point := fun hu => (F.points _).1 ⟨_, hu, rfl⟩
    rcases cv' with nv | uv <;> rcases cw' with nw | uw
    · exact hne (once.eq nv nw hp)
    · exact uw (hp ▸ isCut nv)
    · exact uv (hp ▸ isCut nw)
    · have ov : v ∈ corners points ++ ls.flatMap fun e => [e.first, e.second] := by
        rcases List.mem_append.1 av with h | h
        · exact h
        · exact absurd (isCut h) uv
      have ow : w ∈ corners points ++ ls.flatMap fun e => [e.first, e.second] := by
        rcases List.mem_append.1 aw with h | h
        · exact h
        · exact absurd (isCut h) uw
      obtain ⟨i, e, he, hve⟩ := ends_drawn hB ov
      obtain ⟨j, e', he', hwe⟩ := ends_drawn hB ow
      have only : ∀ {e : LEdge} {u u' : Vtx}, e.first.point ≠ e.second.point → u ∈ [e.first, e.second] →
          u' ∈ [e.first, e.second] → u.point = u'.point → u = u' := by
        intro e u u' hne hu hu' huu
        simp only [List.mem_cons, List.not_mem_nil, or_false] at hu hu'
        rcases hu with rfl | rfl <;> rcases hu' with rfl | rfl
        · rfl
        · exact absurd huu hne
        · exact absurd huu.symm hne
        · rfl
      have fe := (hD.fresh e (List.mem_of_getElem? he)).2
      have fe' := (hD.fresh e' (List.mem_of_getElem? he')).2
      have span : ∀ {e : LEdge} {u : Vtx}, u ∈ [e.first, e.second] → u.point ∈ e.span := by
        intro e u hu
        unfold LEdge.span
        rcases List.mem_cons.1 hu with rfl | hu
        · exact left_mem_segment ℝ _ _
        · rw [List.mem_singleton.1 hu]
          exact right_mem_segment ℝ _ _
      by_cases hij : i = j
      · subst hij
        rw [he, Option.some.injEq, Option.some.injEq] at he'
        subst he'
        exact hne (only fe hve hwe hp)
      · have hl : Linked e e' v.point := by
          by_contra hl
          exact uv ⟨i, e, j, e', he, he', fun h => hij h.symm, span hve, hp ▸ span hwe, hl⟩
        obtain ⟨a, ha, b, hb, p1, p2, p3⟩ := hl
        rw [only fe ha hve p1, only fe' hb hwe (p2.trans hp)] at p3
        exact hne (allVertices_eq F av aw p3)

/-- The points of the vertices that stay -/
theorem kept_points (hB : IsBox points tags rock) {etag : Int}
    (F : IsFragments (fun i => {z | CutAt (drawn rock (lineEdges points.length p lines)) i z})
      (drawn rock (lineEdges points.length p lines)) etag (points.length + 2 * lines.length) ptag out) {z : Pt ℝ} :
    (∃ v ∈ keptVertices points rock (lineEdges points.length p lines) out.vertices, v.point = z) ↔
      z ∈ points ∨ (∃ l ∈ lines, z = l.1 ∨ z = l.2) ∨ ∃ i, CutAt (drawn rock (lineEdges points.length p lines)) i z := by
  set ls := lineEdges points.length p lines with hls
  set items := drawn rock ls with hitems
  have mem : ∀ {v}, v ∈ keptVertices points rock ls out.vertices ↔ v ∈ allVertices points ls out.vertices ∧
      (v.tag = 0 ∨ v ∈ out.vertices ∨ ¬ ∃ i, CutAt items i v.point) := by
    intro v
    rw [keptVertices, List.mem_filter, decide_eq_true_eq]
  have hc : ∀ {y : Pt ℝ}, (∃ v ∈ corners points, v.point = y) ↔ y ∈ points := by
    intro y
    constructor
    · rintro ⟨v, hv, rfl⟩
      obtain ⟨q, hq, rfl⟩ := List.mem_map.1 hv
      obtain ⟨k, hk⟩ := List.mem_iff_getElem?.1 hq
      rw [List.getElem?_zipIdx, Option.map_eq_some_iff] at hk
      obtain ⟨a, ha, rfl⟩ := hk
      exact List.mem_of_getElem? ha
    · intro hy
      obtain ⟨k, hk⟩ := List.mem_iff_getElem?.1 hy
      exact ⟨⟨k, none, y⟩, List.mem_of_getElem? (i := k) (by rw [MdBox.corners_getElem?, hk]; rfl), rfl⟩
  have he : ∀ {y : Pt ℝ}, (∃ v ∈ ls.flatMap fun e => [e.first, e.second], v.point = y) ↔ ∃ l ∈ lines, y = l.1 ∨ y = l.2 := by
    intro y
    constructor
    · rintro ⟨v, hv, rfl⟩
      obtain ⟨e, he, hv⟩ := List.mem_flatMap.1 hv
      obtain ⟨j, hj⟩ := List.mem_iff_getElem?.1 he
      obtain ⟨l, hl, rfl⟩ := lineEdges_getElem? hj
      refine ⟨l, List.mem_of_getElem? hl, ?_⟩
      rcases List.mem_cons.1 hv with rfl | hv
      · exact Or.inl rfl
      · rw [List.mem_singleton.1 hv]
        exact Or.inr rfl
    · rintro ⟨l, hl, h⟩
      obtain ⟨j, hj⟩ := List.mem_iff_getElem?.1 hl
      have hm : lineEdge points.length p j l ∈ ls := by
        refine List.mem_map.2 ⟨(l, j), List.mem_iff_getElem?.2 ⟨j, ?_⟩, rfl⟩
        rw [List.getElem?_zipIdx, hj]
        simp
      rcases h with rfl | rfl
      · exact ⟨_, List.mem_flatMap.2 ⟨_, hm, .head _⟩, rfl⟩
      · exact ⟨_, List.mem_flatMap.2 ⟨_, hm, .tail _ (.head _)⟩, rfl⟩
  constructor
  · rintro ⟨v, hv, rfl⟩
    rcases List.mem_append.1 (mem.1 hv).1 with h | h
    · rcases List.mem_append.1 h with h | h
      · exact Or.inl (hc.1 ⟨v, h, rfl⟩)
      · exact Or.inr (Or.inl (he.1 ⟨v, h, rfl⟩))
    · exact Or.inr (Or.inr ((F.points _).1 ⟨v, h, rfl⟩))
  · intro h
    by_cases hcut : ∃ i, CutAt items i z
    · obtain ⟨v, hv, hz⟩ := (F.points z).2 hcut
      exact ⟨v, mem.2 ⟨List.mem_append_right _ hv, Or.inr (Or.inl hv)⟩, hz⟩
    · rcases h with h | h | h
      · obtain ⟨v, hv, rfl⟩ := hc.2 h
        exact ⟨v, mem.2 ⟨List.mem_append_left _ (List.mem_append_left _ hv), Or.inr (Or.inr hcut)⟩, rfl⟩
      · obtain ⟨v, hv, rfl⟩ := he.2 h
        exact ⟨v, mem.2 ⟨List.mem_append_left _ (List.mem_append_right _ hv), Or.inr (Or.inr hcut)⟩, rfl⟩
      · exact absurd h hcut

/-- The tags in the graph differ as long as there are fewer lines than sides and parts of sides. -/
theorem tags_nodup {n : Nat} {kept : List Vtx} {f g : Int → Int} (hn : sides.length = n) (h1 : 0 < n)
    (hs : ∀ (k : Nat) e, sides[k]? = some e → e.tag = k)
    (hc : ∀ (k : Nat) e, cut[k]? = some e → e.tag = n + 1 + k)
    (hp : ∀ (k : Nat) e, (allParts sides ++ allParts cut)[k]? = some e → e.tag = n + 1 + cut.length + k)
    (hN : Numbering n kept sides cut f g) :
    ((((n : Int) :: (allPieces sides).map Edg.tag) ++ cut.flatMap fun e => e.tag :: e.parts.map Edg.tag).map g).Nodup ↔
      cut.length < n + (allParts sides).length := by
  set L := ((n : Int) :: (allPieces sides).map Edg.tag) ++ cut.flatMap fun e => e.tag :: e.parts.map Edg.tag with hL
  have side_lt : ∀ e ∈ sides, e.tag < n := fun e he => by
    obtain ⟨k, hk⟩ := List.mem_iff_getElem?.1 he
    have := (List.getElem?_eq_some_iff.1 hk).1
    rw [hs k e hk]
    omega
  constructor
  · intro h
    by_contra hlt
    have hj : n + (allParts sides).length - 1 < cut.length := by omega
    have g1 := hN.lines _ _ (List.getElem?_eq_getElem hj)
    have t1 := hc _ _ (List.getElem?_eq_getElem hj)
    generalize cut[n + (allParts sides).length - 1] = e at g1 t1
    have hm : cut[n + (allParts sides).length - 1].tag ∈ cut.flatMap fun e => e.tag :: e.parts.map Edg.tag :=
      List.mem_flatMap.2 ⟨_, List.getElem_mem hj, by simp⟩
    rw [hL, List.map_append, List.map_cons, List.cons_append, List.nodup_cons] at h
    refine h.1 (List.mem_append_right _ (List.mem_map.2 ⟨_, hm, ?_⟩))
    rw [hN.lines _ _ (List.getElem?_eq_getElem hj), hN.wire]
    omega
  · intro hlt
    have hparts : ∀ e ∈ allParts sides ++ allParts cut, ∃ k : Nat, e.tag = n + 1 + cut.length + k ∧ g e.tag =
        n + (allParts sides).length + 1 + (allPieces sides).length + cut.length + (allParts cut).length + k := by
      intro e he
      obtain ⟨k, hk⟩ := List.mem_iff_getElem?.1 he
      exact ⟨k, hp k e hk, hN.parts k e hk⟩
    have cls : ∀ t ∈ L, (t = n ∧ g t = n + (allParts sides).length) ∨
        (∃ (k : Nat) (e : Edg), (allPieces sides)[k]? = some e ∧ k < (allPieces sides).length ∧ t = e.tag ∧
          g t = n + (allParts sides).length + 1 + k) ∨
        (∃ j : Nat, j < cut.length ∧ t = n + 1 + j ∧ g t = 1 + j) ∨
        (∃ k : Nat, t = n + 1 + cut.length + k ∧ g t =
          n + (allParts sides).length + 1 + (allPieces sides).length + cut.length + (allParts cut).length + k) := by
      intro t ht
      simp only [hL, List.cons_append, List.mem_cons, List.mem_append, List.mem_map, List.mem_flatMap] at ht
      rcases ht with rfl | ⟨e, he, rfl⟩ | ⟨e, he, rfl | ⟨q, hq, rfl⟩⟩
      · exact Or.inl ⟨rfl, hN.wire⟩
      · obtain ⟨k, hk⟩ := List.mem_iff_getElem?.1 he
        rcases pieces_mem he with ⟨e', he', -, rfl⟩ | he'
        · have hlt := side_lt e' he'
          exact Or.inr (Or.inl ⟨k, _, hk, (List.getElem?_eq_some_iff.1 hk).1, rfl, hN.uncut k _ hk hlt⟩)
        · obtain ⟨k, h1, h2⟩ := hparts e (List.mem_append_left _ he')
          exact Or.inr (Or.inr (Or.inr ⟨k, h1, h2⟩))
      · obtain ⟨j, hj⟩ := List.mem_iff_getElem?.1 he
        exact Or.inr (Or.inr (Or.inl ⟨j, (List.getElem?_eq_some_iff.1 hj).1, hc j e hj, hN.lines j e hj⟩))
      · obtain ⟨k, h1, h2⟩ := hparts q (List.mem_append_right _ (List.mem_flatMap.2 ⟨e, he, hq⟩))
        exact Or.inr (Or.inr (Or.inr ⟨k, h1, h2⟩))
    refine List.Nodup.map_on (fun a ha b hb hab => ?_) ?_
    · rcases cls a ha with ⟨a1, a2⟩ | ⟨k, e, a0, a1, a2, a3⟩ | ⟨k, a0, a1, a2⟩ | ⟨k, a1, a2⟩ <;>
        rcases cls b hb with ⟨b1, b2⟩ | ⟨k', e', b0, b1, b2, b3⟩ | ⟨k', b0, b1, b2⟩ | ⟨k', b1, b2⟩ <;>
        first
          | omega
          | skip
      have : k = k' := by omega
      subst this
      rw [a0] at b0
      rw [a2, b2, Option.some.inj b0]
    · have pge : ∀ e ∈ allParts sides ++ allParts cut, n + 1 + cut.length ≤ e.tag := fun e he => by
        obtain ⟨k, hk⟩ := List.mem_iff_getElem?.1 he
        rw [hp k e hk]
        omega
      have nq := nodup_consec (c := n + 1 + cut.length) hp
      rw [List.map_append, List.nodup_append] at nq
      have ncut : ((cut.flatMap fun e => e.tag :: e.parts.map Edg.tag)).Nodup := by
        have hperm : (cut.flatMap fun e => e.tag :: e.parts.map Edg.tag).Perm
            ((cut.map fun e => e.tag) ++ (allParts cut).map Edg.tag) := by
          unfold allParts
          clear * -
          induction cut with
          | nil => exact List.Perm.refl _
          | cons e es ih =>
            simp only [List.flatMap_cons, List.map_cons, List.cons_append, List.map_append]
            refine List.Perm.cons _ ?_
            refine (List.Perm.append_left _ ih).trans ?_
            rw [← List.append_assoc, ← List.append_assoc]
            exact List.Perm.append_right _ List.perm_append_comm
        rw [hperm.nodup_iff, List.nodup_append]
        refine ⟨nodup_consec (c := n + 1) hc, nq.2.1, ?_⟩
        intro a ha b hb hab
        obtain ⟨e, he, rfl⟩ := List.mem_map.1 ha
        obtain ⟨q, hq, rfl⟩ := List.mem_map.1 hb
        obtain ⟨k, hk⟩ := List.mem_iff_getElem?.1 he
        have h2 := hc k e hk
        have h3 := (List.getElem?_eq_some_iff.1 hk).1
        have h4 := pge q (List.mem_append_right _ hq)
        omega
      have npieces : ((allPieces sides).map Edg.tag).Nodup := by
        refine pieces_nodup ?_
        rw [List.nodup_append]
        refine ⟨nodup_consec (c := 0) fun k e h => by rw [hs k e h]; simp, nq.1, ?_⟩
        intro a ha b hb hab
        obtain ⟨e, he, rfl⟩ := List.mem_map.1 ha
        obtain ⟨q, hq, rfl⟩ := List.mem_map.1 hb
        have h1 := side_lt e he
        have h2 := pge q (List.mem_append_left _ hq)
        omega
      have tag_cut : ∀ t : Int, t ∈ cut.flatMap (fun e => e.tag :: e.parts.map Edg.tag) → n < t ∧
          (t < n + 1 + cut.length ∨ t ∈ (allParts cut).map Edg.tag) := by
        intro t ht
        simp only [List.mem_flatMap, List.mem_cons, List.mem_map] at ht
        obtain ⟨e, he, rfl | ⟨q, hq, rfl⟩⟩ := ht
        · obtain ⟨k, hk⟩ := List.mem_iff_getElem?.1 he
          have h2 := hc k e hk
          have h3 := (List.getElem?_eq_some_iff.1 hk).1
          omega
        · have hq' : q ∈ allParts cut := List.mem_flatMap.2 ⟨e, he, hq⟩
          have h4 := pge q (List.mem_append_right _ hq')
          exact ⟨by omega, Or.inr (List.mem_map.2 ⟨q, hq', rfl⟩)⟩
      have tag_piece : ∀ q ∈ allPieces sides, q.tag < n ∨ n + 1 + cut.length ≤ q.tag ∧ q ∈ allParts sides := by
        intro q hq
        rcases pieces_mem hq with ⟨e', he', -, rfl⟩ | he'
        · exact Or.inl (side_lt e' he')
        · exact Or.inr ⟨pge q (List.mem_append_left _ he'), he'⟩
      rw [hL, List.nodup_append, List.nodup_cons]
      refine ⟨⟨?_, npieces⟩, ncut, ?_⟩
      · intro h
        obtain ⟨q, hq, h⟩ := List.mem_map.1 h
        rcases tag_piece q hq with h' | h' <;> omega
      · intro a ha b hb hab
        subst hab
        obtain ⟨h1, h2⟩ := tag_cut a hb
        rcases List.mem_cons.1 ha with rfl | ha
        · omega
        · obtain ⟨q, hq, rfl⟩ := List.mem_map.1 ha
          rcases tag_piece q hq with h' | ⟨h', h''⟩
          · omega
          · rcases h2 with h2 | h2
            · omega
            · exact nq.2.2 _ (List.mem_map.2 ⟨q, h'', rfl⟩) _ h2 rfl

end
end Verif.LinesBox
