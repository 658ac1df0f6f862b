/-
C101: a box with lines in it is a face whose sides and lines are cut where they meet.
-/
import Verif.Lemmas.LinesBoxWalk
import Verif.Lemmas.LinesBoxExample
import Verif.Props.Shape

namespace Verif.LinesBox
open MeshBuild MeshGraph Trace MeshMetrics Geometry VertexOps Topology
open MdBox (vertexShape close corners IsBox Walk final flow at_)
open scoped Classical

section
variable {argsort : List ℝ → List Nat} {argsortTag : List Int → List Nat} {points : List (Pt ℝ)} {lines : List Line}
  {physicalTags : Option (Dict String Int)} {rock : List Edg} {p : Int}

/-- C101, partial: the sides and the lines are cut into the fragments of C100, the vertices that are no longer used
are removed and everything is numbered anew. -/
theorem C101_domain_partial (h : IsScene argsort argsortTag points lines physicalTags rock p) :
    ∃ out sides cut f g r, intersectEdges argsort (drawn rock (lineEdges points.length p lines)) 2
        (points.length + 1 + lines.length) (points.length + 2 * lines.length) (p + lines.length) = .ok out ∧
      IsFragments (fun i => {z | CutAt (drawn rock (lineEdges points.length p lines)) i z})
        (drawn rock (lineEdges points.length p lines)) (points.length + 1 + lines.length)
        (points.length + 2 * lines.length) (p + lines.length) out ∧
      buildBoxWithLines argsort argsortTag points lines physicalTags = .ok r ∧
      IsBuilt points (physicalTags.getD defaultTags2) rock (lineEdges points.length p lines) out sides cut f g r :=
  build_spec h.argsort h.argsortTag h.enough rfl h.max h.box h.drawing

/-- C101, partial: there are vertices at the corners, at the ends of the lines and where something is cut, numbered
from 0 on.  No two are at the same point unless something is cut at corner 0. -/
theorem C101_vertices_partial (h : IsScene argsort argsortTag points lines physicalTags rock p) :
    ∃ (r : Built) (vs : List Vtx), buildBoxWithLines argsort argsortTag points lines physicalTags = .ok r ∧
      r.domain.shapes[0]? = some (vs.map vertexShape) ∧ (∀ (k : Nat) v, vs[k]? = some v → v.tag = k) ∧
      (∀ z, (∃ v ∈ vs, v.point = z) ↔ z ∈ points ∨ (∃ l ∈ lines, z = l.1 ∨ z = l.2) ∨
        ∃ i, CutAt (drawn rock (lineEdges points.length p lines)) i z) ∧
      ∀ x, points[0]? = some x → ((vs.Pairwise fun v w => v.point ≠ w.point) ↔
        ¬ ∃ i, CutAt (drawn rock (lineEdges points.length p lines)) i x) := by
  obtain ⟨out, sides, cut, f, g, r, -, F, hr, B⟩ := C101_domain_partial h
  obtain ⟨v, hv, hd⟩ := B.domain
  refine ⟨r, (keptVertices points rock (lineEdges points.length p lines) out.vertices).map (relabelVtx f), hr, ?_,
    fun k w hw => ?_, fun z => ?_, fun x hx => ?_⟩
  · rw [hd, List.map_map]
    rfl
  · rw [List.getElem?_map, Option.map_eq_some_iff] at hw
    obtain ⟨w', hw', rfl⟩ := hw
    exact B.numbering.vertices k w' hw'
  · rw [← kept_points h.box F]
    constructor
    · rintro ⟨w, hw, rfl⟩
      obtain ⟨w', hw', rfl⟩ := List.mem_map.1 hw
      exact ⟨w', hw', rfl⟩
    · rintro ⟨w, hw, rfl⟩
      exact ⟨_, List.mem_map.2 ⟨w, hw, rfl⟩, rfl⟩
  · rw [← kept_once h.box h.drawing F hx, List.pairwise_map]
    rfl

/-- C101, partial: the wire, the sides, the lines and the parts have different tags if there are fewer lines than
sides and parts of sides, and only then.  There are no parts of sides if no side is cut. -/
theorem C101_tags_partial (h : IsScene argsort argsortTag points lines physicalTags rock p) :
    ∃ (r : Built) (face : Shape (Pt ℝ)), buildBoxWithLines argsort argsortTag points lines physicalTags = .ok r ∧
      r.domain.shapes[2]? = some [face] ∧
      ((lineTags face).Nodup ↔ lines.length < points.length + (sideParts face).length) ∧
      ((∀ i < points.length, ∀ z, ¬ CutAt (drawn rock (lineEdges points.length p lines)) i z) → sideParts face = []) := by
  obtain ⟨out, sides, cut, f, g, r, -, F, hr, B⟩ := C101_domain_partial h
  obtain ⟨v, hv, hd⟩ := B.domain
  have hn := h.box.length
  have hm : cut.length = lines.length := by rw [B.length.2, lineEdges_length]
  refine ⟨r, faceOf f g _ v sides cut, hr, by rw [hd]; rfl, ?_⟩
  have hq : (sideParts (faceOf f g ((physicalTags.getD defaultTags2).get? "area") v sides cut)).length =
      (allParts sides).length := by
    simp only [sideParts, faceOf, wireOf, Shape.boundary, Shape.immersed, List.flatMap_singleton, List.flatMap_map,
      edgeShape, relabelEdge, allParts, List.length_flatMap, List.length_map]
  refine ⟨?_, fun hno => ?_⟩
  rotate_left
  · rw [← List.length_eq_zero_iff, hq, List.length_eq_zero_iff]
    unfold allParts
    rw [List.flatMap_eq_nil_iff]
    intro e he
    obtain ⟨k, hk⟩ := List.mem_iff_getElem?.1 he
    have hlt := (List.getElem?_eq_some_iff.1 hk).1
    obtain ⟨s, t, -, -, hcut⟩ := side_cut F B.items (by rw [B.length.1, hn]) hk
    obtain ⟨inner, -, k2, -, k4⟩ := hcut.chain
    cases inner with
    | nil => simpa using k4
    | cons w ws => exact absurd ((k2 w.point).1 ⟨w, by simp, rfl⟩).1 (hno k (by rw [← B.length.1]; exact hlt) _)
  rw [lineTags_faceOf, hq, ← hm, B.length.1]
  exact tags_nodup B.length.1 (by have := h.enough; omega)
    (fun k e hk => side_tag h.box F B.items (by rw [B.length.1, hn]) hk)
    (fun k e hk => cut_tag h.box F B.items (by rw [B.length.1, hn]) B.length.2 hk)
    (fun k e hk => by rw [parts_tag F B.items hk, hm]) B.numbering

/-- C101, partial: the pieces in the face make up the sides and the lines, any two have at most a vertex in common, and
their ends are vertices of the domain. -/
theorem C101_conforming_partial (h : IsScene argsort argsortTag points lines physicalTags rock p) :
    ∃ (r : Built) (face : Shape (Pt ℝ)) (vertices : List (Shape (Pt ℝ))) (ps : List Edg),
      buildBoxWithLines argsort argsortTag points lines physicalTags = .ok r ∧
      r.domain.shapes[0]? = some vertices ∧ r.domain.shapes[2]? = some [face] ∧ pieceShapes face = ps.map partShape ∧
      ps.Pairwise MeetAtEnds ∧ (∀ q ∈ ps, ∀ v ∈ [q.first, q.second], vertexShape v ∈ vertices) ∧
      ∀ z, (∃ q ∈ ps, z ∈ segment ℝ q.first.point q.second.point) ↔
        (∃ e ∈ rock, z ∈ segment ℝ e.first.point e.second.point) ∨ ∃ l ∈ lines, z ∈ segment ℝ l.1 l.2 := by
  obtain ⟨out, sides, cut, f, g, r, hout, F, hr, B⟩ := C101_domain_partial h
  obtain ⟨v, hv, hd⟩ := B.domain
  obtain ⟨out', hout', c1, c2, c3⟩ := C100_conforming_partial h.argsort h.drawing (points.length + 1 + lines.length)
    (points.length + 2 * lines.length) (p + lines.length)
  rw [hout, Except.ok.injEq] at hout'
  subst hout'
  have hn := h.box.length
  refine ⟨r, faceOf f g _ v sides cut, _, (allPieces sides ++ allPieces cut).map (relabelEdg f g), hr,
    by rw [hd]; rfl, by rw [hd]; rfl, pieceShapes_faceOf _ _ _ _ _ _, ?_, ?_, ?_⟩
  · rw [List.pairwise_map]
    refine List.Pairwise.imp meet_relabel ?_
    have hall : ∀ (es : List LEdge) (at_ : Nat → Nat), (∀ i j, i ≠ j → at_ i ≠ at_ j) →
        (∀ (k : Nat) e, es[k]? = some e → out.items[at_ k]? = some (some e)) → (allPieces es).Pairwise MeetAtEnds := by
      intro es at_ hinj hat
      unfold allPieces
      rw [List.flatMap, List.pairwise_flatten]
      constructor
      · intro l hl
        obtain ⟨e, he, rfl⟩ := List.mem_map.1 hl
        obtain ⟨k, hk⟩ := List.mem_iff_getElem?.1 he
        exact c2 _ _ (hat k e hk)
      · rw [List.pairwise_map, List.pairwise_iff_getElem]
        intro i j hi hj hij q hq q' hq'
        exact c1 (at_ i) (at_ j) _ _ (hinj i j (by omega)) (hat i _ (List.getElem?_eq_getElem hi))
          (hat j _ (List.getElem?_eq_getElem hj)) q hq q' hq'
    rw [List.pairwise_append]
    refine ⟨hall sides id (fun _ _ h => h) fun k e hk => items_side B.items hk,
      hall cut (fun k => sides.length + 1 + k) (fun i j h => by omega) fun k e hk => items_line B.items hk, ?_⟩
    intro q hq q' hq'
    obtain ⟨e, he, hq⟩ := List.mem_flatMap.1 hq
    obtain ⟨e', he', hq'⟩ := List.mem_flatMap.1 hq'
    obtain ⟨k, hk⟩ := List.mem_iff_getElem?.1 he
    obtain ⟨k', hk'⟩ := List.mem_iff_getElem?.1 he'
    have hlt := (List.getElem?_eq_some_iff.1 hk).1
    exact c1 k (sides.length + 1 + k') e e' (by omega) (items_side B.items hk) (items_line B.items hk') q hq q' hq'
  · intro q hq w hw
    obtain ⟨q', hq', rfl⟩ := List.mem_map.1 hq
    have key : ∀ w' ∈ [q'.first, q'.second], vertexShape (relabelVtx f w') ∈
        (keptVertices points rock (lineEdges points.length p lines) out.vertices).map
          fun v => vertexShape (relabelVtx f v) := fun w' hw' =>
      List.mem_map.2 ⟨w', pieces_kept h.box h.drawing F B.items hq' hw', rfl⟩
    rcases List.mem_cons.1 hw with rfl | hw
    · exact key _ (.head _)
    · rw [List.mem_singleton.1 hw]
      exact key _ (.tail _ (.head _))
  · intro z
    have hz : (∃ q ∈ (allPieces sides ++ allPieces cut).map (relabelEdg f g), z ∈ segment ℝ q.first.point q.second.point) ↔
        ∃ q ∈ allPieces sides ++ allPieces cut, z ∈ segment ℝ q.first.point q.second.point := by
      constructor
      · rintro ⟨q, hq, hz⟩
        obtain ⟨q', hq', rfl⟩ := List.mem_map.1 hq
        exact ⟨q', hq', hz⟩
      · rintro ⟨q, hq, hz⟩
        exact ⟨_, List.mem_map.2 ⟨q, hq, rfl⟩, hz⟩
    rw [hz]
    have hl' : rock.length = sides.length := by rw [B.length.1, hn]
    -- an item before and after
    have item : ∀ {k : Nat} {e e' : LEdge}, (drawn rock (lineEdges points.length p lines))[k]? = some (some e) →
        out.items[k]? = some (some e') → (z ∈ e.span ↔ ∃ q ∈ e'.pieces, z ∈ segment ℝ q.first.point q.second.point) :=
      fun he he' => c3 _ _ _ he he' z
    constructor
    · rintro ⟨q, hq, hz⟩
      rcases List.mem_append.1 hq with hq | hq
      · obtain ⟨e', he', hq⟩ := List.mem_flatMap.1 hq
        obtain ⟨k, hk⟩ := List.mem_iff_getElem?.1 he'
        have hlt := (List.getElem?_eq_some_iff.1 hk).1
        have hlt' : k < rock.length := by rw [hn, ← B.length.1]; exact hlt
        exact Or.inl ⟨_, List.getElem_mem hlt', (item (drawn_side hlt') (items_side B.items hk)).2 ⟨q, hq, hz⟩⟩
      · obtain ⟨e', he', hq⟩ := List.mem_flatMap.1 hq
        obtain ⟨k, hk⟩ := List.mem_iff_getElem?.1 he'
        have hlt := (List.getElem?_eq_some_iff.1 hk).1
        have hlt' : k < (lineEdges points.length p lines).length := by rw [← B.length.2]; exact hlt
        obtain ⟨l, hl, hle⟩ := lineEdges_getElem? (List.getElem?_eq_getElem hlt')
        have hdr := drawn_line (rock := rock) (ls := lineEdges points.length p lines) k
        rw [List.getElem?_eq_getElem hlt', Option.map_some, hle, hl'] at hdr
        exact Or.inr ⟨l, List.mem_of_getElem? hl, (item hdr (items_line B.items hk)).2 ⟨q, hq, hz⟩⟩
    · rintro (⟨e, he, hz⟩ | ⟨l, hl, hz⟩)
      · obtain ⟨k, hk⟩ := List.mem_iff_getElem?.1 he
        have hlt := (List.getElem?_eq_some_iff.1 hk).1
        have hlt' : k < sides.length := by rw [B.length.1, ← hn]; exact hlt
        have hdr := drawn_side (ls := lineEdges points.length p lines) hlt
        obtain ⟨q, hq, hz⟩ := (item hdr (items_side B.items (List.getElem?_eq_getElem hlt'))).1 (by
          rw [List.getElem?_eq_getElem hlt, Option.some.injEq] at hk
          rw [hk]
          exact hz)
        exact ⟨q, List.mem_append_left _ (List.mem_flatMap.2 ⟨_, List.getElem_mem hlt', hq⟩), hz⟩
      · obtain ⟨k, hk⟩ := List.mem_iff_getElem?.1 hl
        have hlt := (List.getElem?_eq_some_iff.1 hk).1
        have hlt' : k < cut.length := by rw [B.length.2, lineEdges_length]; exact hlt
        have hle : (lineEdges points.length p lines)[k]? = some (lineEdge points.length p k l) := by
          unfold lineEdges
          rw [List.getElem?_map, List.getElem?_zipIdx, hk]
          simp
        have hdr := drawn_line (rock := rock) (ls := lineEdges points.length p lines) k
        rw [hle, Option.map_some, hl'] at hdr
        obtain ⟨q, hq, hz⟩ := (item hdr (items_line B.items (List.getElem?_eq_getElem hlt'))).1 hz
        exact ⟨q, List.mem_append_right _ (List.mem_flatMap.2 ⟨_, List.getElem_mem hlt', hq⟩), hz⟩

/-- C101, partial: if the last side is not cut, the pieces of the sides form a closed loop from corner 0, and the wire
is oriented along it. -/
theorem C101_wire_partial (h : IsScene argsort argsortTag points lines physicalTags rock p)
    (hlast : ∀ z, ¬ CutAt (drawn rock (lineEdges points.length p lines)) (points.length - 1) z) :
    ∃ (r : Built) (face wire v : Shape (Pt ℝ)) (tag : Int) (edges vs : List (Shape (Pt ℝ))) (signs : List Int),
      buildBoxWithLines argsort argsortTag points lines physicalTags = .ok r ∧
      r.domain.shapes[2]? = some [face] ∧ face.view.boundary = [wire] ∧
      wire = .composed .wire tag none [v, v] edges ∧ r.orientations = [signs] ∧
      Topology.IsChain edges (v :: vs ++ [v]) ∧ FollowsChain edges (v :: vs ++ [v]) signs ∧
      ∃ x, points[0]? = some x ∧ v = .vertex 0 none x := by
  obtain ⟨out, sides, cut, f, g, r, -, F, hr, B⟩ := C101_domain_partial h
  obtain ⟨c, hc, hd⟩ := B.domain
  obtain ⟨signs, ho, hsigns⟩ := B.oriented
  have hn := h.box.length
  have hl : sides.length = rock.length := by rw [B.length.1, hn]
  have hen := h.enough
  -- the last side
  have hlt : points.length - 1 < sides.length := by rw [B.length.1]; omega
  obtain ⟨s, t, hs, hds, hcut⟩ := side_cut F B.items hl (List.getElem?_eq_getElem hlt)
  obtain ⟨-, -, cl, c0, hcl, hc0, hends⟩ := h.box.side _ s hs
  rw [if_pos (by omega)] at hc0 hends
  rw [hc, Option.some.injEq] at hc0
  subst hc0
  have fresh := (h.drawing.fresh _ (List.mem_of_getElem? hds)).2
  have uncut : ∀ u ∈ [s.first, s.second], ∀ w ∈ out.vertices, w.point ≠ u.point := by
    intro u hu w hw hp
    obtain ⟨i, hi⟩ := (F.points u.point).1 ⟨w, hw, hp⟩
    exact hlast _ (cut_all hi hds hu rfl fresh)
  have fc : final out.vertices c = c := MdBox.final_old (hends.1 ▸ uncut _ (.head _))
  have fcl : final out.vertices cl = cl := MdBox.final_old (hends.2 ▸ uncut _ (.tail _ (.head _)))
  obtain ⟨zs, cl', hcl', hwalk, hhead, htail⟩ := sides_walk h.box h.drawing F B.items hl hc (points.length - 1) (by omega)
  rw [hcl, Option.some.injEq] at hcl'
  subst hcl'
  rw [fc] at hhead
  rw [fcl] at htail
  obtain ⟨inner, k1, k2, -, k4, k5⟩ := cut_chain hcut
  have hinner : inner = [] := by
    cases hin : inner with
    | nil => rfl
    | cons w ws => exact absurd ((k2 w.point).1 ⟨w, by simp [hin], rfl⟩).1 (hlast _)
  subst hinner
  have e1 : (sides[points.length - 1]).first = c := by
    rw [hcut.first.2.2 (hlast _)]
    exact hends.1
  have e2 : (sides[points.length - 1]).second = cl := by
    rw [hcut.second.2.2 (hlast _)]
    exact hends.2
  have tc : c.tag = 0 := by simpa using corners_tag hc
  have tcl : cl.tag = ((points.length - 1 : Nat) : Int) := corners_tag hcl
  have hw2 : Walk ((sides[points.length - 1]).pieces.map partShape) ([cl, c].map vertexShape) := by
    obtain ⟨q, hq⟩ : ∃ q, (sides[points.length - 1]).pieces = [q] := by
      have : (sides[points.length - 1]).pieces.length = 1 := by simpa using k4
      exact List.length_eq_one_iff.1 this
    obtain ⟨a, b, ha, hb, -, hab⟩ := k5 0 q (by rw [hq]; rfl)
    simp only [List.cons_append, List.nil_append, List.getElem?_cons_zero, zero_add, List.getElem?_cons_succ,
      Option.some.injEq] at ha hb
    subst ha hb
    rw [hq]
    refine MdBox.walk_of _ _ rfl fun i e he => ?_
    match i, he with
    | 0, he =>
      simp only [List.map_cons, List.getElem?_cons_zero, Option.some.injEq] at he
      subst he
      refine ⟨cl, c, rfl, rfl, by rw [tc, tcl]; omega, Or.inr ?_⟩
      rcases hab with ⟨h1, h2⟩ | ⟨h1, -⟩
      · simp only [partShape, Shape.boundary, h1, h2, e1, e2]
      · exact absurd rfl h1
    | i + 1, he => simp at he
  obtain ⟨front, hfront⟩ := List.getLast?_eq_some_iff.1 htail
  have hpieces := pieces_last (sides := sides) hlt (by rw [B.length.1]; omega)
  have hall : Walk ((allPieces sides).map partShape) ((front ++ [cl, c]).map vertexShape) := by
    rw [hpieces, List.map_append, List.map_append]
    rw [hfront, List.map_append] at hwalk
    exact hwalk.append hw2
  -- the loop begins with corner 0
  obtain ⟨rest, hrest⟩ : ∃ rest, front ++ [cl, c] = c :: rest ++ [c] := by
    rw [hfront] at hhead
    cases front with
    | nil =>
      simp only [List.nil_append, List.head?_cons, Option.some.injEq] at hhead
      rw [hhead, tc] at tcl
      omega
    | cons a l =>
      simp only [List.cons_append, List.head?_cons, Option.some.injEq] at hhead
      exact ⟨l ++ [cl], by rw [hhead]; simp⟩
  rw [hrest] at hall
  have hne : (allPieces sides).map partShape ≠ [] := by
    intro h0
    have := hall.chain.1.length
    rw [h0] at this
    simp at this
  obtain ⟨signs', hs1, hs2, -⟩ := C40_wire_partial MdBox.close_self hne hall.chain.1 hall.chain.2 (by
    intro a b ha hb
    simp only [List.cons_append, List.map_cons, List.getElem?_cons_zero, Option.some.injEq] at ha
    subst ha
    obtain ⟨b', hb', rfl⟩ : ∃ b', b' ∈ c :: rest ++ [c] ∧ vertexShape b' = b := by
      have := List.mem_of_getElem? hb
      obtain ⟨b', h1, h2⟩ := List.mem_map.1 this
      exact ⟨b', h1, h2⟩
    have hd := hall.chain.2 0 (vertexShape c) (vertexShape b') rfl hb
    have hpos : 0 ≤ b'.tag := by
      obtain ⟨q, hq, hb'q⟩ : ∃ q ∈ allPieces sides, b' ∈ [q.first, q.second] := by
        obtain ⟨q, hq⟩ : ∃ q, (allPieces sides)[0]? = some q := by
          cases hap : allPieces sides with
          | nil => rw [hap] at hne; exact absurd rfl hne
          | cons q qs => exact ⟨q, rfl⟩
        refine ⟨q, List.mem_of_getElem? hq, ?_⟩
        rcases hall.chain.1.joins 0 (partShape q) (vertexShape c) (vertexShape b') (by simp [hq]) rfl hb with h' | h'
        · simp only [partShape, Shape.boundary, List.cons.injEq, and_true] at h'
          rw [← vertexShape_inj h'.2]
          exact .tail _ (.head _)
        · simp only [partShape, Shape.boundary, List.cons.injEq, and_true] at h'
          rw [← vertexShape_inj h'.1]
          exact .head _
      have hk := pieces_kept h.box h.drawing F B.items (List.mem_append_left _ hq) hb'q
      exact kept_nonneg F hk
    simp only [vertexShape, Shape.tag, tc] at hd ⊢
    omega)
  rw [hsigns, Except.ok.injEq] at hs1
  subst hs1
  have hview := faceOf_view f g ((physicalTags.getD defaultTags2).get? "area") c sides cut
  refine ⟨r, faceOf f g _ c sides cut, _, _, _, _, (rest.map (relabelVtx f)).map vertexShape, signs, hr,
    by rw [hd]; rfl, by rw [hview]; rfl, rfl, ho, ?_, ?_, ?_⟩
  · have := chain_relabel (f := f) (g := g) hall.chain.1
    simpa using this
  · have := follows_relabel (f := f) (g := g) hs2
    simpa using this
  · rw [MdBox.corners_getElem?, Option.map_eq_some_iff] at hc
    obtain ⟨x, hx, rfl⟩ := hc
    refine ⟨x, hx, ?_⟩
    have h0 : f 0 = 0 := by
      have hk : (keptVertices points rock (lineEdges points.length p lines) out.vertices)[0]? = some ⟨0, none, x⟩ := by
        have hcs : ∃ l, corners points = ⟨0, none, x⟩ :: l := by
          have h0 : (corners points)[0]? = some ⟨0, none, x⟩ := by rw [MdBox.corners_getElem?, hx]; rfl
          cases hcp : corners points with
          | nil => rw [hcp] at h0; simp at h0
          | cons a l =>
            rw [hcp] at h0
            simp only [List.getElem?_cons_zero, Option.some.injEq] at h0
            exact ⟨l, by rw [h0]⟩
        obtain ⟨l, hl⟩ := hcs
        unfold keptVertices allVertices
        rw [hl, List.cons_append, List.cons_append, List.filter_cons_of_pos (by simp)]
        rfl
      exact B.numbering.vertices 0 _ hk
    simp only [vertexShape, relabelVtx]
    rw [show f ((0 : Nat) : Int) = 0 from h0]

/-- C101 does not hold if the last side is cut.  It is kept from the first corner to the last, so that its parts are
sorted against the direction of the wire.  If something is cut inside it, and nothing at its ends, the orientation
arrives twice at the last corner and never leaves it. -/
theorem C101_last_side_violated (h : IsScene argsort argsortTag points lines physicalTags rock p) {e : Edg}
    (he : rock[points.length - 1]? = some e) {z : Pt ℝ}
    (hz : CutAt (drawn rock (lineEdges points.length p lines)) (points.length - 1) z)
    (hends : ∀ i, ¬ CutAt (drawn rock (lineEdges points.length p lines)) i e.first.point ∧
      ¬ CutAt (drawn rock (lineEdges points.length p lines)) i e.second.point) :
    ∃ (r : Built) (face wire v : Shape (Pt ℝ)) (tag t : Int) (edges : List (Shape (Pt ℝ))) (signs : List Int),
      buildBoxWithLines argsort argsortTag points lines physicalTags = .ok r ∧
      r.domain.shapes[2]? = some [face] ∧ face.view.boundary = [wire] ∧
      wire = .composed .wire tag none [v, v] edges ∧ r.orientations = [signs] ∧ flow t edges signs = 2 ∧
      ∀ w ws, ¬ (Topology.IsChain edges (w :: ws ++ [w]) ∧ FollowsChain edges (w :: ws ++ [w]) signs) := by
  obtain ⟨out, sides, cut, f, g, r, -, F, hr, B⟩ := C101_domain_partial h
  obtain ⟨c, hc, hd⟩ := B.domain
  obtain ⟨signs, ho, hsigns⟩ := B.oriented
  have hn := h.box.length
  have hl : sides.length = rock.length := by rw [B.length.1, hn]
  have hen := h.enough
  have hlt : points.length - 1 < sides.length := by rw [B.length.1]; omega
  obtain ⟨s, t, hs, hds, hcut⟩ := side_cut F B.items hl (List.getElem?_eq_getElem hlt)
  rw [he, Option.some.injEq] at hs
  subst hs
  obtain ⟨-, -, cl, c0, hcl, hc0, hce⟩ := h.box.side _ e he
  rw [if_pos (by omega)] at hc0 hce
  rw [hc, Option.some.injEq] at hc0
  subst hc0
  have fresh := (h.drawing.fresh _ (List.mem_of_getElem? hds)).2
  have fc : final out.vertices c = c := MdBox.final_old fun w hw hp => by
    obtain ⟨i, hi⟩ := (F.points c.point).1 ⟨w, hw, hp⟩
    rw [← hce.1] at hi
    exact (hends i).1 hi
  have fcl : final out.vertices cl = cl := MdBox.final_old fun w hw hp => by
    obtain ⟨i, hi⟩ := (F.points cl.point).1 ⟨w, hw, hp⟩
    rw [← hce.2] at hi
    exact (hends i).2 hi
  obtain ⟨zs, cl', hcl', hwalk, hhead, htail⟩ := sides_walk h.box h.drawing F B.items hl hc (points.length - 1) (by omega)
  rw [hcl, Option.some.injEq] at hcl'
  subst hcl'
  rw [fc] at hhead
  rw [fcl] at htail
  have tc : c.tag = 0 := by simpa using corners_tag hc
  have tcl : cl.tag = ((points.length - 1 : Nat) : Int) := corners_tag hcl
  have e1 : (sides[points.length - 1]).first = c := by
    rw [hcut.first.2.2 (hends _).1]
    exact hce.1
  have e2 : (sides[points.length - 1]).second = cl := by
    rw [hcut.second.2.2 (hends _).2]
    exact hce.2
  have hpieces := pieces_last (sides := sides) hlt (by rw [B.length.1]; omega)
  -- the orientation starts at corner 0
  obtain ⟨zs', hzs⟩ : ∃ zs', zs = c :: zs' := by
    cases zs with
    | nil => simp at hhead
    | cons a l =>
      simp only [List.head?_cons, Option.some.injEq] at hhead
      exact ⟨l, by rw [hhead]⟩
  have hstart : Shape.orientEdges close ((allPieces sides).map partShape) =
      Shape.orientFrom close (vertexShape c) ((allPieces sides).map partShape) := by
    have hch := hwalk.chain
    rw [hzs] at hch
    cases hap : allPieces (sides.take (points.length - 1)) with
    | nil =>
      exfalso
      have hlen := hch.1.length
      rw [hap] at hlen
      have : zs' = [] := by simpa using hlen
      rw [hzs, this] at htail
      simp only [List.getLast?_singleton, Option.some.injEq] at htail
      rw [← htail, tc] at tcl
      omega
    | cons q qs =>
      rw [hap] at hch
      have hlen := hch.1.length
      cases hz' : zs' with
      | nil => rw [hz'] at hlen; simp at hlen
      | cons b bs =>
        rw [hz'] at hch
        have hq : q ∈ allPieces sides := by rw [hpieces, hap]; simp
        have hj := hch.1.joins 0 (partShape q) (vertexShape c) (vertexShape b) rfl rfl rfl
        have hb : b ∈ [q.first, q.second] := by
          rcases hj with h' | h'
          · simp only [partShape, Shape.boundary, List.cons.injEq, and_true] at h'
            rw [← vertexShape_inj h'.2]
            exact .tail _ (.head _)
          · simp only [partShape, Shape.boundary, List.cons.injEq, and_true] at h'
            rw [← vertexShape_inj h'.1]
            exact .head _
        have hpos := kept_nonneg F (pieces_kept h.box h.drawing F B.items (List.mem_append_left _ hq) hb)
        have hd := hch.2 0 (vertexShape c) (vertexShape b) rfl rfl
        have hseed := Shape.seedVertex_chain hch.1 (by
          simp only [vertexShape, Shape.tag, tc] at hd ⊢
          omega)
        rw [hpieces, hap, List.cons_append, List.map_cons]
        unfold Shape.orientEdges
        have : Shape.seedVertex (partShape q :: (qs ++ (sides[points.length - 1]).pieces).map partShape) =
            .ok (vertexShape c) := hseed
        rw [this, Res.bind_ok]
  -- the sides before
  obtain ⟨s1, hs1, ho1, hfl1⟩ := hwalk.orient (v := vertexShape c) (m := vertexShape cl)
    (by rw [List.head?_map, hhead]; rfl) (by rw [List.getLast?_map, htail]; rfl)
  -- the parts of the last side
  obtain ⟨inner, k1, k2, k3, k4, k5⟩ := cut_chain hcut
  rw [e1, e2] at k3 k4 k5
  have hinner : inner ≠ [] := by
    rintro rfl
    have := (k2 z).2 ⟨hz, fun hp => (hends (points.length - 1)).1 (show CutAt _ _ (bare e).first.point by rw [← hp]; exact hz),
      fun hp => (hends (points.length - 1)).2 (show CutAt _ _ (bare e).second.point by rw [← hp]; exact hz)⟩
    simp at this
  obtain ⟨front, x, hfx⟩ : ∃ front x, (sides[points.length - 1]).pieces = front ++ [x] := by
    have hbne : (sides[points.length - 1]).pieces ≠ [] := by
      intro h0
      rw [h0] at k4
      simp at k4
    exact ⟨_, _, (List.dropLast_append_getLast hbne).symm⟩
  rw [hfx] at k4 k5
  have hclen : (c :: inner ++ [cl]).length = front.length + 2 := by
    simp only [List.length_append, List.length_singleton] at k4
    simp only [List.length_append, List.length_singleton]
    omega
  have hil : inner.length = front.length := by simpa using hclen
  have all : ∀ w ∈ c :: inner ++ [cl], w ∈ allVertices points (lineEdges points.length p lines) out.vertices := by
    intro w hw
    rw [← e1, ← e2] at hw
    exact ends_all h.box F hds (vertex_cases hcut k1 hw)
  have hlastc : (c :: inner ++ [cl])[front.length + 1]? = some cl := by
    rw [List.getElem?_append_right (by simp [hil])]
    simp [hil]
  have htagne : ∀ (i : Nat) w, i ≤ front.length → (c :: inner ++ [cl])[i]? = some w → w.tag ≠ cl.tag := by
    intro i w hi hw ht
    have := allVertices_eq F (all w (List.mem_of_getElem? hw)) (all cl (List.mem_of_getElem? hlastc)) ht
    obtain ⟨a1, a2⟩ := List.getElem?_eq_some_iff.1 hw
    obtain ⟨b1, b2⟩ := List.getElem?_eq_some_iff.1 hlastc
    have hp := List.pairwise_iff_getElem.1 k3 i (front.length + 1) a1 b1 (by omega)
    rw [a2, b2] at hp
    exact hp (by rw [this])
  have hfne : front ≠ [] := by
    intro h0
    rw [h0] at hil
    exact hinner (List.length_eq_zero_iff.1 hil)
  obtain ⟨s2, next, hs2, ho2, hfl2, hnext⟩ := MdBox.orient_avoid (t := cl.tag) (front.map partShape) cl fun s hs => by
    obtain ⟨y, hy, rfl⟩ := List.mem_map.1 hs
    obtain ⟨i, hi⟩ := List.mem_iff_getElem?.1 hy
    have hil := (List.getElem?_eq_some_iff.1 hi).1
    obtain ⟨a, b, ha, hb, -, hab⟩ := k5 i y (by rw [List.getElem?_append_left hil, hi])
    have ta := htagne i a (by omega) ha
    have tb := htagne (i + 1) b (by omega) hb
    rcases hab with ⟨h1, h2⟩ | ⟨-, h1, h2⟩
    · exact ⟨_, _, rfl, h1 ▸ ta, h2 ▸ tb⟩
    · exact ⟨_, _, rfl, h1 ▸ tb, h2 ▸ ta⟩
  have hnext := hnext (Or.inl (by simpa using hfne))
  -- the last part starts at the last corner
  obtain ⟨hx1, hx2⟩ : x.first = cl ∧ x.second.tag ≠ cl.tag := by
    obtain ⟨a, b, ha, hb, hle, hab⟩ := k5 front.length x (by simp)
    rw [hlastc, Option.some.injEq] at hb
    subst hb
    have ta := htagne front.length a (le_refl _) ha
    have hle := hle hinner
    rcases hab with ⟨h1, h2⟩ | ⟨-, h1, h2⟩
    · exfalso
      rw [h1, h2] at hle
      have ham : a ∈ inner := by
        rw [List.cons_append] at ha
        obtain ⟨k, hk⟩ : ∃ k, front.length = k + 1 :=
          ⟨front.length - 1, by have := List.length_pos_iff.2 hfne; omega⟩
        rw [hk, List.getElem?_cons_succ, List.getElem?_append_left (by omega)] at ha
        exact List.mem_of_getElem? ha
      have hnew : a.tag ∈ out.vertices.map Vtx.tag := List.mem_map.2 ⟨a, k1 a ham, rfl⟩
      rw [F.vtags] at hnew
      simp only [consec, List.mem_map, List.mem_range] at hnew
      obtain ⟨k, -, hk⟩ := hnew
      rw [tcl, ← hk] at hle
      omega
    · exact ⟨h1, h2 ▸ ta⟩
  have hox : Shape.orientFrom close (vertexShape next) [partShape x] = .ok [-1] := by
    have e0 : Shape.endPoint (partShape x) 0 = .ok (vertexShape cl) := by
      simp [Shape.endPoint, partShape, Shape.boundary, hx1, getIdx]
    simp only [Shape.orientFrom, e0, MdBox.eq_other hnext, Res.bind_ok, Res.pure_eq]
    rfl
  have hsg : signs = s1 ++ (s2 ++ [-1]) := by
    rw [hstart, hpieces, hfx, List.map_append, List.map_append, ho1, ho2, List.map_singleton, hox] at hsigns
    simp only [Res.bind_ok, Res.pure_eq, Except.ok.injEq] at hsigns
    exact hsigns.symm
  have hflow : flow cl.tag ((allPieces sides).map partShape) signs = 2 := by
    rw [hpieces, hfx, hsg, List.map_append, List.map_append, MdBox.flow_append hs1, MdBox.flow_append hs2, hfl1, hfl2,
      List.map_singleton, MdBox.flow_cons (v := vertexShape cl) (w := vertexShape x.second)
        (by simp [partShape, Shape.boundary, hx1])]
    have a1 : at_ cl.tag (vertexShape cl) = 1 := if_pos rfl
    have a2 : at_ cl.tag (vertexShape c) = 0 := if_neg (by
      show ¬ c.tag = cl.tag
      rw [tc, tcl]
      omega)
    have a3 : at_ cl.tag (vertexShape x.second) = 0 := if_neg hx2
    rw [a1, a2, a3]
    rfl
  -- the new tags
  have kept_x : cl ∈ keptVertices points rock (lineEdges points.length p lines) out.vertices := by
    refine pieces_kept h.box h.drawing F B.items (q := x) (List.mem_append_left _ ?_) (by rw [hx1]; exact .head _)
    rw [hpieces, hfx]
    simp
  have inj : ∀ {v w : Vtx}, v ∈ keptVertices points rock (lineEdges points.length p lines) out.vertices →
      w ∈ keptVertices points rock (lineEdges points.length p lines) out.vertices → (f v.tag = f w.tag ↔ v.tag = w.tag) := by
    intro v w hv hw
    obtain ⟨i, hi⟩ := List.mem_iff_getElem?.1 hv
    obtain ⟨j, hj⟩ := List.mem_iff_getElem?.1 hw
    rw [B.numbering.vertices i v hi, B.numbering.vertices j w hj]
    constructor
    · intro hij
      have : i = j := by exact_mod_cast hij
      subst this
      rw [hi, Option.some.injEq] at hj
      rw [hj]
    · intro ht
      have := allVertices_eq F (List.mem_of_mem_filter hv) (List.mem_of_mem_filter hw) ht
      subst this
      have h1 := B.numbering.vertices i v hi
      have h2 := B.numbering.vertices j v hj
      rw [← h1, ← h2]
  have hflow' : flow (f cl.tag) (((allPieces sides).map (relabelEdg f g)).map partShape) signs = 2 := by
    rw [flow_relabel, hflow]
    intro q hq
    exact ⟨inj (pieces_kept h.box h.drawing F B.items (List.mem_append_left _ hq) (.head _)) kept_x,
      inj (pieces_kept h.box h.drawing F B.items (List.mem_append_left _ hq) (.tail _ (.head _))) kept_x⟩
  have hview := faceOf_view f g ((physicalTags.getD defaultTags2).get? "area") c sides cut
  refine ⟨r, faceOf f g _ c sides cut, _, _, _, f cl.tag, _, signs, hr, by rw [hd]; rfl, by rw [hview]; rfl, rfl, ho, hflow',
    ?_⟩
  rintro w ws ⟨hch, hf⟩
  have := MdBox.flow_chain (t := f cl.tag) hch hf (v := w) (m := w) rfl (by rw [List.getLast?_append]; rfl)
  rw [hflow', sub_self] at this
  exact absurd this (by decide)

/-- C101, error cases: without corners, and for a box without physical tags. -/
theorem C101_rejects :
    buildBoxWithLines argsort argsortTag [] lines physicalTags = .error .indexError ∧
    (IsArgsort argsortTag → 2 ≤ points.length → buildBoxWithLines argsort argsortTag points lines (some []) =
      .error .valueError) := by
  constructor
  · unfold buildBoxWithLines
    have : buildBox2D close argsortTag ([] : List (Pt ℝ)) (some (physicalTags.getD defaultTags2)) = .error .indexError := rfl
    simp only [this]
    rfl
  · intro ha h2
    obtain ⟨rock, v, hB, hv, hbox⟩ := box_form ha h2 []
    unfold buildBoxWithLines
    simp only [Option.getD_some, hbox, Res.bind_ok,
      show ∀ a b c : List (Shape (Pt ℝ)), getIdx [a, b, c] 0 = .ok a from fun _ _ _ => rfl,
      show ∀ a b c : List (Shape (Pt ℝ)), getIdx [a, b, c] 1 = .ok b from fun _ _ _ => rfl]
    have hno : ∀ s ∈ (⟨2, [(corners points).map vertexShape, rock.map partShape ++ [.composed .wire points.length none
        [vertexShape v, vertexShape v] (rock.map partShape)], [.composed .face 0 (Dict.get? [] "area")
          [.composed .wire points.length none [vertexShape v, vertexShape v] (rock.map partShape)] []]]⟩ :
          Domain (Pt ℝ)).all, s.physicalTag = none := by
      intro s hs
      simp only [Domain.all, List.flatten_cons, List.flatten_nil, List.append_nil, List.mem_append, List.mem_map,
        List.mem_singleton] at hs
      rcases hs with ⟨w, hw, rfl⟩ | (⟨e, he, rfl⟩ | rfl) | rfl
      · exact corners_physical hw
      · obtain ⟨k, hk⟩ := List.mem_iff_getElem?.1 he
        exact (hB.side k e hk).2.1
      · rfl
      · rfl
    have : Domain.maxPhysicalTag (⟨2, [(corners points).map vertexShape, rock.map partShape ++ [.composed .wire
        points.length none [vertexShape v, vertexShape v] (rock.map partShape)], [.composed .face 0 (Dict.get? [] "area")
          [.composed .wire points.length none [vertexShape v, vertexShape v] (rock.map partShape)] []]]⟩ :
          Domain (Pt ℝ)) = .error .valueError := by
      unfold Domain.maxPhysicalTag
      rw [List.filterMap_eq_nil_iff.2 hno]
      rfl
    rw [this]
    rfl

end

/-! ### Examples -/

/-- A line that crosses the second side -/
def crossLines : List Line := [(![3, 1, 0], ![5, 1, 0])]

theorem cross_drawing : Drawing (axesOf 2) (drawn sqRock (lineEdges sqPoints.length 5 crossLines)) := by
  refine (onGrid_drawn (gs := sqGrid ++ [⟨true, 1, 3, 5⟩]) ?_ (by decide) (by decide)).drawing
  refine List.rel_append sq_reads (.cons ⟨?_, ?_, rfl⟩ .nil) <;> simp [Grid.pt, bare, lineEdge]

theorem seg_flat {a b c : ℝ} (h : a ≤ b) {z : Pt ℝ} (hz : z ∈ segment ℝ ![a, c, 0] ![b, c, 0]) : a ≤ z 0 ∧ z 0 ≤ b ∧ z 1 = c := by
  rw [mem_segment_iff] at hz
  obtain ⟨t, t0, t1, rfl⟩ := hz
  simp
  constructor <;> nlinarith

theorem seg_up {a b c : ℝ} (h : a ≤ b) {z : Pt ℝ} (hz : z ∈ segment ℝ ![c, a, 0] ![c, b, 0]) : a ≤ z 1 ∧ z 1 ≤ b ∧ z 0 = c := by
  rw [mem_segment_iff] at hz
  obtain ⟨t, t0, t1, rfl⟩ := hz
  simp
  constructor <;> nlinarith

/-- The hypotheses of C101 are satisfiable: a square and a line that crosses its second side, which is cut. -/
example : ∃ argsort argsortTag, IsScene argsort argsortTag sqPoints crossLines none sqRock 5 ∧
    (∀ z, ¬ CutAt (drawn sqRock (lineEdges sqPoints.length 5 crossLines)) (sqPoints.length - 1) z) ∧
    CutAt (drawn sqRock (lineEdges sqPoints.length 5 crossLines)) 1 ![4, 1, 0] ∧
    ¬ ∃ i, CutAt (drawn sqRock (lineEdges sqPoints.length 5 crossLines)) i ![0, 0, 0] := by
  obtain ⟨argsort, hs⟩ := Fracture.exists_argsort
  have on : ∀ {i z}, CutAt (drawn sqRock (lineEdges sqPoints.length 5 crossLines)) i z → 3 ≤ z 0 ∧ z 1 = 1 := by
    intro i z h
    obtain ⟨⟨e, he, hz⟩, -⟩ := sq_cut h
    obtain ⟨l, hl, hz⟩ := line_mem he hz
    rw [List.mem_singleton.1 hl] at hz
    obtain ⟨h1, -, h2⟩ := seg_flat (by norm_num) hz
    exact ⟨h1, h2⟩
  refine ⟨argsort, stableArgsort, sq_scene hs stableArgsort_is cross_drawing, fun z h => ?_, ?_, ?_⟩
  · have h1 := (on h).1
    have h2 := (seg_up (by norm_num) ((sq_cut h).2 _ rfl)).2.2
    linarith
  · refine ⟨_, 5, _, rfl, rfl, by decide, ?_, ?_, ?_⟩
    · refine mem_segment_iff.2 ⟨1 / 4, by norm_num, by norm_num, ?_⟩
      refine pt_ext ?_ ?_ ?_ <;> simp [bare] <;> norm_num
    · refine mem_segment_iff.2 ⟨1 / 2, by norm_num, by norm_num, ?_⟩
      refine pt_ext ?_ ?_ ?_ <;> simp [bare, lineEdge] <;> norm_num
    · rintro ⟨v, hv, w, hw, h1, -, -⟩
      simp only [bare, List.mem_cons, List.not_mem_nil, or_false] at hv
      rcases hv with rfl | rfl
      · have := congrFun h1 1
        norm_num at this
      · have := congrFun h1 1
        norm_num at this
  · rintro ⟨i, h⟩
    have := (on h).2
    norm_num at this

/-- A line that crosses the last side -/
def lastLines : List Line := [(![-1, 1, 0], ![1, 1, 0])]

theorem last_drawing : Drawing (axesOf 2) (drawn sqRock (lineEdges sqPoints.length 5 lastLines)) := by
  refine (onGrid_drawn (gs := sqGrid ++ [⟨true, 1, -1, 1⟩]) ?_ (by decide) (by decide)).drawing
  refine List.rel_append sq_reads (.cons ⟨?_, ?_, rfl⟩ .nil) <;> simp [Grid.pt, bare, lineEdge]

/-- The hypotheses of `C101_last_side_violated` are satisfiable. -/
example : ∃ argsort argsortTag, ∃ e, IsScene argsort argsortTag sqPoints lastLines none sqRock 5 ∧
    sqRock[sqPoints.length - 1]? = some e ∧
    CutAt (drawn sqRock (lineEdges sqPoints.length 5 lastLines)) (sqPoints.length - 1) ![0, 1, 0] ∧
    ∀ i, ¬ CutAt (drawn sqRock (lineEdges sqPoints.length 5 lastLines)) i e.first.point ∧
      ¬ CutAt (drawn sqRock (lineEdges sqPoints.length 5 lastLines)) i e.second.point := by
  obtain ⟨argsort, hs⟩ := Fracture.exists_argsort
  have on : ∀ {i z}, CutAt (drawn sqRock (lineEdges sqPoints.length 5 lastLines)) i z → z 1 = 1 := by
    intro i z h
    obtain ⟨⟨e, he, hz⟩, -⟩ := sq_cut h
    obtain ⟨l, hl, hz⟩ := line_mem he hz
    rw [List.mem_singleton.1 hl] at hz
    exact (seg_flat (by norm_num) hz).2.2
  refine ⟨argsort, stableArgsort, _, sq_scene hs stableArgsort_is last_drawing, rfl, ?_, fun i => ⟨fun h => ?_, fun h => ?_⟩⟩
  · refine ⟨_, 5, _, rfl, rfl, by decide, ?_, ?_, ?_⟩
    · refine mem_segment_iff.2 ⟨1 / 4, by norm_num, by norm_num, ?_⟩
      refine pt_ext ?_ ?_ ?_ <;> simp [bare] <;> norm_num
    · refine mem_segment_iff.2 ⟨1 / 2, by norm_num, by norm_num, ?_⟩
      refine pt_ext ?_ ?_ ?_ <;> simp [bare, lineEdge] <;> norm_num
    · rintro ⟨v, hv, w, hw, h1, -, -⟩
      simp only [bare, List.mem_cons, List.not_mem_nil, or_false] at hv
      rcases hv with rfl | rfl
      · have := congrFun h1 1
        norm_num at this
      · have := congrFun h1 1
        norm_num at this
  · have := on h
    norm_num at this
  · have := on h
    norm_num at this

/-- Four lines inside, no two of which meet -/
def fourLines : List Line :=
  [(![1, 1, 0], ![2, 1, 0]), (![1, 2, 0], ![2, 2, 0]), (![1, 3, 0], ![2, 3, 0]), (![3, 1, 0], ![3, 3, 0])]

theorem four_drawing : Drawing (axesOf 2) (drawn sqRock (lineEdges sqPoints.length 5 fourLines)) := by
  refine (onGrid_drawn (gs := sqGrid ++ [⟨true, 1, 1, 2⟩, ⟨true, 2, 1, 2⟩, ⟨true, 3, 1, 2⟩, ⟨false, 3, 1, 3⟩]) ?_ (by decide)
    (by decide)).drawing
  refine List.rel_append sq_reads
    (.cons ⟨?_, ?_, rfl⟩ (.cons ⟨?_, ?_, rfl⟩ (.cons ⟨?_, ?_, rfl⟩ (.cons ⟨?_, ?_, rfl⟩ .nil)))) <;>
    simp [Grid.pt, bare, lineEdge]

/-- C101 does not hold for as many lines as there are sides, if no side is cut: the wire and a line have the same tag,
and are one node of the graph. -/
theorem C101_tags_violated {argsort : List ℝ → List Nat} (hs : Fracture.IsArgsort argsort)
    {argsortTag : List Int → List Nat} (ha : IsArgsort argsortTag) :
    ∃ (r : Built) (face : Shape (Pt ℝ)), buildBoxWithLines argsort argsortTag sqPoints fourLines none = .ok r ∧
      r.domain.shapes[2]? = some [face] ∧ ¬ (lineTags face).Nodup := by
  obtain ⟨r, face, h1, h2, h3, h4⟩ := C101_tags_partial (sq_scene hs ha four_drawing)
  refine ⟨r, face, h1, h2, fun hn => ?_⟩
  have := h3.1 hn
  rw [h4 ?_] at this
  · exact absurd this (by decide)
  · intro i hi z h
    obtain ⟨⟨e, he, hz⟩, hside⟩ := sq_cut h
    obtain ⟨l, hl, hz⟩ := line_mem he hz
    have hin : (1 ≤ z 0 ∧ z 0 ≤ 3) ∧ 1 ≤ z 1 ∧ z 1 ≤ 3 := by
      simp only [fourLines, List.mem_cons, List.not_mem_nil, or_false] at hl
      rcases hl with rfl | rfl | rfl | rfl
      · obtain ⟨a, b, c⟩ := seg_flat (by norm_num) hz
        exact ⟨⟨by linarith, by linarith⟩, by linarith, by linarith⟩
      · obtain ⟨a, b, c⟩ := seg_flat (by norm_num) hz
        exact ⟨⟨by linarith, by linarith⟩, by linarith, by linarith⟩
      · obtain ⟨a, b, c⟩ := seg_flat (by norm_num) hz
        exact ⟨⟨by linarith, by linarith⟩, by linarith, by linarith⟩
      · obtain ⟨a, b, c⟩ := seg_up (by norm_num) hz
        exact ⟨⟨by linarith, by linarith⟩, by linarith, by linarith⟩
    match i, hi, hside with
    | 0, _, hside =>
      have := (seg_flat (by norm_num) (hside _ rfl)).2.2
      linarith [hin.2.1]
    | 1, _, hside =>
      have := (seg_up (by norm_num) (hside _ rfl)).2.2
      linarith [hin.1.2]
    | 2, _, hside =>
      have hs := hside _ rfl
      unfold LEdge.span at hs
      rw [segment_symm] at hs
      have := (seg_flat (by norm_num) hs).2.2
      linarith [hin.2.2]
    | 3, _, hside =>
      have := (seg_up (by norm_num) (hside _ rfl)).2.2
      linarith [hin.1.1]
    | i + 4, hi, _ => exact absurd hi (by simp [sqPoints])

/-- A line from the first corner -/
def cornerLines : List Line := [(![0, 0, 0], ![1, 1, 0])]

theorem corner_line {z : Pt ℝ} {e : Edg} (he : e ∈ lineEdges sqPoints.length 5 cornerLines) (hz : z ∈ (bare e).span) :
    z 0 = z 1 ∧ 0 ≤ z 0 ∧ z 0 ≤ 1 ∧ z 2 = 0 := by
  obtain ⟨l, hl, hz⟩ := line_mem he hz
  rw [List.mem_singleton.1 hl, mem_segment_iff] at hz
  obtain ⟨t, t0, t1, rfl⟩ := hz
  simp [t0, t1]

theorem corner_side {i : Nat} {e f : Edg} (he : sqRock[i]? = some e) (hf : f ∈ lineEdges sqPoints.length 5 cornerLines)
    {z : Pt ℝ} (h1 : z ∈ (bare e).span) (h2 : z ∈ (bare f).span) : (i = 0 ∨ i = 3) ∧ z = ![0, 0, 0] := by
  obtain ⟨k1, k2, k3, k4⟩ := corner_line hf h2
  match i, he with
  | 0, he =>
    cases he
    have := (seg_flat (by norm_num) h1).2.2
    exact ⟨Or.inl rfl, by refine pt_ext ?_ ?_ ?_ <;> simp [k1, this, k4]⟩
  | 1, he =>
    cases he
    have := (seg_up (by norm_num) h1).2.2
    linarith
  | 2, he =>
    cases he
    unfold LEdge.span at h1
    rw [segment_symm] at h1
    have := (seg_flat (by norm_num) h1).2.2
    linarith
  | 3, he =>
    cases he
    have := (seg_up (by norm_num) h1).2.2
    exact ⟨Or.inr rfl, by refine pt_ext ?_ ?_ ?_ <;> simp [← k1, this, k4]⟩
  | i + 4, he => simp [sqRock] at he

theorem sq_drawing : Drawing (axesOf 2) (drawn sqRock []) :=
  (onGrid_drawn (gs := sqGrid) (by rw [List.append_nil]; exact sq_reads) (by decide) (by decide)).drawing

theorem corner_drawing : Drawing (axesOf 2) (drawn sqRock (lineEdges sqPoints.length 5 cornerLines)) := by
  have side : ∀ {i : Nat} {x : Edg}, sqRock[i]? = some x → (drawn sqRock [])[i]? = some (some (bare x)) := by
    intro i x hx
    have hlt := (List.getElem?_eq_some_iff.1 hx).1
    rw [drawn_side hlt, (List.getElem?_eq_some_iff.1 hx).2]
  have line : ∀ {x : Edg} {j : Nat}, (lineEdges sqPoints.length 5 cornerLines)[j]? = some x →
      j = 0 ∧ x = lineEdge 4 5 0 (![0, 0, 0], ![1, 1, 0]) := by
    intro x j hx
    match j, hx with
    | 0, hx => exact ⟨rfl, (Option.some.inj hx).symm⟩
    | j + 1, hx => simp [lineEdges, cornerLines] at hx
  have cut0 : ∀ {i z}, CutAt (drawn sqRock (lineEdges sqPoints.length 5 cornerLines)) i z → z = ![0, 0, 0] := by
    rintro i z ⟨e, j, f, h1, h2, h3, h4, h5, h6⟩
    rcases drawn_cases h1 with ⟨x, hx, rfl⟩ | ⟨k, x, hi, hx, rfl⟩ <;>
      rcases drawn_cases h2 with ⟨y, hy, rfl⟩ | ⟨k', y, hj, hy, rfl⟩
    · exact absurd (sq_linked hx hy h3 h4 h5) h6
    · exact (corner_side hx (List.mem_of_getElem? hy) h4 h5).2
    · exact (corner_side hy (List.mem_of_getElem? hx) h5 h4).2
    · have := (line hx).1
      have := (line hy).1
      omega
  refine ⟨?_, fun i j e f hij he hf => ?_, fun i j z z' hz hz' _ => by rw [cut0 hz, cut0 hz'], fun i e z he hm => ?_,
    fun e he => ?_⟩
  · obtain ⟨n, h, hk, -⟩ := sq_drawing.plane
    refine ⟨![0, 0, 1], 0, ⟨by decide, fun k h1 h2 => ?_⟩, fun e he => ?_⟩
    · have : k = 2 := by
        match k with
        | 0 => exact absurd rfl h1
        | 1 => exact absurd rfl h2
        | 2 => rfl
      rw [this]
      simp
    · obtain ⟨i, hi⟩ := List.mem_iff_getElem?.1 he
      rcases drawn_cases hi with ⟨x, hx, rfl⟩ | ⟨k, x, -, hx, rfl⟩
      · have := List.mem_of_getElem? hx
        simp only [sqRock, List.mem_cons, List.not_mem_nil, or_false] at this
        rcases this with rfl | rfl | rfl | rfl <;> simp [bare, dot]
      · rw [(line hx).2]
        simp [bare, lineEdge, dot]
  · rcases drawn_cases he with ⟨x, hx, rfl⟩ | ⟨k, x, hi, hx, rfl⟩ <;>
      rcases drawn_cases hf with ⟨y, hy, rfl⟩ | ⟨k', y, hj, hy, rfl⟩
    · exact sq_drawing.tested i j _ _ hij (side hx) (side hy)
    · left
      rw [(line hy).2]
      have := List.mem_of_getElem? hx
      simp only [sqRock, List.mem_cons, List.not_mem_nil, or_false] at this
      rcases this with rfl | rfl | rfl | rfl <;> simp [bare, lineEdge, axesOf, det2, proj] <;> norm_num
    · have := (List.getElem?_eq_some_iff.1 hy).1
      omega
    · have := (line hx).1
      have := (line hy).1
      omega
  · rcases drawn_cases he with ⟨x, hx, rfl⟩ | ⟨k, x, hi, hx, rfl⟩
    · obtain ⟨e, j, f, h1, h2, h3, h4, h5⟩ := hm
      rw [he, Option.some.injEq, Option.some.injEq] at h1
      subst h1
      rcases drawn_cases h2 with ⟨y, hy, rfl⟩ | ⟨k', y, hj, hy, rfl⟩
      · exact sq_drawing.clear i _ z (side hx) ⟨_, j, _, side hx, side hy, h3, h4, h5⟩
      · obtain ⟨hi, rfl⟩ := corner_side hx (List.mem_of_getElem? hy) h4 h5
        rcases hi with rfl | rfl
        · cases hx
          exact separated_x (by norm_num) (by norm_num) (by norm_num) (by norm_num) (by norm_num) (by norm_num)
        · cases hx
          exact separated_y (by norm_num) (by norm_num) (by norm_num) (by norm_num) (by norm_num) (by norm_num)
    · obtain ⟨e, j, f, h1, h2, h3, h4, h5⟩ := hm
      rw [he, Option.some.injEq, Option.some.injEq] at h1
      subst h1
      rcases drawn_cases h2 with ⟨y, hy, rfl⟩ | ⟨k', y, hj, hy, rfl⟩
      · obtain ⟨-, rfl⟩ := corner_side hy (List.mem_of_getElem? hx) h5 h4
        rw [(line hx).2]
        have hn : (1 : ℝ) ≤ norm3 (![1, 1, 0] - ![0, 0, 0]) := by
          refine le_trans ?_ (abs_le_norm3 (![1, 1, 0] - ![0, 0, 0]) 0)
          simp
        have hn2 : norm3 (![1, 1, 0] - ![0, 0, 0]) ≤ 2 := by
          have h2 : norm3 (![1, 1, 0] - ![0, 0, 0] : Pt ℝ) = Real.sqrt 2 := by
            unfold norm3
            congr 1
            simp [dot]
            norm_num
          rw [h2, Real.sqrt_le_left (by norm_num)]
          norm_num
        refine ⟨fun e => ?_, fun v hv hne => ?_, fun v hv hne => ?_, fun v hv hne => ?_, fun v hv hne => ?_⟩
        · have := congrFun e 0
          norm_num [bare, lineEdge] at this
        · rw [List.mem_singleton.1 hv] at hne
          exact absurd rfl hne
        · rw [List.mem_singleton.1 hv]
          intro h
          have := h 0
          norm_num [bare, lineEdge, IsClose] at this
        · rw [List.mem_singleton.1 hv] at hne
          exact absurd rfl hne
        · rw [List.mem_singleton.1 hv]
          intro h
          have h0 : norm3 (![0, 0, 0] - ![0, 0, 0] : Pt ℝ) = 0 := by
            rw [sub_self]
            simp [norm3, dot]
          simp only [bare, lineEdge, IsClose, h0, zero_sub, abs_neg] at h
          rw [abs_of_nonneg (by linarith)] at h
          linarith
      · have := (line hx).1
        have := (line hy).1
        omega
  · obtain ⟨i, hi⟩ := List.mem_iff_getElem?.1 he
    rcases drawn_cases hi with ⟨x, hx, rfl⟩ | ⟨k, x, -, hx, rfl⟩
    · exact sq_drawing.fresh _ (List.mem_of_getElem? (side hx))
    · rw [(line hx).2]
      refine ⟨rfl, fun h => ?_⟩
      have := congrFun h 0
      norm_num [bare, lineEdge] at this

/-- C101 does not hold for a line that ends at corner 0: there are two vertices at that point, of which the wire has
one as its boundary and the sides end at the other. -/
theorem C101_vertices_violated {argsort : List ℝ → List Nat} (hs : Fracture.IsArgsort argsort)
    {argsortTag : List Int → List Nat} (ha : IsArgsort argsortTag) :
    ∃ (r : Built) (vs : List Vtx), buildBoxWithLines argsort argsortTag sqPoints cornerLines none = .ok r ∧
      r.domain.shapes[0]? = some (vs.map vertexShape) ∧ ¬ vs.Pairwise fun v w => v.point ≠ w.point := by
  obtain ⟨r, vs, h1, h2, -, -, h5⟩ := C101_vertices_partial (sq_scene hs ha corner_drawing)
  refine ⟨r, vs, h1, h2, fun h => (h5 _ rfl).1 h ⟨0, _, 5, _, rfl, rfl, by decide, left_mem_segment ℝ _ _,
    left_mem_segment ℝ _ _, ?_⟩⟩
  rintro ⟨v, hv, w, hw, -, -, h3⟩
  simp only [bare, lineEdge, List.mem_cons, List.not_mem_nil, or_false] at hv hw
  rcases hv with rfl | rfl <;> rcases hw with rfl | rfl <;> simp [sqPoints] at h3

/-- There are sortings. -/
example : ∃ argsort argsortTag, Fracture.IsArgsort argsort ∧ IsArgsort argsortTag := by
  obtain ⟨argsort, hs⟩ := Fracture.exists_argsort
  exact ⟨argsort, stableArgsort, hs, stableArgsort_is⟩

#print axioms C101_domain_partial
#print axioms C101_vertices_partial
#print axioms C101_tags_partial
#print axioms C101_conforming_partial
#print axioms C101_wire_partial
#print axioms C101_last_side_violated
#print axioms C101_rejects
#print axioms C101_tags_violated
#print axioms C101_vertices_violated

end Verif.LinesBox
