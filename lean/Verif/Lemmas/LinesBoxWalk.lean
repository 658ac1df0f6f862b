/-
Helper lemmas on boxes with lines: the wire as a walk.
-/
import Verif.Lemmas.LinesBoxRead
import Verif.Lemmas.MdBoxMake

namespace Verif.LinesBox
open MeshBuild MeshGraph Trace MeshMetrics Geometry VertexOps Topology
open MdBox (asEdg asVtx vertexShape close corners IsBox Walk final flow at_)
open scoped Classical

/-- The vertices along an edge that is cut -/
theorem cut_chain {new : List Vtx} {N : Set (Pt ℝ)} {e e' : LEdge} {t : Int} (h : IsCut new N e e' t) :
    ∃ inner : List Vtx, (∀ v ∈ inner, v ∈ new) ∧
      (∀ z, (∃ v ∈ inner, v.point = z) ↔ z ∈ N ∧ z ≠ e.first.point ∧ z ≠ e.second.point) ∧
      ((e'.first :: inner ++ [e'.second]).Pairwise fun v w => v.point ≠ w.point) ∧
      e'.pieces.length + 1 = (e'.first :: inner ++ [e'.second]).length ∧
      ∀ (i : Nat) (q : Edg), e'.pieces[i]? = some q → ∃ v w, (e'.first :: inner ++ [e'.second])[i]? = some v ∧
        (e'.first :: inner ++ [e'.second])[i + 1]? = some w ∧ (inner ≠ [] → q.first.tag ≤ q.second.tag) ∧
        (q.first = v ∧ q.second = w ∨ inner ≠ [] ∧ q.first = w ∧ q.second = v) := by
  obtain ⟨inner, h1, h2, h3, h4⟩ := h.chain
  refine ⟨inner, h1, h2, h3.imp fun h hp => by rw [hp] at h; exact lt_irrefl _ h, ?_⟩
  by_cases hi : inner = []
  · subst hi
    rw [if_pos rfl] at h4
    unfold LEdge.pieces
    rw [if_pos h4]
    refine ⟨rfl, fun i q hq => ?_⟩
    match i, hq with
    | 0, hq =>
      simp only [List.getElem?_cons_zero, Option.some.injEq] at hq
      subst hq
      exact ⟨_, _, rfl, rfl, fun h => absurd rfl h, Or.inl ⟨rfl, rfl⟩⟩
    | i + 1, hq => simp at hq
  · rw [if_neg hi] at h4
    have hne : e'.parts ≠ [] := by
      intro h0
      have := h4.count
      rw [h0] at this
      simp at this
    unfold LEdge.pieces
    rw [if_neg hne]
    refine ⟨h4.count, fun i q hq => ?_⟩
    obtain ⟨-, -, a, v, w, b, c, d⟩ := h4.joined i q hq
    exact ⟨v, w, b, c, fun _ => a, d.imp id fun d => ⟨hi, d⟩⟩

section
variable {points : List (Pt ℝ)} {tags : Dict String Int} {rock : List Edg} {p : Int} {lines : List Line}
  {ptag : Int} {out : Fragments} {sides cut : List LEdge}

theorem vertex_cases {v : Vtx} {new N e e'} {t : Int} (h : IsCut new N e e' t) {inner : List Vtx}
    (hi : ∀ v ∈ inner, v ∈ new) (hv : v ∈ e'.first :: inner ++ [e'.second]) : v ∈ new ∨ v ∈ [e.first, e.second] := by
  simp only [List.cons_append, List.mem_cons, List.mem_append, List.not_mem_nil, or_false] at hv ⊢
  rcases hv with rfl | hv | rfl
  · by_cases hN : e.first.point ∈ N
    · exact Or.inl (h.first.2.1 hN)
    · exact Or.inr (Or.inl (h.first.2.2 hN))
  · exact Or.inl (hi v hv)
  · by_cases hN : e.second.point ∈ N
    · exact Or.inl (h.second.2.1 hN)
    · exact Or.inr (Or.inr (h.second.2.2 hN))

section
variable (hB : IsBox points tags rock) {etag : Int}
  (hD : Drawing (axesOf 2) (drawn rock (lineEdges points.length p lines)))
  (F : IsFragments (fun i => {z | CutAt (drawn rock (lineEdges points.length p lines)) i z})
      (drawn rock (lineEdges points.length p lines)) etag (points.length + 2 * lines.length) ptag out)
include hB hD F

omit hD in
theorem ends_all {i : Nat} {e : LEdge} {v : Vtx} (he : (drawn rock (lineEdges points.length p lines))[i]? = some (some e))
    (hv : v ∈ out.vertices ∨ v ∈ [e.first, e.second]) :
    v ∈ allVertices points (lineEdges points.length p lines) out.vertices := by
  rcases hv with hv | hv
  · exact List.mem_append_right _ hv
  · exact List.mem_append_left _ (drawn_ends hB he hv)

omit hB in
/-- The end of an edge -/
theorem end_final {i : Nat} {e : LEdge} (he : (drawn rock (lineEdges points.length p lines))[i]? = some (some e))
    {v v' : Vtx} (hv : v ∈ [e.first, e.second])
    (h : NewEnd out.vertices (CutAt (drawn rock (lineEdges points.length p lines)) i v.point) v v') :
    v' = final out.vertices v := by
  have once : Once out.vertices := F.sorted.imp fun h => h.2
  by_cases hc : CutAt (drawn rock (lineEdges points.length p lines)) i v.point
  · have hm := h.2.1 hc
    rcases MdBox.final_mem out.vertices v with h' | h'
    · exact once.eq hm h' (by rw [h.1, MdBox.final_point])
    · have hn : ∀ u ∈ out.vertices, u.point ≠ v.point ∨ final out.vertices v ∈ out.vertices := by
        intro u hu
        by_cases hp : u.point = v.point
        · right
          unfold MdBox.final
          cases hf : out.vertices.find? fun t => t.point = v.point with
          | none => simpa [hp] using List.find?_eq_none.1 hf u hu
          | some t => exact List.mem_of_find?_eq_some hf
        · exact Or.inl hp
      rcases hn v' hm with h'' | h''
      · exact absurd h.1 h''
      · exact once.eq hm h'' (by rw [h.1, MdBox.final_point])
  · rw [h.2.2 hc, MdBox.final_old]
    intro u hu hp
    obtain ⟨j, hj⟩ := (F.points v.point).1 ⟨u, hu, hp⟩
    exact hc (cut_all hj he hv rfl (hD.fresh e (List.mem_of_getElem? he)).2)

/-- An edge after cutting, as a walk -/
theorem edge_walk {i : Nat} {e e' : LEdge} {t : Int}
    (he : (drawn rock (lineEdges points.length p lines))[i]? = some (some e))
    (h : IsCut out.vertices {z | CutAt (drawn rock (lineEdges points.length p lines)) i z} e e' t) :
    ∃ inner : List Vtx, Walk (e'.pieces.map partShape)
      ((final out.vertices e.first :: inner ++ [final out.vertices e.second]).map vertexShape) := by
  obtain ⟨inner, h1, -, h3, h4, h5⟩ := cut_chain h
  have f1 := end_final hD F he (.head _) h.first
  have f2 := end_final hD F he (.tail _ (.head _)) h.second
  refine ⟨inner, ?_⟩
  rw [← f1, ← f2]
  refine MdBox.walk_of _ _ (by rw [List.length_map]; exact h4) fun k s hs => ?_
  rw [List.getElem?_map, Option.map_eq_some_iff] at hs
  obtain ⟨q, hq, rfl⟩ := hs
  obtain ⟨v, w, hv, hw, -, hvw⟩ := h5 k q hq
  refine ⟨v, w, hv, hw, fun ht => ?_, ?_⟩
  · have := allVertices_eq F (ends_all hB F he (vertex_cases h h1 (List.mem_of_getElem? hv)))
      (ends_all hB F he (vertex_cases h h1 (List.mem_of_getElem? hw))) ht
    obtain ⟨hk, hv⟩ := List.getElem?_eq_some_iff.1 hv
    obtain ⟨hk', hw⟩ := List.getElem?_eq_some_iff.1 hw
    have := List.pairwise_iff_getElem.1 h3 k (k + 1) hk hk' (by omega)
    rw [hv, hw] at this
    exact this (by simp_all)
  · rcases hvw with ⟨rfl, rfl⟩ | ⟨-, rfl, rfl⟩
    · exact Or.inl rfl
    · exact Or.inr rfl

variable (hi : out.items = sides.map some ++ none :: cut.map some) (hl : sides.length = rock.length)
include hi hl

omit hB hD in
theorem side_cut {k : Nat} {e : LEdge} (h : sides[k]? = some e) : ∃ (r : Edg) (t : Int), rock[k]? = some r ∧
    (drawn rock (lineEdges points.length p lines))[k]? = some (some (bare r)) ∧
    IsCut out.vertices {z | CutAt (drawn rock (lineEdges points.length p lines)) k z} (bare r) e t := by
  have hlt := (List.getElem?_eq_some_iff.1 h).1
  obtain ⟨e', h1, h2⟩ := F.cut k _ (drawn_side (by omega))
  rw [items_side hi h, Option.some.injEq, Option.some.injEq] at h1
  subst h1
  exact ⟨_, _, List.getElem?_eq_getElem (by omega), drawn_side (by omega), h2⟩

/-- The sides but the last, as a walk from the first corner -/
theorem sides_walk {c : Vtx} (hc : (corners points)[0]? = some c) : ∀ k, k + 1 ≤ points.length →
    ∃ (zs : List Vtx) (c' : Vtx), (corners points)[k]? = some c' ∧
      Walk ((allPieces (sides.take k)).map partShape) (zs.map vertexShape) ∧
      zs.head? = some (final out.vertices c) ∧ zs.getLast? = some (final out.vertices c') := by
  intro k
  induction k with
  | zero => exact fun _ => ⟨[final out.vertices c], c, hc, .nil _, rfl, rfl⟩
  | succ k ih =>
    intro hk
    obtain ⟨zs, c1, h1, h2, h3, h4⟩ := ih (by omega)
    have hlen := hB.length
    have hks : k < sides.length := by omega
    obtain ⟨r, t, hr, hd, hcut⟩ := side_cut F hi hl (List.getElem?_eq_getElem hks)
    obtain ⟨-, -, v, w, hv, hw, hvw⟩ := hB.side k r hr
    rw [if_neg (by omega)] at hw hvw
    rw [h1, Option.some.injEq] at hv
    subst hv
    obtain ⟨inner, hwalk⟩ := edge_walk hB hD F hd hcut
    simp only [bare, hvw.1, hvw.2] at hwalk
    obtain ⟨front, hfront⟩ := List.getLast?_eq_some_iff.1 h4
    refine ⟨front ++ (final out.vertices c1 :: inner ++ [final out.vertices w]), w, hw, ?_, ?_, ?_⟩
    · unfold allPieces
      rw [List.take_add_one, List.getElem?_eq_getElem hks, Option.toList_some, List.flatMap_append,
        List.flatMap_singleton, List.map_append, List.map_append]
      rw [hfront, List.map_append] at h2
      exact h2.append hwalk
    · rw [hfront] at h3
      cases front with
      | nil => simpa using h3
      | cons a l => simpa using h3
    · rw [← List.append_assoc, List.getLast?_concat]

omit hl in
/-- The ends of the pieces stay. -/
theorem pieces_kept {q : Edg} (hq : q ∈ allPieces sides ++ allPieces cut) {w : Vtx} (hw : w ∈ [q.first, q.second]) :
    w ∈ keptVertices points rock (lineEdges points.length p lines) out.vertices := by
  set items := drawn rock (lineEdges points.length p lines) with hitems
  obtain ⟨k, e', hk, he'⟩ : ∃ (k : Nat) (e' : LEdge), out.items[k]? = some (some e') ∧ q ∈ e'.pieces := by
    rcases List.mem_append.1 hq with h | h
    · obtain ⟨e', h, hq⟩ := List.mem_flatMap.1 h
      obtain ⟨k, hk⟩ := List.mem_iff_getElem?.1 h
      exact ⟨k, e', items_side hi hk, hq⟩
    · obtain ⟨e', h, hq⟩ := List.mem_flatMap.1 h
      obtain ⟨k, hk⟩ := List.mem_iff_getElem?.1 h
      exact ⟨_, e', items_line hi hk, hq⟩
  have hlt : k < items.length := by
    rw [← F.length]
    exact (List.getElem?_eq_some_iff.1 hk).1
  rw [keptVertices, List.mem_filter, decide_eq_true_eq]
  cases hx : items[k] with
  | none =>
    have := F.wires k (by rw [List.getElem?_eq_getElem hlt, hx])
    rw [hk] at this
    simp at this
  | some e =>
    have hx' : items[k]? = some (some e) := by rw [List.getElem?_eq_getElem hlt, hx]
    obtain ⟨e'', h1, h2⟩ := F.cut k e hx'
    rw [hk, Option.some.injEq, Option.some.injEq] at h1
    subst h1
    have hon : OnPieces e' w := ⟨q, he', by simpa using hw⟩
    rcases onPieces_old h2 hon with h | ⟨h, hN⟩
    · exact ⟨List.mem_append_right _ h, Or.inr (Or.inl h)⟩
    · refine ⟨ends_all hB F hx' (Or.inr h), Or.inr (Or.inr ?_)⟩
      rintro ⟨j, hj⟩
      exact hN (cut_all hj hx' h rfl (hD.fresh e (List.mem_of_getElem? hx')).2)

end

theorem pieces_last {k : Nat} (h : k < sides.length) (hl : sides.length = k + 1) :
    allPieces sides = allPieces (sides.take k) ++ (sides[k]).pieces := by
  have : sides = sides.take k ++ [sides[k]] := by
    conv_lhs => rw [← List.take_length (l := sides), hl, List.take_add_one, List.getElem?_eq_getElem h]
    rfl
  conv_lhs => rw [this]
  unfold allPieces
  rw [List.flatMap_append, List.flatMap_singleton]

theorem kept_nonneg {N : Nat → Set (Pt ℝ)} {items : List Item} {etag : Int}
    (F : IsFragments N items etag (points.length + 2 * lines.length) ptag out) {w : Vtx}
    (hw : w ∈ keptVertices points rock (lineEdges points.length p lines) out.vertices) : 0 ≤ w.tag := by
  obtain ⟨k, hk⟩ := List.mem_iff_getElem?.1 (List.mem_of_mem_filter hw)
  rw [allVertices_tag F hk]
  omega

end

/-! ### Relabelling -/

theorem vertexShape_inj {v w : Vtx} (h : vertexShape v = vertexShape w) : v = w := by
  cases v
  cases w
  simp only [vertexShape, Shape.vertex.injEq] at h
  simp [h.1, h.2.1, h.2.2]

theorem follows_relabel {f g : Int → Int} {ps : List Edg} {zs : List Vtx} {signs : List Int}
    (h : FollowsChain (ps.map partShape) (zs.map vertexShape) signs) :
    FollowsChain ((ps.map (relabelEdg f g)).map partShape) ((zs.map (relabelVtx f)).map vertexShape) signs := by
  refine ⟨by simpa using h.1, fun i e v w s h1 h2 h3 h4 => ?_⟩
  simp only [List.getElem?_map, Option.map_map, Option.map_eq_some_iff] at h1 h2 h3
  obtain ⟨q, hq, rfl⟩ := h1
  obtain ⟨a, ha, rfl⟩ := h2
  obtain ⟨b, hb, rfl⟩ := h3
  have := h.2 i (partShape q) (vertexShape a) (vertexShape b) s (by simp [hq]) (by simp [ha]) (by simp [hb]) h4
  simp only [Traverses, partShape, Shape.boundary, Function.comp_apply, List.cons.injEq, and_true] at this ⊢
  rcases this with ⟨rfl, h1, h2⟩ | ⟨rfl, h1, h2⟩
  · exact Or.inl ⟨rfl, by rw [← vertexShape_inj h1]; rfl, by rw [← vertexShape_inj h2]; rfl⟩
  · exact Or.inr ⟨rfl, by rw [← vertexShape_inj h1]; rfl, by rw [← vertexShape_inj h2]; rfl⟩

theorem chain_relabel {f g : Int → Int} {ps : List Edg} {zs : List Vtx}
    (h : Topology.IsChain (ps.map partShape) (zs.map vertexShape)) :
    Topology.IsChain ((ps.map (relabelEdg f g)).map partShape) ((zs.map (relabelVtx f)).map vertexShape) := by
  refine ⟨by simpa using h.length, fun i e v w h1 h2 h3 => ?_, fun v hv => ?_⟩
  · simp only [List.getElem?_map, Option.map_map, Option.map_eq_some_iff] at h1 h2 h3
    obtain ⟨q, hq, rfl⟩ := h1
    obtain ⟨a, ha, rfl⟩ := h2
    obtain ⟨b, hb, rfl⟩ := h3
    have := h.joins i (partShape q) (vertexShape a) (vertexShape b) (by simp [hq]) (by simp [ha]) (by simp [hb])
    simp only [partShape, Shape.boundary, Function.comp_apply, List.cons.injEq, and_true] at this ⊢
    rcases this with ⟨h1, h2⟩ | ⟨h1, h2⟩
    · exact Or.inl ⟨by rw [← vertexShape_inj h1]; rfl, by rw [← vertexShape_inj h2]; rfl⟩
    · exact Or.inr ⟨by rw [← vertexShape_inj h1]; rfl, by rw [← vertexShape_inj h2]; rfl⟩
  · rw [List.map_map, List.mem_map] at hv
    obtain ⟨a, -, rfl⟩ := hv
    rfl

theorem flow_relabel {f g : Int → Int} {t : Int} : ∀ {ps : List Edg} {signs : List Int},
    (∀ q ∈ ps, (f q.first.tag = f t ↔ q.first.tag = t) ∧ (f q.second.tag = f t ↔ q.second.tag = t)) →
    flow (f t) ((ps.map (relabelEdg f g)).map partShape) signs = flow t (ps.map partShape) signs
  | [], _, _ => rfl
  | _ :: _, [], _ => rfl
  | q :: ps, s :: signs, h => by
    have ih := flow_relabel (g := g) (ps := ps) (signs := signs) fun q hq => h q (by simp [hq])
    obtain ⟨h1, h2⟩ := h q (by simp)
    have key : ∀ {v : Vtx}, (f v.tag = f t ↔ v.tag = t) → at_ (f t) (vertexShape (relabelVtx f v)) = at_ t (vertexShape v) := by
      intro v hv
      show (if f v.tag = f t then (1 : Int) else 0) = if v.tag = t then 1 else 0
      by_cases hvt : v.tag = t
      · rw [if_pos (hv.2 hvt), if_pos hvt]
      · rw [if_neg fun h => hvt (hv.1 h), if_neg hvt]
    simp only [List.map_cons]
    rw [MdBox.flow_cons (v := vertexShape (relabelVtx f q.first)) (w := vertexShape (relabelVtx f q.second)) rfl,
      MdBox.flow_cons (v := vertexShape q.first) (w := vertexShape q.second) rfl, ih, key h1, key h2]

theorem meet_relabel {f g : Int → Int} {q q' : Edg} (h : MeetAtEnds q q') :
    MeetAtEnds (relabelEdg f g q) (relabelEdg f g q') := by
  intro z h1 h2
  obtain ⟨v, hv, w, hw, p1, p2, p3⟩ := h z h1 h2
  have lift : ∀ {e : Edg} {v : Vtx}, v ∈ [e.first, e.second] →
      relabelVtx f v ∈ [(relabelEdg f g e).first, (relabelEdg f g e).second] := by
    intro e v hv
    simp only [List.mem_cons, List.not_mem_nil, or_false] at hv ⊢
    rcases hv with rfl | rfl
    · exact Or.inl rfl
    · exact Or.inr rfl
  exact ⟨_, lift hv, _, lift hw, p1, p2, congrArg f p3⟩

end Verif.LinesBox
