/-
Helper lemmas on boxes with lines: which vertices stay.
-/
import Verif.Lemmas.LinesBoxTags

namespace Verif.LinesBox
open MeshBuild MeshGraph Trace MeshMetrics Geometry VertexOps Topology
open MdBox (asEdg asVtx vertexShape close corners IsBox)
open scoped Classical

/-- A vertex of the pieces of an edge -/
def OnPieces (e : LEdge) (w : Vtx) : Prop := ∃ q ∈ e.pieces, w = q.first ∨ w = q.second

/-- The vertices of the pieces are those of the chain. -/
theorem onPieces_iff {e' : LEdge} {inner : List Vtx} {t : Int}
    (h : if inner = [] then e'.parts = [] else Joins (e'.first :: inner ++ [e'.second]) t e'.parts) {w : Vtx} :
    OnPieces e' w ↔ w ∈ e'.first :: inner ++ [e'.second] := by
  unfold OnPieces LEdge.pieces
  by_cases hi : inner = []
  · rw [if_pos hi] at h
    rw [if_pos h, hi]
    simp
  · rw [if_neg hi] at h
    have hne : e'.parts ≠ [] := by
      intro h0
      have := h.count
      rw [h0] at this
      simp at this
    rw [if_neg hne]
    constructor
    · rintro ⟨q, hq, hw⟩
      obtain ⟨i, hq⟩ := List.mem_iff_getElem?.1 hq
      obtain ⟨-, -, -, v, u, h1, h2, h3⟩ := h.joined i q hq
      have h1 := List.mem_of_getElem? h1
      have h2 := List.mem_of_getElem? h2
      rcases h3 with ⟨h3, h4⟩ | ⟨h3, h4⟩ <;> rcases hw with rfl | rfl <;> simp only [h3, h4] <;> assumption
    · intro hw
      obtain ⟨i, hw⟩ := List.mem_iff_getElem?.1 hw
      have hlt := (List.getElem?_eq_some_iff.1 hw).1
      have hc := h.count
      by_cases hip : i < e'.parts.length
      · refine ⟨e'.parts[i], List.getElem_mem hip, ?_⟩
        obtain ⟨-, -, -, v, u, h1, h2, h3⟩ := h.joined i _ (List.getElem?_eq_getElem hip)
        rw [hw, Option.some.injEq] at h1
        rcases h3 with ⟨h3, h4⟩ | ⟨h3, h4⟩
        · exact Or.inl (by rw [h3, h1])
        · exact Or.inr (by rw [h4, h1])
      · have hip' : i - 1 < e'.parts.length := by
          have : 0 < e'.parts.length := List.length_pos_iff.2 hne
          omega
        refine ⟨e'.parts[i - 1], List.getElem_mem hip', ?_⟩
        obtain ⟨-, -, -, v, u, h1, h2, h3⟩ := h.joined (i - 1) _ (List.getElem?_eq_getElem hip')
        rw [show i - 1 + 1 = i by omega, hw, Option.some.injEq] at h2
        rcases h3 with ⟨h3, h4⟩ | ⟨h3, h4⟩
        · exact Or.inr (by rw [h4, h2])
        · exact Or.inl (by rw [h3, h2])

section
variable {new : List Vtx} {N : Set (Pt ℝ)} {e e' : LEdge} {t : Int} {w : Vtx}

theorem onPieces_ends (h : IsCut new N e e' t) : OnPieces e' e'.first ∧ OnPieces e' e'.second := by
  obtain ⟨inner, -, -, -, h4⟩ := h.chain
  rw [onPieces_iff h4, onPieces_iff h4]
  simp

theorem onPieces_old (h : IsCut new N e e' t) (hw : OnPieces e' w) :
    w ∈ new ∨ w ∈ [e.first, e.second] ∧ w.point ∉ N := by
  obtain ⟨inner, h1, h2, h3, h4⟩ := h.chain
  rw [onPieces_iff h4] at hw
  have hf : e'.first ∈ new ∨ e'.first ∈ [e.first, e.second] ∧ e'.first.point ∉ N := by
    by_cases hN : e.first.point ∈ N
    · exact Or.inl (h.first.2.1 hN)
    · rw [h.first.2.2 hN]
      exact Or.inr ⟨by simp, hN⟩
  have hs : e'.second ∈ new ∨ e'.second ∈ [e.first, e.second] ∧ e'.second.point ∉ N := by
    by_cases hN : e.second.point ∈ N
    · exact Or.inl (h.second.2.1 hN)
    · rw [h.second.2.2 hN]
      exact Or.inr ⟨by simp, hN⟩
  simp only [List.cons_append, List.mem_cons, List.mem_append, List.not_mem_nil, or_false] at hw
  rcases hw with rfl | hw | rfl
  · exact hf
  · exact Or.inl (h1 w hw)
  · exact hs

theorem onPieces_new (h : IsCut new N e e' t) (ho : Once new) (hw : w ∈ new) (hN : w.point ∈ N) : OnPieces e' w := by
  obtain ⟨inner, h1, h2, h3, h4⟩ := h.chain
  by_cases hf : w.point = e.first.point
  · have hm := h.first.2.1 (hf ▸ hN)
    rw [ho.eq hw hm (by rw [hf, h.first.1])]
    exact (onPieces_ends h).1
  · by_cases hs : w.point = e.second.point
    · have hm := h.second.2.1 (hs ▸ hN)
      rw [ho.eq hw hm (by rw [hs, h.second.1])]
      exact (onPieces_ends h).2
    · obtain ⟨u, hu, hp⟩ := (h2 w.point).2 ⟨hN, hf, hs⟩
      rw [onPieces_iff h4, ho.eq hw (h1 u hu) hp.symm]
      simp [hu]

theorem onPieces_uncut (h : IsCut new N e e' t) (hw : w ∈ [e.first, e.second]) (hN : w.point ∉ N) :
    OnPieces e' w := by
  rcases List.mem_cons.1 hw with rfl | hw
  · rw [← h.first.2.2 hN]
    exact (onPieces_ends h).1
  · rw [List.mem_singleton] at hw
    subst hw
    rw [← h.second.2.2 hN]
    exact (onPieces_ends h).2

end

/-- Where some edge is cut, all edges that end there are. -/
theorem cut_all {items : List Item} {a i : Nat} {z : Pt ℝ} {e : LEdge} {v : Vtx} (h : CutAt items a z)
    (hi : items[i]? = some (some e)) (hv : v ∈ [e.first, e.second]) (hz : v.point = z)
    (hne : e.first.point ≠ e.second.point) : CutAt items i z := by
  obtain ⟨x, b, y, h1, h2, h3, h4, h5, h6⟩ := h
  have hspan : z ∈ e.span := by
    rw [← hz]
    unfold LEdge.span
    rcases List.mem_cons.1 hv with rfl | hv
    · exact left_mem_segment ℝ _ _
    · rw [List.mem_singleton.1 hv]
      exact right_mem_segment ℝ _ _
  have only : ∀ u ∈ [e.first, e.second], u.point = z → u = v := by
    intro u hu huz
    simp only [List.mem_cons, List.not_mem_nil, or_false] at hu hv
    rcases hu with rfl | rfl <;> rcases hv with rfl | rfl
    · rfl
    · exact absurd (huz.trans hz.symm) hne
    · exact absurd (hz.trans huz.symm) hne
    · rfl
  -- one of the two edges has no end with the tag of `v` at `z`
  have hone : (¬ ∃ u ∈ [x.first, x.second], u.point = z ∧ u.tag = v.tag) ∨
      ¬ ∃ u ∈ [y.first, y.second], u.point = z ∧ u.tag = v.tag := by
    by_contra hc
    push Not at hc
    obtain ⟨⟨u, hu, hu1, hu2⟩, ⟨u', hu', hu1', hu2'⟩⟩ := hc
    exact h6 ⟨u, hu, u', hu', hu1, hu1', by rw [hu2, hu2']⟩
  rcases hone with hn | hn
  · refine ⟨e, a, x, hi, h1, ?_, hspan, h4, ?_⟩
    · rintro rfl
      rw [hi, Option.some.injEq, Option.some.injEq] at h1
      subst h1
      exact hn ⟨v, hv, hz, rfl⟩
    · rintro ⟨u, hu, u', hu', p1, p2, p3⟩
      rw [only u hu p1] at p3
      exact hn ⟨u', hu', p2, p3.symm⟩
  · refine ⟨e, b, y, hi, h2, ?_, hspan, h5, ?_⟩
    · rintro rfl
      rw [hi, Option.some.injEq, Option.some.injEq] at h2
      subst h2
      exact hn ⟨v, hv, hz, rfl⟩
    · rintro ⟨u, hu, u', hu', p1, p2, p3⟩
      rw [only u hu p1] at p3
      exact hn ⟨u', hu', p2, p3.symm⟩

section
variable {points : List (Pt ℝ)} {tags : Dict String Int} {rock : List Edg} {p : Int} {lines : List Line}
  {ptag : Int} {out : Fragments} {sides cut : List LEdge}

theorem ends_tag (n : Nat) (p : Int) : ∀ (lines : List Line) (j k : Nat) (w : Vtx),
    ((((lines.zipIdx j).map fun x => lineEdge n p x.2 x.1).flatMap fun e => [e.first, e.second])[k]?) = some w →
    w.tag = n + 2 * j + k
  | [], _, _, _, h => by simp at h
  | l :: ls, j, 0, w, h => by
    simp only [List.zipIdx_cons, List.map_cons, List.flatMap_cons, List.cons_append, List.getElem?_cons_zero,
      Option.some.injEq] at h
    rw [← h]
    simp [lineEdge]
  | l :: ls, j, 1, w, h => by
    simp only [List.zipIdx_cons, List.map_cons, List.flatMap_cons, List.cons_append, List.getElem?_cons_zero,
      List.getElem?_cons_succ, Option.some.injEq] at h
    rw [← h]
    simp [lineEdge]
  | l :: ls, j, k + 2, w, h => by
    simp only [List.zipIdx_cons, List.map_cons, List.flatMap_cons, List.cons_append, List.nil_append,
      List.getElem?_cons_succ] at h
    rw [ends_tag n p ls (j + 1) k w h]
    push_cast
    ring

theorem ends_length (l : List Edg) : (l.flatMap fun e => [e.first, e.second]).length = 2 * l.length := by
  induction l with
  | nil => rfl
  | cons a l ih =>
    rw [List.flatMap_cons, List.length_append, ih, List.length_cons]
    simp only [List.length_cons, List.length_nil]
    omega

/-- Every vertex has its number as tag. -/
theorem allVertices_tag {N : Nat → Set (Pt ℝ)} {items : List Item} {etag : Int}
    (F : IsFragments N items etag (points.length + 2 * lines.length) ptag out) {k : Nat} {w : Vtx}
    (h : (allVertices points (lineEdges points.length p lines) out.vertices)[k]? = some w) : w.tag = k := by
  unfold allVertices at h
  have hc : (corners points).length = points.length := corners_length
  have he : ((lineEdges points.length p lines).flatMap fun e => [e.first, e.second]).length = 2 * lines.length := by
    rw [ends_length, lineEdges_length]
  by_cases h1 : k < points.length
  · rw [List.append_assoc, List.getElem?_append_left (by omega)] at h
    exact corners_tag h
  · by_cases h2 : k < points.length + 2 * lines.length
    · rw [List.getElem?_append_left (by rw [List.length_append]; omega), List.getElem?_append_right (by omega)] at h
      have := ends_tag points.length p lines 0 _ _ h
      rw [this]
      omega
    · rw [List.getElem?_append_right (by rw [List.length_append]; omega)] at h
      have h3 := congrArg (fun l : List Int => l[k - (corners points ++ (lineEdges points.length p lines).flatMap
        fun e => [e.first, e.second]).length]?) F.vtags
      have hlt := (List.getElem?_eq_some_iff.1 h).1
      simp only [List.getElem?_map, h, Option.map_some, consec, List.getElem?_range hlt, Option.some.injEq] at h3
      rw [h3, List.length_append, hc, he]
      omega

theorem allVertices_nodup {N : Nat → Set (Pt ℝ)} {items : List Item} {etag : Int}
    (F : IsFragments N items etag (points.length + 2 * lines.length) ptag out) :
    ((allVertices points (lineEdges points.length p lines) out.vertices).map Vtx.tag).Nodup :=
  nodup_consec (c := 0) fun k e h => by rw [allVertices_tag F h, zero_add]

theorem allVertices_eq {N : Nat → Set (Pt ℝ)} {items : List Item} {etag : Int}
    (F : IsFragments N items etag (points.length + 2 * lines.length) ptag out) {v w : Vtx}
    (hv : v ∈ allVertices points (lineEdges points.length p lines) out.vertices)
    (hw : w ∈ allVertices points (lineEdges points.length p lines) out.vertices) (h : v.tag = w.tag) : v = w :=
  List.inj_on_of_nodup_map (allVertices_nodup F) hv hw h

/-- The ends of the edges are corners or ends of lines. -/
theorem drawn_ends (hB : IsBox points tags rock) {i : Nat} {e : LEdge}
    (h : (drawn rock (lineEdges points.length p lines))[i]? = some (some e)) {v : Vtx} (hv : v ∈ [e.first, e.second]) :
    v ∈ corners points ++ (lineEdges points.length p lines).flatMap fun e => [e.first, e.second] := by
  rcases drawn_cases h with ⟨r, hr, rfl⟩ | ⟨j, l, rfl, hl, rfl⟩
  · refine List.mem_append_left _ ?_
    obtain ⟨-, -, a, b, h1, h2, h3⟩ := hB.side i r hr
    have h1 := List.mem_of_getElem? h1
    have h2 := List.mem_of_getElem? h2
    simp only [bare, List.mem_cons, List.not_mem_nil, or_false] at hv
    split at h3 <;> rcases hv with rfl | rfl <;> simp only [h3] <;> assumption
  · exact List.mem_append_right _ (List.mem_flatMap.2 ⟨l, List.mem_of_getElem? hl, hv⟩)

/-- Corners and ends of lines are ends of edges. -/
theorem ends_drawn (hB : IsBox points tags rock) {v : Vtx}
    (h : v ∈ corners points ++ (lineEdges points.length p lines).flatMap fun e => [e.first, e.second]) :
    ∃ (i : Nat) (e : LEdge), (drawn rock (lineEdges points.length p lines))[i]? = some (some e) ∧
      v ∈ [e.first, e.second] := by
  rcases List.mem_append.1 h with h | h
  · obtain ⟨k, hk⟩ := List.mem_iff_getElem?.1 h
    have hlt := (List.getElem?_eq_some_iff.1 hk).1
    rw [corners_length, ← hB.length] at hlt
    refine ⟨k, _, drawn_side hlt, ?_⟩
    obtain ⟨-, -, a, b, h1, h2, h3⟩ := hB.side k _ (List.getElem?_eq_getElem hlt)
    rw [hk, Option.some.injEq] at h1
    subst h1
    simp only [bare, List.mem_cons, List.not_mem_nil, or_false]
    split at h3
    · exact Or.inr h3.2.symm
    · exact Or.inl h3.1.symm
  · obtain ⟨l, hl, hv⟩ := List.mem_flatMap.1 h
    obtain ⟨j, hj⟩ := List.mem_iff_getElem?.1 hl
    exact ⟨rock.length + 1 + j, bare l, by rw [drawn_line, hj]; rfl, hv⟩

/-- The vertices in the graph -/
theorem node_kept (hB : IsBox points tags rock) {etag : Int}
    (hD : Drawing (axesOf 2) (drawn rock (lineEdges points.length p lines)))
    (F : IsFragments (fun i => {z | CutAt (drawn rock (lineEdges points.length p lines)) i z})
      (drawn rock (lineEdges points.length p lines)) etag (points.length + 2 * lines.length) ptag out)
    (hi : out.items = sides.map some ++ none :: cut.map some) (hl : sides.length = rock.length) {v w : Vtx}
    (hv : v.tag = 0) (hw : w ∈ allVertices points (lineEdges points.length p lines) out.vertices) :
    (w.tag = v.tag ∨ ∃ e ∈ allPieces sides ++ cut.map whole ++ allParts cut, w.tag = e.first.tag ∨ w.tag = e.second.tag) ↔
      (w.tag = 0 ∨ w ∈ out.vertices ∨ ¬ ∃ i, CutAt (drawn rock (lineEdges points.length p lines)) i w.point) := by
  set items := drawn rock (lineEdges points.length p lines) with hitems
  have once : Once out.vertices := F.sorted.imp fun h => h.2
  -- an edge of the result, and what it was
  have old : ∀ {i : Nat} {e' : LEdge}, out.items[i]? = some (some e') → ∃ e, items[i]? = some (some e) ∧
      ∃ t, IsCut out.vertices {z | CutAt items i z} e e' t := by
    intro i e' h
    have hlt : i < items.length := by
      rw [← F.length]
      exact (List.getElem?_eq_some_iff.1 h).1
    cases hx : items[i] with
    | none =>
      have := F.wires i (by rw [List.getElem?_eq_getElem hlt, hx])
      rw [h] at this
      simp at this
    | some e =>
      have hx' : items[i]? = some (some e) := by rw [List.getElem?_eq_getElem hlt, hx]
      obtain ⟨e'', h1, h2⟩ := F.cut i e hx'
      rw [h, Option.some.injEq, Option.some.injEq] at h1
      subst h1
      exact ⟨e, hx', _, h2⟩
  have key : (∃ e ∈ allPieces sides ++ cut.map whole ++ allParts cut, w.tag = e.first.tag ∨ w.tag = e.second.tag) ↔
      ∃ (i : Nat) (e' : LEdge), out.items[i]? = some (some e') ∧ ∃ u, OnPieces e' u ∧ w.tag = u.tag := by
    constructor
    · rintro ⟨q, hq, hwq⟩
      have : ∃ (i : Nat) (e' : LEdge), out.items[i]? = some (some e') ∧ OnPieces e' q.first ∧ OnPieces e' q.second := by
        simp only [List.mem_append, List.mem_map] at hq
        rcases hq with (hq | ⟨e, he, rfl⟩) | hq
        · obtain ⟨e, he, hq⟩ := List.mem_flatMap.1 hq
          obtain ⟨k, hk⟩ := List.mem_iff_getElem?.1 he
          exact ⟨k, e, items_side hi hk, ⟨q, hq, Or.inl rfl⟩, ⟨q, hq, Or.inr rfl⟩⟩
        · obtain ⟨k, hk⟩ := List.mem_iff_getElem?.1 he
          obtain ⟨e0, he0, t, hcut⟩ := old (items_line hi hk)
          exact ⟨_, e, items_line hi hk, onPieces_ends hcut⟩
        · obtain ⟨e, he, hq⟩ := List.mem_flatMap.1 hq
          obtain ⟨k, hk⟩ := List.mem_iff_getElem?.1 he
          have hq' : q ∈ e.pieces := by
            unfold LEdge.pieces
            rw [if_neg (List.ne_nil_of_mem hq)]
            exact hq
          exact ⟨_, e, items_line hi hk, ⟨q, hq', Or.inl rfl⟩, ⟨q, hq', Or.inr rfl⟩⟩
      obtain ⟨i, e', h1, h2, h3⟩ := this
      rcases hwq with h | h
      · exact ⟨i, e', h1, _, h2, h⟩
      · exact ⟨i, e', h1, _, h3, h⟩
    · rintro ⟨i, e', h1, u, ⟨q, hq, hu⟩, hwu⟩
      refine ⟨q, ?_, by rcases hu with rfl | rfl; exacts [Or.inl hwu, Or.inr hwu]⟩
      simp only [List.mem_append, List.mem_map]
      rcases items_cases hi h1 with h | ⟨j, -, h⟩
      · exact Or.inl (Or.inl (List.mem_flatMap.2 ⟨e', List.mem_of_getElem? h, hq⟩))
      · unfold LEdge.pieces at hq
        split at hq
        · exact Or.inl (Or.inr ⟨e', List.mem_of_getElem? h, (List.mem_singleton.1 hq).symm⟩)
        · exact Or.inr (List.mem_flatMap.2 ⟨e', List.mem_of_getElem? h, hq⟩)
  rw [hv, key]
  refine or_congr_right ?_
  constructor
  · rintro ⟨i, e', h1, u, h2, h3⟩
    obtain ⟨e, he, t, hcut⟩ := old h1
    have hfresh := hD.fresh e (List.mem_of_getElem? he)
    rcases onPieces_old hcut h2 with h4 | ⟨h4, h5⟩
    · left
      have : w = u := allVertices_eq F hw (List.mem_append_right _ h4) h3
      rw [this]
      exact h4
    · right
      have : w = u := allVertices_eq F hw (List.mem_append_left _ (drawn_ends hB he h4)) h3
      rw [this]
      rintro ⟨a, ha⟩
      exact h5 (cut_all ha he h4 rfl hfresh.2)
  · rintro (h | h)
    · obtain ⟨i, hcut⟩ := (F.points w.point).1 ⟨w, h, rfl⟩
      have hcut' := hcut
      obtain ⟨e, -, -, he, -⟩ := hcut'
      obtain ⟨e', h1, h2⟩ := F.cut i e he
      exact ⟨i, e', h1, w, onPieces_new h2 once h hcut, rfl⟩
    · rcases List.mem_append.1 hw with hw | hw
      · obtain ⟨i, e, he, hm⟩ := ends_drawn hB hw
        obtain ⟨e', h1, h2⟩ := F.cut i e he
        exact ⟨i, e', h1, w, onPieces_uncut h2 hm (fun hc => h ⟨i, hc⟩), rfl⟩
      · exact absurd ((F.points w.point).1 ⟨w, hw, rfl⟩) h

end
end Verif.LinesBox
