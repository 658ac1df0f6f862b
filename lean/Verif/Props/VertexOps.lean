/-
C45, C46 and C47: splitting edges at vertices, intersecting vertices with edges.
-/
import Verif.Lemmas.VertexEdge
import Verif.Props.FractureNetwork
import Verif.Props.LineGeometry

namespace Verif.VertexOps
open MeshBuild MeshGraph Trace MeshMetrics Geometry
open scoped Classical

/-! ### C45 -/

/-- C45.  Without a vertex on the edge nothing is made. -/
theorem C45_none {P : Params} {tools : List Vtx} {edge : Edg} {tag : Int} {eps : ℝ}
    (h : Clear P tools edge eps) (hn : ¬ ∃ v, OnEdge tools edge v) :
    verticesEdgeDifference P tools edge tag eps = .ok ([], []) := by
  rcases difference_spec (tag := tag) h with ⟨-, e⟩ | ⟨h1, -⟩
  · exact e
  · exact absurd h1 hn

/-- C45.  Otherwise the edge is split at its end points and the points of the vertices on it. -/
theorem C45_split {P : Params} {tools : List Vtx} {edge : Edg} {tag : Int} {eps : ℝ}
    (h : Clear P tools edge eps) (hn : ∃ v, OnEdge tools edge v) :
    ∃ chain edges vertices, IsChain tools edge chain ∧
      verticesEdgeDifference P tools edge tag eps = .ok (edges, vertices) ∧
      IsSplitting tools edge tag chain edges vertices := by
  rcases difference_spec (tag := tag) h with ⟨h1, -⟩ | ⟨-, h2⟩
  · exact absurd hn h1
  · exact h2

/-- C45.  The tags of the new edges and of the new vertices are pairwise distinct. -/
theorem C45_tags {tools : List Vtx} {edge : Edg} {tag : Int} {chain : List (Pt ℝ)}
    {edges : List Edg} {vertices : List Vtx}
    (h : IsSplitting tools edge tag chain edges vertices) :
    ((created vertices).map Vtx.tag ++ edges.map Edg.tag).Nodup ∧
    ∀ t ∈ (created vertices).map Vtx.tag ++ edges.map Edg.tag, tag ≤ t :=
  ⟨h.tags.nodup_iff.2 (nodup_consec _ _), fun t ht => (mem_consec.1 (h.tags.mem_iff.1 ht)).1⟩

/-- C45.  Two consecutive edges meet in a point, but each has its own vertex there, with its own
tag: the new edges share no vertex. -/
theorem C45_joint {tools : List Vtx} {edge : Edg} {tag : Int} {chain : List (Pt ℝ)}
    {edges : List Edg} {vertices : List Vtx}
    (h : IsSplitting tools edge tag chain edges vertices) {i : Nat} {e e' : Edg}
    (he : edges[i]? = some e) (he' : edges[i + 1]? = some e') :
    ∃ w v, (e.first = w ∨ e.second = w) ∧ (e'.first = v ∨ e'.second = v) ∧
      w.point = v.point ∧ w.tag ≠ v.tag := by
  obtain ⟨-, v0, w0, -, h2, -, h4, h5⟩ := h.joined i e he
  obtain ⟨-, v1, w1, k1, -, k3, -, k5⟩ := h.joined (i + 1) e' he'
  refine ⟨w0, v1, ?_, ?_, ?_, ?_⟩
  · rcases h5 with h5 | h5
    · exact Or.inr h5.2
    · exact Or.inl h5.1
  · rcases k5 with k5 | k5
    · exact Or.inl k5.1
    · exact Or.inr k5.2
  · rw [h4] at k3; exact Option.some.inj k3
  · have hlen : i + 1 < edges.length := (List.getElem?_eq_some_iff.1 he').1
    have hsize := h.size
    have get : ∀ j : Nat, j + 2 < vertices.length → (created vertices)[j]? = vertices[j + 1]? := by
      intro j hj
      unfold created
      rw [List.getElem?_dropLast, List.getElem?_tail, List.length_tail, if_pos (by omega)]
    have g1 := get (2 * i) (by omega)
    have g2 := get (2 * i + 1) (by omega)
    rw [h2] at g1
    rw [show 2 * i + 1 + 1 = 2 * (i + 1) by ring, k1] at g2
    intro e
    have hn := (List.nodup_append.1 (C45_tags h).1).1
    obtain ⟨l1, q1⟩ := List.getElem?_eq_some_iff.1 g1
    obtain ⟨l2, q2⟩ := List.getElem?_eq_some_iff.1 g2
    have := (List.Nodup.getElem_inj_iff hn (i := 2 * i) (j := 2 * i + 1) (hi := by simpa using l1)
      (hj := by simpa using l2)).1 (by simp [q1, q2, e])
    omega

theorem not_close {r t : ℝ} {x y : Pt ℝ} (k : Fin 3) (h : t + r * |y k| < |x k - y k|) :
    ¬ Close r t x y := fun hc => absurd (hc k) (not_le.2 h)

/-- An edge of length 4 and five vertices: two inside, one of them twice, one at the end and one off
the edge. -/
def exEdge : Edg := ⟨7, some 3, ⟨1, none, ![0, 0, 0]⟩, ⟨2, none, ![4, 0, 0]⟩⟩

def exTools : List Vtx :=
  [⟨10, none, ![3, 0, 0]⟩, ⟨11, none, ![1, 0, 0]⟩, ⟨12, none, ![3, 0, 0]⟩, ⟨13, none, ![4, 0, 0]⟩,
    ⟨14, none, ![1, 5, 0]⟩]

noncomputable def exParams (argsort : List ℝ → List Nat) : Params :=
  ⟨fun _ => [4, 1, 0, 3], argsort, 1 / 10 ^ 10, 1 / 10 ^ 10⟩

theorem ex_clear {argsort : List ℝ → List Nat} (hs : Fracture.IsArgsort argsort) :
    Clear (exParams argsort) exTools exEdge (1 / 10 ^ 10) := by
  refine ⟨?_, by norm_num, by norm_num [exParams], ⟨?_, ?_, ?_⟩, hs, ?_, ?_, ?_⟩
  · intro h
    have := congrFun h 0
    simp [exEdge] at this
  · simp [exParams, exTools]
  · simp [exParams, exTools]
  · simp only [exParams, exTools, List.map_cons, List.map_nil, List.pairwise_cons, List.mem_cons,
      List.not_mem_nil, or_false, forall_eq_or_imp, forall_eq]
    simp
  · intro v hv hoff
    have hin : ∀ x : ℝ, 0 ≤ x → x ≤ 4 → (![x, 0, 0] : Pt ℝ) ∈ segment ℝ (![0, 0, 0] : Pt ℝ) ![4, 0, 0] := by
      intro x h0 h4
      refine mem_segment_iff.2 ⟨x / 4, by linarith, by linarith, ?_⟩
      refine pt_ext ?_ ?_ ?_ <;> simp
    simp only [exTools, List.mem_cons, List.not_mem_nil, or_false] at hv
    simp only [exEdge] at hoff
    rcases hv with rfl | rfl | rfl | rfl | rfl
    · exact absurd (hin 3 (by norm_num) (by norm_num)) hoff
    · exact absurd (hin 1 (by norm_num) (by norm_num)) hoff
    · exact absurd (hin 3 (by norm_num) (by norm_num)) hoff
    · exact absurd (hin 4 (by norm_num) (by norm_num)) hoff
    · simp only [exEdge, exParams]
      unfold pointLineIntersection
      rw [if_neg (not_close 1 (by norm_num)), if_neg (not_close 1 (by norm_num)), if_neg]
      intro h
      unfold PointLineIncidence IsClose colinearMeasurement at h
      have h1 := abs_le_norm3 (cross ((![1, 5, 0] : Pt ℝ) - ![4, 0, 0])
        ((![0, 0, 0] : Pt ℝ) - ![4, 0, 0])) 2
      have h2 : |cross ((![1, 5, 0] : Pt ℝ) - ![4, 0, 0]) ((![0, 0, 0] : Pt ℝ) - ![4, 0, 0]) 2| =
          20 := by
        rw [cross_2]; simp; norm_num
      rw [h2] at h1
      rw [sub_zero, abs_of_nonneg (by linarith), abs_zero] at h
      have h3 : (1 : ℝ) / 10 ^ 10 < 1 := by norm_num
      linarith
  · intro v hv hne
    simp only [exTools, List.mem_cons, List.not_mem_nil, or_false] at hv
    simp only [exEdge, exParams, DefaultClose]
    rcases hv with rfl | rfl | rfl | rfl | rfl <;>
      exact ⟨not_close 0 (by norm_num), not_close 0 (by norm_num), not_close 0 (by norm_num)⟩
  · intro v hv hne
    simp only [exTools, List.mem_cons, List.not_mem_nil, or_false] at hv
    simp only [exEdge, exParams, DefaultClose] at *
    rcases hv with rfl | rfl | rfl | rfl | rfl
    · exact ⟨not_close 0 (by norm_num), not_close 0 (by norm_num), not_close 0 (by norm_num)⟩
    · exact ⟨not_close 0 (by norm_num), not_close 0 (by norm_num), not_close 0 (by norm_num)⟩
    · exact ⟨not_close 0 (by norm_num), not_close 0 (by norm_num), not_close 0 (by norm_num)⟩
    · exact absurd rfl hne
    · exact ⟨not_close 0 (by norm_num), not_close 0 (by norm_num), not_close 0 (by norm_num)⟩

/-- The hypotheses hold in the example, and a vertex is on the edge. -/
example : ∃ P : Params, P.collapse = 1 / 10 ^ 10 ∧ P.incidence = 1 / 10 ^ 10 ∧
    Clear P exTools exEdge (1 / 10 ^ 10) ∧ ∃ v, OnEdge exTools exEdge v := by
  obtain ⟨argsort, hs⟩ := Fracture.exists_argsort
  refine ⟨exParams argsort, rfl, rfl, ex_clear hs, ⟨13, none, ![4, 0, 0]⟩, by simp [exTools], ?_⟩
  exact right_mem_segment ℝ _ _

/-- In the example the edge is split at four points into three edges, and the tool at the second end
replaces the edge's own vertex. -/
example {argsort : List ℝ → List Nat} (hs : Fracture.IsArgsort argsort) :
    ∃ edges vertices, verticesEdgeDifference (exParams argsort) exTools exEdge 20 (1 / 10 ^ 10) =
        .ok (edges, vertices) ∧ (edges.map Edg.tag).Nodup ∧ vertices.length = 2 * edges.length ∧
      vertices.head? = some ⟨1, none, ![0, 0, 0]⟩ ∧
      ∃ v ∈ exTools, vertices.getLast? = some v := by
  have hon : ∃ v, OnEdge exTools exEdge v :=
    ⟨⟨13, none, ![4, 0, 0]⟩, by simp [exTools], right_mem_segment ℝ _ _⟩
  obtain ⟨chain, edges, vertices, -, h2, h3⟩ := C45_split (tag := 20) (ex_clear hs) hon
  refine ⟨edges, vertices, h2, (List.nodup_append.1 (C45_tags h3).1).2.1, h3.size, ?_, ?_⟩
  · obtain ⟨v, h4, h5, h6⟩ := h3.startV
    rw [if_neg] at h6
    · rw [h4, h6]; rfl
    · rintro ⟨t, ht, e⟩
      have e := congrFun e 0
      simp only [exTools, List.mem_cons, List.not_mem_nil, or_false] at ht
      rcases ht with rfl | rfl | rfl | rfl | rfl <;> simp [exEdge] at e
  · obtain ⟨v, h4, h5, h6⟩ := h3.endV
    rw [if_pos ⟨⟨13, none, ![4, 0, 0]⟩, by simp [exTools], rfl⟩] at h6
    exact ⟨v, h6, h4⟩

/-! ### C46 -/

/-- C46.  All new shapes of all edges have pairwise distinct tags, at least the start tag, and each
edge is split as in C45. -/
theorem C46_tags {P : Params} {tools : List Vtx} {eps : ℝ} (edges : List Edg) (tag : Int)
    (h : ∀ e ∈ edges, Clear P tools e eps) :
    ∃ out, verticesEdgesDifference P tools eps tag edges = .ok out ∧
      List.Forall₂ (IsResult tools) edges out ∧
      (out.flatMap newTags).Nodup ∧ ∀ t ∈ out.flatMap newTags, tag ≤ t :=
  differences_spec edges tag h

example : ∃ P : Params, ∀ e ∈ [exEdge, exEdge], Clear P exTools e (1 / 10 ^ 10) := by
  obtain ⟨argsort, hs⟩ := Fracture.exists_argsort
  refine ⟨exParams argsort, fun e he => ?_⟩
  simp only [List.mem_cons, List.not_mem_nil, or_false, or_self] at he
  subst he
  exact ex_clear hs

/-! ### C47 -/

/-- C47, partial: the intersections of one edge get consecutive tags, when the tools have distinct
tags. -/
theorem C47_edge_partial {P : Params} {edge : ERef} {eps : ℝ} (hne : edge.first ≠ edge.second)
    {tools : List Nat} {s : List Vtx} (hv : Valid s tools edge)
    (hd : (tools.map fun t => (s[t]?).map Vtx.tag).Nodup) (tag : Int) :
    ∃ s' refs ts vs, verticesEdge P s tools edge tag eps = .ok (s', refs, ts) ∧ refs.Nodup ∧
      fancy s' refs = .ok vs ∧ vs.map Vtx.tag = consec tag refs.length ∧ (vs.map Vtx.tag).Nodup := by
  obtain ⟨s', refs, ts, vs, h1, h2, -, -, h3, h4⟩ := verticesEdge_spec (P := P) (eps := eps) hne hv hd tag
  exact ⟨s', refs, ts, vs, h1, h2, h3, h4, by rw [h4]; exact nodup_consec _ _⟩

/-- C47, partial: with zero tolerances the tools with an intersection are those with a point on the
edge, and the intersection has the point of the tool. -/
theorem C47_exact_partial {P : Params} (hP : P.incidence = 0) (hc : P.collapse = 0) {edge : ERef}
    {tools : List Nat} {s s' : List Vtx} {refs ts : List Nat} {tag : Int} {a b : Vtx}
    (hv : Valid s tools edge) (ha : s[edge.first]? = some a) (hb : s[edge.second]? = some b)
    (h : verticesEdge P s tools edge tag 0 = .ok (s', refs, ts)) :
    (∀ t, t ∈ ts ↔ t ∈ tools ∧ ∃ v, s[t]? = some v ∧ v.point ∈ segment ℝ a.point b.point) ∧
    List.Forall₂ (fun (t r : Nat) => (s'[r]?).map Vtx.point = (s[t]?).map Vtx.point) ts refs := by
  unfold verticesEdge at h
  obtain ⟨⟨s1, rs⟩, h1, h2⟩ := Res.bind_eq_ok.1 h
  cases h2
  obtain ⟨-, h3⟩ := mapVertexEdge_exact hP hc tools s s1 rs hv h1
  have h4 := h3 a b ha hb
  have h5 : List.Forall₂ (fun (t : Nat) (r : Option Nat) =>
      (r.isSome ↔ ∃ v, s[t]? = some v ∧ v.point ∈ segment ℝ a.point b.point) ∧
      ∀ q, r = some q → ((retag s1 tag (rs.filterMap id))[q]?).map Vtx.point =
        (s[t]?).map Vtx.point) tools rs := by
    refine List.forall₂_iff_get.2 ⟨h4.length_eq, fun i k1 k2 => ?_⟩
    have k := List.Forall₂.get h4 k1 k2
    have ht := List.getElem?_eq_getElem (hv.tools (tools.get ⟨i, k1⟩) (List.get_mem _ _))
    obtain ⟨q1, q2⟩ := k _ ht
    refine ⟨⟨fun hr => ⟨_, ht, q1.1 hr⟩, ?_⟩, fun q hq => ?_⟩
    · rintro ⟨v, hv', hm⟩
      rw [ht] at hv'; cases hv'
      exact q1.2 hm
    · rw [retag_point, q2 q hq, ht]; rfl
  obtain ⟨m1, m2, m3⟩ := masked h5
  exact ⟨fun t => ⟨m1 t, fun ht => m2 t ht.1 ht.2⟩, m3⟩

/-- C47, partial: the intersection of a vertex and an edge is at an end of the edge, or it is at the
vertex and the vertex is not within the tolerances of an end. -/
theorem C47_snap_partial {P : Params} {s s' : List Vtx} {tool r : Nat} {edge : ERef} {tag : Int}
    {eps : ℝ} {v a b w : Vtx} (hv : s[tool]? = some v) (ha : s[edge.first]? = some a)
    (hb : s[edge.second]? = some b) (h : vertexEdge P s tool edge tag eps = .ok (s', some r))
    (hw : s'[r]? = some w) :
    (w.point = a.point ∨ w.point = b.point) ∨
    (w.point = v.point ∧ ¬ Close P.collapse P.collapse a.point v.point ∧
      ¬ Close P.collapse P.collapse b.point v.point ∧ ¬ Close eps eps v.point a.point ∧
      ¬ Close eps eps v.point b.point) := by
  have halloc : ∀ {x : Pt ℝ} {s : List Vtx}, alloc s tag x = (s', some r) → w.point = x := by
    intro x s e
    unfold alloc at e
    cases e
    rw [List.getElem?_append_right (Nat.le_refl _), Nat.sub_self] at hw
    cases hw
    rfl
  unfold vertexEdge at h
  rw [getIdx_of hv, Res.bind_ok] at h
  obtain ⟨⟨s1, bc⟩, h1, h⟩ := Res.bind_eq_ok.1 h
  unfold vertexEdgeBoundary at h1
  rw [getIdx_of ha, Res.bind_ok, getIdx_of hb, Res.bind_ok] at h1
  split at h1
  · cases h1
    cases h
    rw [ha] at hw
    cases hw
    exact Or.inl (Or.inl rfl)
  split at h1
  · cases h1
    cases h
    rw [hb] at hw
    cases hw
    exact Or.inl (Or.inr rfl)
  split at h1
  · cases h1
    cases h
    exact Or.inl (Or.inl (halloc rfl))
  rename_i hna
  split at h1
  · cases h1
    cases h
    exact Or.inl (Or.inr (halloc rfl))
  rename_i hnb
  cases h1
  simp only at h
  rw [getIdx_of ha, Res.bind_ok, getIdx_of hb, Res.bind_ok] at h
  split at h
  · rename_i x hx
    have hwx : w.point = x := halloc (Except.ok.inj h)
    unfold pointLineIntersection at hx
    split at hx
    · cases hx; exact Or.inl (Or.inl hwx)
    split at hx
    · cases hx; exact Or.inl (Or.inr hwx)
    rename_i k1 k2
    split at hx
    · dsimp only at hx
      split at hx
      · cases hx; exact Or.inr ⟨hwx, k1, k2, hna, hnb⟩
      · cases hx
    · cases hx
  · cases h

/-- C47 fails: an edge without intersections stops the function. -/
theorem C47_no_intersection {P : Params} {tools : List Nat} {eps : ℝ} {s s' : List Vtx} {tag : Int}
    {edge : ERef} {edges : List ERef} {ts : List Nat}
    (h : verticesEdge P s tools edge tag eps = .ok (s', [], ts)) :
    verticesEdges P tools eps s tag (edge :: edges) = .error .valueError := by
  unfold verticesEdges
  rw [h]
  rfl

/-- C47 fails: the first intersection of an edge gets the tag of the last one of the edge before. -/
theorem C47_collides {P : Params} {tools : List Nat} {eps : ℝ} {s s1 s2 : List Vtx} {tag : Int}
    {e1 e2 : ERef} {refs1 refs2 ts1 ts2 : List Nat} {r : Nat}
    (hne1 : e1.first ≠ e1.second) (hv1 : Valid s tools e1)
    (hd1 : (tools.map fun t => (s[t]?).map Vtx.tag).Nodup)
    (hne2 : e2.first ≠ e2.second) (hv2 : Valid s1 tools e2)
    (hd2 : (tools.map fun t => (s1[t]?).map Vtx.tag).Nodup)
    (h1 : verticesEdge P s tools e1 tag eps = .ok (s1, refs1, ts1)) (hr : refs1 ≠ [])
    (h2 : verticesEdge P s1 tools e2 (tag + refs1.length - 1) eps = .ok (s2, r :: refs2, ts2)) :
    verticesEdges P tools eps s tag [e1, e2] =
      .ok (s2, [(e1, refs1, ts1), (e2, r :: refs2, ts2)]) ∧
    ∃ r1 ∈ refs1, (s1[r1]?).map Vtx.tag = (s2[r]?).map Vtx.tag ∧ ((s2[r]?).map Vtx.tag).isSome := by
  obtain ⟨_, _, _, vs1, g1, g2, -, -, g3, g4⟩ := verticesEdge_spec (P := P) (eps := eps) hne1 hv1 hd1 tag
  rw [h1] at g1; cases g1
  obtain ⟨_, _, _, vs2, k1, -, -, -, k3, k4⟩ := verticesEdge_spec (P := P) (eps := eps) hne2 hv2 hd2
    (tag + refs1.length - 1)
  rw [h2] at k1; cases k1
  have hlen : 0 < refs1.length := List.length_pos_of_ne_nil hr
  have hmax : maxTag (vs1.map Vtx.tag) = .ok (tag + refs1.length - 1) := by
    obtain ⟨t, t1, t2, t3⟩ := maxTag_spec (l := vs1.map Vtx.tag) (by
      rw [g4]; intro e
      have := congrArg List.length e
      simp only [consec, List.length_map, List.length_range, List.length_nil] at this
      omega)
    rw [t1]
    have a1 := (mem_consec.1 (g4 ▸ t2)).2
    have a2 := t3 (tag + refs1.length - 1) (by rw [g4]; exact mem_consec.2 ⟨by omega, by omega⟩)
    congr 1
    omega
  constructor
  · obtain ⟨t, t1, -⟩ := maxTag_spec (l := vs2.map Vtx.tag) (by
      rw [k4]; simp [consec, List.range_succ])
    unfold verticesEdges
    rw [h1, Res.bind_ok]
    simp only
    rw [g3, Res.bind_ok, hmax, Res.bind_ok]
    unfold verticesEdges
    rw [h2, Res.bind_ok]
    simp only
    rw [k3, Res.bind_ok, t1, Res.bind_ok]
    rfl
  · have hs : s2[r]?.map Vtx.tag = some (tag + refs1.length - 1) := by
      rw [fancy_iff] at k3
      cases k3 with
      | @cons _ v _ vs hv _ =>
        rw [hv, Option.map_some]
        rw [List.map_cons, List.length_cons, Nat.add_comm, consec_append] at k4
        have := (List.cons.inj k4).1
        rw [this]; simp
    rw [hs]
    have hm : (tag + refs1.length - 1) ∈ vs1.map Vtx.tag := by
      rw [g4]; exact mem_consec.2 ⟨by omega, by omega⟩
    obtain ⟨v, hv, hvt⟩ := List.mem_map.1 hm
    rw [fancy_iff] at g3
    obtain ⟨k, hk, rfl⟩ := List.getElem_of_mem hv
    have hk' : k < refs1.length := by rw [g3.length_eq]; exact hk
    have := List.Forall₂.get g3 hk' hk
    simp only [List.get_eq_getElem] at this
    exact ⟨_, List.getElem_mem hk', by rw [this, Option.map_some, hvt], rfl⟩

/-- Two edges that cross in the point of the tool. -/
def exStore : List Vtx :=
  [⟨5, none, ![1, 0, 0]⟩, ⟨1, none, ![0, 0, 0]⟩, ⟨2, none, ![2, 0, 0]⟩, ⟨3, none, ![1, -1, 0]⟩,
    ⟨4, none, ![1, 1, 0]⟩]

theorem vertexEdge_inside {P : Params} (hc : P.collapse = 1 / 10 ^ 10)
    (hi : P.incidence = 1 / 10 ^ 10) {s : List Vtx} {t : Nat} {v a b : Vtx} {edge : ERef} {tag : Int}
    (hv : s[t]? = some v) (ha : s[edge.first]? = some a) (hb : s[edge.second]? = some b)
    (h1 : ¬ Close (1 / 10 ^ 10) (1 / 10 ^ 10) v.point a.point)
    (h2 : ¬ Close (1 / 10 ^ 10) (1 / 10 ^ 10) v.point b.point)
    (h3 : ¬ Close (1 / 10 ^ 10) (1 / 10 ^ 10) a.point v.point)
    (h4 : ¬ Close (1 / 10 ^ 10) (1 / 10 ^ 10) b.point v.point)
    (h5 : v.point ∈ segment ℝ a.point b.point) :
    vertexEdge P s t edge tag (1 / 10 ^ 10) = .ok (s ++ [⟨tag, none, v.point⟩], some s.length) := by
  have e : vertexEdgeBoundary P s v edge tag (1 / 10 ^ 10) = .ok (s, none) := by
    unfold vertexEdgeBoundary
    rw [getIdx_of ha, Res.bind_ok, getIdx_of hb, Res.bind_ok]
    unfold StrongEquality SameGeometry
    rw [hi, if_neg (fun h => h1 h.2), if_neg (fun h => h2 h.2), if_neg h1, if_neg h2]
    rfl
  have hp : pointLineIntersection P.collapse v.point a.point b.point P.incidence = some v.point := by
    obtain ⟨x, hx, hx'⟩ := pointLine_complete (ctol := P.collapse) (eps := P.incidence) h5
      (by rw [hi]; norm_num)
    rw [hx]
    unfold pointLineIntersection at hx
    rw [hc, if_neg h3, if_neg h4] at hx
    split at hx
    · dsimp only at hx
      split at hx
      · exact hx.symm
      · cases hx
    · cases hx
  unfold vertexEdge
  rw [getIdx_of hv, Res.bind_ok, e, Res.bind_ok]
  simp only [getIdx_of ha, getIdx_of hb, Res.bind_ok, hp]
  rfl

/-- C47 fails with the tolerances of the code: both intersections get the tag 100. -/
theorem C47_witness {P : Params} (hc : P.collapse = 1 / 10 ^ 10) (hi : P.incidence = 1 / 10 ^ 10) :
    ∃ (s' : List Vtx) (v w : Vtx), verticesEdges P [0] (1 / 10 ^ 10) exStore 100 [⟨8, 1, 2⟩, ⟨9, 3, 4⟩] =
        .ok (s', [(⟨8, 1, 2⟩, [5], [0]), (⟨9, 3, 4⟩, [6], [0])]) ∧
      s'[5]? = some v ∧ s'[6]? = some w ∧ v.tag = w.tag := by
  have m1 : (![1, 0, 0] : Pt ℝ) ∈ segment ℝ (![0, 0, 0] : Pt ℝ) ![2, 0, 0] :=
    mem_segment_iff.2 ⟨1 / 2, by norm_num, by norm_num, by refine pt_ext ?_ ?_ ?_ <;> simp⟩
  have m2 : (![1, 0, 0] : Pt ℝ) ∈ segment ℝ (![1, -1, 0] : Pt ℝ) ![1, 1, 0] :=
    mem_segment_iff.2 ⟨1 / 2, by norm_num, by norm_num, by
      refine pt_ext ?_ ?_ ?_ <;> simp; norm_num⟩
  have s1 : verticesEdge P exStore [0] ⟨8, 1, 2⟩ 100 (1 / 10 ^ 10) =
      .ok (exStore ++ [⟨100, none, ![1, 0, 0]⟩], [5], [0]) := by
    unfold verticesEdge mapVertexEdge mapVertexEdge
    rw [vertexEdge_inside (edge := ⟨8, 1, 2⟩) (v := ⟨5, none, ![1, 0, 0]⟩)
      (a := ⟨1, none, ![0, 0, 0]⟩) (b := ⟨2, none, ![2, 0, 0]⟩) hc hi rfl rfl rfl
      (not_close 0 (by norm_num)) (not_close 0 (by norm_num)) (not_close 0 (by norm_num))
      (not_close 0 (by norm_num)) m1]
    rfl
  have s2 : verticesEdge P (exStore ++ [⟨100, none, ![1, 0, 0]⟩]) [0] ⟨9, 3, 4⟩ 100 (1 / 10 ^ 10) =
      .ok (exStore ++ [⟨100, none, ![1, 0, 0]⟩, ⟨100, none, ![1, 0, 0]⟩], [6], [0]) := by
    unfold verticesEdge mapVertexEdge mapVertexEdge
    rw [vertexEdge_inside (edge := ⟨9, 3, 4⟩) (v := ⟨5, none, ![1, 0, 0]⟩)
      (a := ⟨3, none, ![1, -1, 0]⟩) (b := ⟨4, none, ![1, 1, 0]⟩) hc hi rfl rfl rfl
      (not_close 1 (by norm_num)) (not_close 1 (by norm_num)) (not_close 1 (by norm_num))
      (not_close 1 (by norm_num)) m2]
    rfl
  refine ⟨exStore ++ [⟨100, none, ![1, 0, 0]⟩, ⟨100, none, ![1, 0, 0]⟩], _, _, ?_, rfl, rfl, rfl⟩
  unfold verticesEdges
  rw [s1, Res.bind_ok]
  have e : verticesEdges P [0] (1 / 10 ^ 10) (exStore ++ [⟨100, none, ![1, 0, 0]⟩]) 100
      [⟨9, 3, 4⟩] = .ok (exStore ++ [⟨100, none, ![1, 0, 0]⟩, ⟨100, none, ![1, 0, 0]⟩],
        [(⟨9, 3, 4⟩, [6], [0])]) := by
    unfold verticesEdges
    rw [s2]
    rfl
  show (Except.bind (verticesEdges P [0] (1 / 10 ^ 10) (exStore ++ [⟨100, none, ![1, 0, 0]⟩]) 100
    [⟨9, 3, 4⟩]) _) = _
  rw [e]
  rfl

/-- The hypotheses on one edge hold in the example. -/
example : Valid exStore [0] ⟨8, 1, 2⟩ ∧ ([0].map fun t => (exStore[t]?).map Vtx.tag).Nodup :=
  ⟨⟨by simp [exStore], by simp [exStore], by simp [exStore]⟩, by simp⟩

/-- Without tools there is no intersection. -/
example (P : Params) (s : List Vtx) (edge : ERef) (tag : Int) (eps : ℝ) :
    verticesEdges P [] eps s tag [edge] = .error .valueError :=
  C47_no_intersection (s' := s) (ts := []) rfl

/-- A vertex of the edge itself is its own intersection, and gets a new tag. -/
example {P : Params} (hi : P.incidence = 0) :
    verticesEdge P exStore [1] ⟨8, 1, 2⟩ 100 0 =
      .ok (exStore.set 1 ⟨100, none, ![0, 0, 0]⟩, [1], [1]) := by
  have h : StrongEquality P ⟨1, none, ![0, 0, 0]⟩ ⟨1, none, ![0, 0, 0]⟩ :=
    ⟨⟨rfl, close_self (by norm_num) (by norm_num) _⟩, by
      unfold SameGeometry; rw [hi]; exact close_self le_rfl le_rfl _⟩
  have e : vertexEdge P exStore 1 ⟨8, 1, 2⟩ minTag 0 = .ok (exStore, some 1) := by
    unfold vertexEdge vertexEdgeBoundary
    have e1 : getIdx exStore 1 = .ok ⟨1, none, ![0, 0, 0]⟩ := rfl
    have e2 : getIdx exStore 2 = .ok ⟨2, none, ![2, 0, 0]⟩ := rfl
    simp only [e1, e2, Res.bind_ok, if_pos h]
    rfl
  unfold verticesEdge mapVertexEdge mapVertexEdge
  rw [e]
  rfl

#print axioms C45_none
#print axioms C45_split
#print axioms C45_tags
#print axioms C45_joint
#print axioms C46_tags
#print axioms C47_edge_partial
#print axioms C47_exact_partial
#print axioms C47_no_intersection
#print axioms C47_collides
#print axioms C47_witness

#print axioms C47_snap_partial

end Verif.VertexOps
