/-
C88: the intersection of a domain of vertices with a domain of edges.
C89: collapse and intersection of vertices and edges.
-/
import Verif.Lemmas.EdgeOps
import Verif.Props.DomainOps
import Verif.Props.LineGeometry

namespace Verif.EdgeOps
open MeshBuild MeshGraph Trace MeshMetrics Geometry VertexOps DomainOps
open scoped Classical

/-! ### C88 -/

/-- C88 (no edges).  Without edges there is no result. -/
theorem C88_empty (P : Params) (hash : Nat → Int → Int) (s : List Vtx) (tools : List Nat) (tag : Int)
    (eps : ℝ) : domainIntersection P hash s tools [] tag eps = .ok none := rfl

theorem mem_values_set {k : Int} {v x : Vtx} : ∀ {d : Dict Int Vtx}, x ∈ Dict.values (d.set k v) →
    x = v ∨ x ∈ Dict.values d
  | [], h => by
    unfold Dict.set Dict.values at h
    exact .inl (by simpa using h)
  | (k', v') :: d, h => by
    unfold Dict.set Dict.values at h
    unfold Dict.values
    split at h
    · simp only [List.map_cons, List.mem_cons] at h ⊢
      tauto
    · rw [List.map_cons, List.mem_cons] at h ⊢
      rcases h with h | h
      · exact .inr (.inl h)
      · rcases mem_values_set h with h | h
        · exact .inl h
        · exact .inr (.inr h)

theorem exists_left {α β : Type} {R : α → β → Prop} {l : List α} {m : List β} (h : List.Forall₂ R l m)
    {b : β} (hb : b ∈ m) : ∃ a ∈ l, R a b := by
  obtain ⟨i, hi, rfl⟩ := List.getElem_of_mem hb
  have hi' : i < l.length := by rw [h.length_eq]; exact hi
  exact ⟨_, List.getElem_mem hi', List.Forall₂.get h hi' hi⟩

theorem maskFilter_sublist {α : Type} (l : List α) (m : List Bool) : (maskFilter l m).Sublist l := by
  refine (List.filter_sublist.map Prod.fst).trans ?_
  induction l generalizing m with
  | nil => simp
  | cons a l ih =>
    cases m with
    | nil => simp
    | cons b m => exact (ih m).cons_cons a

theorem mem_keepVertices {hash : Nat → Int → Int} {l : List Vtx} {v : Vtx}
    (h : v ∈ keepVertices hash l) : v ∈ l := by
  unfold keepVertices at h
  have key : ∀ (l : List Vtx) (d : Dict Int Vtx),
      v ∈ Dict.values (l.foldl (fun (d : Dict Int Vtx) v => d.set (hash 0 v.tag) v) d) →
      v ∈ Dict.values d ∨ v ∈ l := by
    intro l
    induction l with
    | nil => exact fun d h => .inl h
    | cons x l ih =>
      intro d h
      rcases ih _ h with h | h
      · rcases mem_values_set h with h | h
        · exact .inr (by simp [h])
        · exact .inl h
      · exact .inr (by simp [h])
  rcases key l [] h with h | h
  · cases h
  · exact h

/-- C88.  With zero tolerances each vertex of the result is at a tool that is on one of the edges. -/
theorem C88_sound {P : Params} (hP : P.incidence = 0) (hc : P.collapse = 0)
    {hash : Nat → Int → Int} {s : List Vtx} {tools : List Nat} {edges : List ERef} {tag : Int}
    {vs : List Vtx} (hv : ∀ e ∈ edges, Valid s tools e)
    (h : domainIntersection P hash s tools edges tag 0 = .ok (some vs)) :
    ∀ v ∈ vs, ∃ e ∈ edges, ∃ t ∈ tools, On s e t ∧ ∃ w, s[t]? = some w ∧ v.point = w.point := by
  unfold domainIntersection at h
  obtain ⟨⟨s', out⟩, h1, h⟩ := Res.bind_eq_ok.1 h
  obtain ⟨-, h2⟩ := verticesEdges_exact hP hc edges s s' tag out hv h1
  dsimp only at h
  split at h
  · cases h
  · obtain ⟨vs', h3, h⟩ := Res.bind_eq_ok.1 h
    cases h
    intro v hv'
    have hm := mem_keepVertices hv'
    obtain ⟨r, hr, hrv⟩ := exists_left (fancy_iff.1 h3) hm
    obtain ⟨o, ho, hro⟩ := List.mem_flatMap.1 hr
    obtain ⟨e, he, q1, q2, q3⟩ := exists_left h2 ho
    obtain ⟨t, ht, w, x, g1, g2, g3⟩ := exists_left q3 hro
    rw [g2] at hrv
    cases hrv
    exact ⟨e, he, t, ((q2 t).1 ht).1, ((q2 t).1 ht).2, w, g1, g3⟩

/-- C88, partial: for one edge and zero tolerances the result has one vertex for each tool on the edge,
with the point of the tool, and the vertices get consecutive tags.  If no tool is on the edge, the
function raises `ValueError`. -/
theorem C88_one_edge_partial {P : Params} (hP : P.incidence = 0) (hc : P.collapse = 0)
    {hash : Nat → Int → Int} (hh : Function.Injective (hash 0)) {s : List Vtx} {tools : List Nat}
    {e : ERef} (hne : e.first ≠ e.second) (hv : Valid s tools e)
    (hd : (tools.map fun t => (s[t]?).map Vtx.tag).Nodup) (tag : Int) :
    ((∃ t ∈ tools, On s e t) → ∃ vs ts, domainIntersection P hash s tools [e] tag 0 = .ok (some vs) ∧
      (∀ t, t ∈ ts ↔ t ∈ tools ∧ On s e t) ∧ ts.Nodup ∧
      List.Forall₂ (fun (t : Nat) (v : Vtx) => ∃ w, s[t]? = some w ∧ v.point = w.point) ts vs ∧
      vs.map Vtx.tag = consec tag ts.length) ∧
    ((¬ ∃ t ∈ tools, On s e t) → domainIntersection P hash s tools [e] tag 0 = .error .valueError) := by
  obtain ⟨s', refs, ts, vs, h1, h2, -, h3, h4, h5⟩ := verticesEdge_spec (P := P) (eps := 0) hne hv hd tag
  have hlen : refs.length = vs.length := (fancy_iff.1 h4).length_eq
  have ha := List.getElem?_eq_getElem hv.first
  have hb := List.getElem?_eq_getElem hv.second
  obtain ⟨m1, m2⟩ := C47_exact_partial hP hc hv ha hb h1
  have m1' : ∀ t, t ∈ ts ↔ t ∈ tools ∧ On s e t := by
    intro t
    rw [m1]
    refine and_congr_right fun _ => ⟨?_, ?_⟩
    · rintro ⟨v, g1, g2⟩
      exact ⟨v, _, _, g1, ha, hb, g2⟩
    · rintro ⟨v, a, b, g1, g2, g3, g4⟩
      rw [ha] at g2
      rw [hb] at g3
      cases g2
      cases g3
      exact ⟨v, g1, g4⟩
  have hts : ts.Nodup := by
    have hsub : ts.Sublist tools := by
      unfold verticesEdge at h1
      obtain ⟨⟨s1, rs⟩, -, h1⟩ := Res.bind_eq_ok.1 h1
      cases h1
      exact maskFilter_sublist _ _
    exact hsub.nodup hd.of_map
  constructor
  · rintro ⟨t, ht, hon⟩
    have htm : t ∈ ts := (m1' t).2 ⟨ht, hon⟩
    have hr : refs ≠ [] := by
      rintro rfl
      rw [List.length_eq_zero_iff.1 m2.length_eq] at htm
      cases htm
    have hnd : (vs.map Vtx.tag).Nodup := by
      rw [h5]
      exact nodup_consec _ _
    have hk : keepVertices hash vs = vs := by
      refine values_store (k := fun v : Vtx => hash 0 v.tag) (keyed_nil _) vs ?_
      rw [show (Dict.values ([] : Dict Int Vtx)) = [] from rfl, List.nil_append]
      rw [show (vs.map fun v => hash 0 v.tag) = (vs.map Vtx.tag).map (hash 0) by simp]
      exact hnd.map hh
    refine ⟨vs, ts, ?_, m1', hts, ?_, ?_⟩
    · have hmax : ∃ x, maxTag (vs.map Vtx.tag) = .ok x := by
        cases hvs : vs with
        | nil =>
          rw [hvs] at hlen
          exact absurd (List.length_eq_zero_iff.1 hlen) hr
        | cons v l => exact ⟨_, rfl⟩
      obtain ⟨x, hx⟩ := hmax
      unfold domainIntersection verticesEdges
      rw [h1, Res.bind_ok]
      dsimp only
      rw [h4, Res.bind_ok, hx, Res.bind_ok]
      unfold verticesEdges
      simp only [pure, Except.pure, Res.bind_ok, List.length_singleton, List.flatMap_cons,
        List.flatMap_nil, List.append_nil]
      rw [if_neg (by simp), h4, Res.bind_ok, hk]
    · have hf := fancy_iff.1 h4
      refine List.forall₂_iff_get.2 ⟨m2.length_eq.trans hlen, fun i hi hi' => ?_⟩
      have hi2 : i < refs.length := by rw [hlen]; exact hi'
      have g1 := List.Forall₂.get m2 hi hi2
      have g2 := List.Forall₂.get hf hi2 hi'
      obtain ⟨w, -, -, g3, -⟩ := ((m1' _).1 (List.get_mem ts ⟨i, hi⟩)).2
      rw [g2, g3, Option.map_some, Option.map_some, Option.some.injEq] at g1
      exact ⟨w, g3, g1⟩
    · rw [h5, m2.length_eq]
  · intro hno
    have hnil : ts = [] := List.eq_nil_iff_forall_not_mem.2 fun t ht =>
      hno ⟨t, ((m1' t).1 ht).1, ((m1' t).1 ht).2⟩
    subst hnil
    have hr : refs = [] := by
      cases m2
      rfl
    subst hr
    unfold domainIntersection
    rw [C47_no_intersection h1]
    rfl

theorem vertexEdge_outside {P : Params} (hc : P.collapse = 1 / 10 ^ 10)
    (hi : P.incidence = 1 / 10 ^ 10) {s : List Vtx} {t : Nat} {v a b : Vtx} {edge : ERef} {tag : Int}
    (hv : s[t]? = some v) (ha : s[edge.first]? = some a) (hb : s[edge.second]? = some b)
    (h1 : ¬ Close (1 / 10 ^ 10) (1 / 10 ^ 10) v.point a.point)
    (h2 : ¬ Close (1 / 10 ^ 10) (1 / 10 ^ 10) v.point b.point)
    (h3 : ¬ Close (1 / 10 ^ 10) (1 / 10 ^ 10) a.point v.point)
    (h4 : ¬ Close (1 / 10 ^ 10) (1 / 10 ^ 10) b.point v.point)
    (h5 : ¬ PointLineIncidence a.point b.point v.point (1 / 10 ^ 10)) :
    vertexEdge P s t edge tag (1 / 10 ^ 10) = .ok (s, none) := by
  have e : vertexEdgeBoundary P s v edge tag (1 / 10 ^ 10) = .ok (s, none) := by
    unfold vertexEdgeBoundary
    rw [getIdx_of ha, Res.bind_ok, getIdx_of hb, Res.bind_ok]
    unfold StrongEquality SameGeometry
    rw [hi, if_neg (fun h => h1 h.2), if_neg (fun h => h2 h.2), if_neg h1, if_neg h2]
    rfl
  have hp : pointLineIntersection P.collapse v.point a.point b.point P.incidence = none := by
    unfold pointLineIntersection
    rw [hc, hi, if_neg h3, if_neg h4, if_neg h5]
  unfold vertexEdge
  rw [getIdx_of hv, Res.bind_ok, e, Res.bind_ok]
  simp only [getIdx_of ha, getIdx_of hb, Res.bind_ok, hp]
  rfl

/-- The hypotheses on one edge hold in the store of C47, where the tool is on the edge. -/
example : Valid exStore [0] ⟨8, 1, 2⟩ ∧ ([0].map fun t => (exStore[t]?).map Vtx.tag).Nodup ∧
    On exStore ⟨8, 1, 2⟩ 0 :=
  ⟨⟨by simp [exStore], by simp [exStore], by simp [exStore]⟩, by simp, _, _, _, rfl, rfl, rfl,
    mem_segment_iff.2 ⟨1 / 2, by norm_num, by norm_num, by refine pt_ext ?_ ?_ ?_ <;> simp⟩⟩

/-- Two parallel edges and a tool on each of them. -/
def apartStore : List Vtx :=
  [⟨5, none, ![1, 0, 0]⟩, ⟨6, none, ![1, 5, 0]⟩, ⟨1, none, ![0, 0, 0]⟩, ⟨2, none, ![2, 0, 0]⟩,
    ⟨3, none, ![0, 5, 0]⟩, ⟨4, none, ![2, 5, 0]⟩]

/-- C88 does not hold for two edges: the intersection with the second edge gets the tag of the one with
the first edge and replaces it. -/
theorem C88_lost_violated {P : Params} (hc : P.collapse = 1 / 10 ^ 10) (hi : P.incidence = 1 / 10 ^ 10)
    (hash : Nat → Int → Int) :
    domainIntersection P hash apartStore [0, 1] [⟨8, 2, 3⟩, ⟨9, 4, 5⟩] 100 (1 / 10 ^ 10) =
      .ok (some [⟨100, none, ![1, 5, 0]⟩]) := by
  have n3 : ∀ x : ℝ, norm3 (![0, 0, x] : Pt ℝ) = |x| := by
    intro x
    simp [norm3, Real.sqrt_sq_eq_abs]
  have off1 : ¬ PointLineIncidence ![0, 0, 0] ![2, 0, 0] ![1, 5, 0] (1 / 10 ^ 10) := by
    unfold PointLineIncidence colinearMeasurement
    have : cross ((![1, 5, 0] : Pt ℝ) - ![2, 0, 0]) (![0, 0, 0] - ![2, 0, 0]) = ![0, 0, 10] := by
      refine pt_ext ?_ ?_ ?_ <;> simp [cross]; norm_num
    rw [this, n3]
    unfold IsClose
    norm_num
  have off2 : ¬ PointLineIncidence ![0, 5, 0] ![2, 5, 0] ![1, 0, 0] (1 / 10 ^ 10) := by
    unfold PointLineIncidence colinearMeasurement
    have : cross ((![1, 0, 0] : Pt ℝ) - ![2, 5, 0]) (![0, 5, 0] - ![2, 5, 0]) = ![0, 0, -10] := by
      refine pt_ext ?_ ?_ ?_ <;> simp [cross]; norm_num
    rw [this, n3]
    unfold IsClose
    norm_num
  have on1 : (![1, 0, 0] : Pt ℝ) ∈ segment ℝ (![0, 0, 0] : Pt ℝ) ![2, 0, 0] :=
    mem_segment_iff.2 ⟨1 / 2, by norm_num, by norm_num, by refine pt_ext ?_ ?_ ?_ <;> simp⟩
  have on2 : (![1, 5, 0] : Pt ℝ) ∈ segment ℝ (![0, 5, 0] : Pt ℝ) ![2, 5, 0] :=
    mem_segment_iff.2 ⟨1 / 2, by norm_num, by norm_num, by refine pt_ext ?_ ?_ ?_ <;> simp⟩
  have s1 : verticesEdge P apartStore [0, 1] ⟨8, 2, 3⟩ 100 (1 / 10 ^ 10) =
      .ok (apartStore ++ [⟨100, none, ![1, 0, 0]⟩], [6], [0]) := by
    unfold verticesEdge mapVertexEdge mapVertexEdge mapVertexEdge
    rw [vertexEdge_inside (edge := ⟨8, 2, 3⟩) (v := ⟨5, none, ![1, 0, 0]⟩)
      (a := ⟨1, none, ![0, 0, 0]⟩) (b := ⟨2, none, ![2, 0, 0]⟩) hc hi rfl rfl rfl
      (not_close 0 (by norm_num)) (not_close 0 (by norm_num)) (not_close 0 (by norm_num))
      (not_close 0 (by norm_num)) on1, Res.bind_ok]
    dsimp only
    rw [vertexEdge_outside (edge := ⟨8, 2, 3⟩) (v := ⟨6, none, ![1, 5, 0]⟩)
      (a := ⟨1, none, ![0, 0, 0]⟩) (b := ⟨2, none, ![2, 0, 0]⟩) hc hi rfl rfl rfl
      (not_close 0 (by norm_num)) (not_close 0 (by norm_num)) (not_close 0 (by norm_num))
      (not_close 0 (by norm_num)) off1]
    rfl
  have s2 : verticesEdge P (apartStore ++ [⟨100, none, ![1, 0, 0]⟩]) [0, 1] ⟨9, 4, 5⟩ 100 (1 / 10 ^ 10) =
      .ok (apartStore ++ [⟨100, none, ![1, 0, 0]⟩, ⟨100, none, ![1, 5, 0]⟩], [7], [1]) := by
    unfold verticesEdge mapVertexEdge mapVertexEdge mapVertexEdge
    rw [vertexEdge_outside (edge := ⟨9, 4, 5⟩) (v := ⟨5, none, ![1, 0, 0]⟩)
      (a := ⟨3, none, ![0, 5, 0]⟩) (b := ⟨4, none, ![2, 5, 0]⟩) hc hi rfl rfl rfl
      (not_close 0 (by norm_num)) (not_close 0 (by norm_num)) (not_close 0 (by norm_num))
      (not_close 0 (by norm_num)) off2, Res.bind_ok]
    dsimp only
    rw [vertexEdge_inside (edge := ⟨9, 4, 5⟩) (v := ⟨6, none, ![1, 5, 0]⟩)
      (a := ⟨3, none, ![0, 5, 0]⟩) (b := ⟨4, none, ![2, 5, 0]⟩) hc hi rfl rfl rfl
      (not_close 0 (by norm_num)) (not_close 0 (by norm_num)) (not_close 0 (by norm_num))
      (not_close 0 (by norm_num)) on2]
    rfl
  have e : verticesEdges P [0, 1] (1 / 10 ^ 10) (apartStore ++ [⟨100, none, ![1, 0, 0]⟩]) 100
      [⟨9, 4, 5⟩] = .ok (apartStore ++ [⟨100, none, ![1, 0, 0]⟩, ⟨100, none, ![1, 5, 0]⟩],
        [(⟨9, 4, 5⟩, [7], [1])]) := by
    unfold verticesEdges
    rw [s2]
    rfl
  have e' : verticesEdges P [0, 1] (1 / 10 ^ 10) apartStore 100 [⟨8, 2, 3⟩, ⟨9, 4, 5⟩] =
      .ok (apartStore ++ [⟨100, none, ![1, 0, 0]⟩, ⟨100, none, ![1, 5, 0]⟩],
        [(⟨8, 2, 3⟩, [6], [0]), (⟨9, 4, 5⟩, [7], [1])]) := by
    unfold verticesEdges
    rw [s1, Res.bind_ok]
    show (Except.bind (verticesEdges P [0, 1] (1 / 10 ^ 10) (apartStore ++ [⟨100, none, ![1, 0, 0]⟩]) 100
      [⟨9, 4, 5⟩]) _) = _
    rw [e]
    rfl
  unfold domainIntersection
  rw [e', Res.bind_ok]
  show Except.ok (some (keepVertices hash [⟨100, none, ![1, 0, 0]⟩, ⟨100, none, ![1, 5, 0]⟩])) = _
  unfold keepVertices
  simp [Dict.set, Dict.values]

/-! ### C89 -/

/-- An edge. -/
def seg (a b : Pt ℝ) (s t : Int) : Edg := mkEdge 9 none ⟨s, none, a⟩ ⟨t, none, b⟩

/-- C89.  After `collapse_vertex` the object has the tag of the tool and is at the tool, up to the
tolerance; nothing is returned when the points differ. -/
theorem C89_collapse_vertex {P : Params} {tool object : Vtx} {eps : ℝ} :
    (∀ w, collapseVertex P tool object eps = some w → w.tag = tool.tag ∧
      (w = tool ∨ w = object ∧ SameGeometry tool object P.incidence)) ∧
    (collapseVertex P tool object eps = none ↔
      ¬ StrongEquality P tool object ∧ ¬ SameGeometry tool object eps) := by
  unfold collapseVertex
  split
  · rename_i h
    refine ⟨fun w hw => ?_, by simp [h]⟩
    cases hw
    exact ⟨h.1.1.symm, .inr ⟨rfl, h.2⟩⟩
  · rename_i h
    split
    · rename_i h'
      refine ⟨fun w hw => ?_, by simp [h']⟩
      cases hw
      exact ⟨rfl, .inl rfl⟩
    · rename_i h'
      exact ⟨fun w hw => (by cases hw), by simp [h, h']⟩

/-- C89.  The same for edges: the tag, the boundary in order and the physical tag of the tool. -/
theorem C89_collapse_edge {P : Params} {tool object : Edg} {eps : ℝ}
    (ht : tool.first.tag ≤ tool.second.tag) :
    (∀ w, collapseEdge P tool object eps = some w → w.tag = tool.tag ∧
      w.first.tag = tool.first.tag ∧ w.second.tag = tool.second.tag ∧
      (w = tool ∨ w = object ∧ SameEdge tool object P.collapse)) ∧
    (collapseEdge P tool object eps = none ↔
      ¬ StrongEdge P tool object ∧ ¬ SameEdge tool object eps) := by
  unfold collapseEdge
  split
  · rename_i h
    refine ⟨fun w hw => ?_, by simp [h]⟩
    cases hw
    exact ⟨h.1.1.symm, h.1.2.1.1.symm, h.1.2.2.1.symm, .inr ⟨rfl, h.2⟩⟩
  · rename_i h
    split
    · rename_i h'
      refine ⟨fun w hw => ?_, by simp [h']⟩
      cases hw
      have : mkEdge tool.tag tool.physical tool.first tool.second = tool := by
        unfold mkEdge
        rw [if_neg (by omega)]
      rw [this]
      exact ⟨rfl, rfl, rfl, .inl rfl⟩
    · rename_i h'
      exact ⟨fun w hw => (by cases hw), by simp [h, h']⟩

/-- C89.  The intersection of two vertices is the object if the tags agree, or a new vertex at the tool
with the given tag. -/
theorem C89_vertex_vertex {P : Params} {tool object : Vtx} {tag : Int} {eps : ℝ} :
    (vertexVertex P tool object tag eps = some .object ↔ StrongEquality P tool object) ∧
    (∀ v, vertexVertex P tool object tag eps = some (.made v) ↔
      ¬ StrongEquality P tool object ∧ SameGeometry tool object eps ∧ v = ⟨tag, none, tool.point⟩) ∧
    (vertexVertex P tool object tag eps = none ↔
      ¬ StrongEquality P tool object ∧ ¬ SameGeometry tool object eps) := by
  unfold vertexVertex
  split
  · rename_i h
    simp [h]
  · rename_i h
    split
    · rename_i h'
      simp [h, h', eq_comm]
    · rename_i h'
      simp [h, h']

/-- C89, partial: with zero tolerances, two edges that are not parallel give a vertex at their common
point, or nothing if they have none. -/
theorem C89_exact_partial {f : Pt ℝ → Pt ℝ → Pt ℝ → ℝ × ℝ} (hf : IsLstsq f) {P : Params}
    (hP : P.incidence = 0) (hc : P.collapse = 0) {tool object : Edg} {tag pEps : ℝ}
    (hn : NotParallel (tool.second.point - tool.first.point) (object.second.point - object.first.point)) :
    (∀ x, x ∈ segment ℝ tool.first.point tool.second.point →
      x ∈ segment ℝ object.first.point object.second.point →
      ∃ v, edgeEdge P f tool object tag pEps 0 = .ok (some v) ∧ v.points object = [x]) ∧
    ((∀ x, ¬ (x ∈ segment ℝ tool.first.point tool.second.point ∧
        x ∈ segment ℝ object.first.point object.second.point)) →
      edgeEdge P f tool object tag pEps 0 = .ok none) := by
  obtain ⟨b1, b2⟩ := boundary_exact' hP hc tool object pEps
  obtain ⟨c1, c2⟩ := C52_exact hf hn
  unfold edgeEdge
  rw [hP, hc]
  cases hb : edgeEdgeBoundary P tool object pEps 0 with
  | some v =>
    obtain ⟨y, g1, g2, g3⟩ := b1 v hb
    have hy : y ∈ segment ℝ tool.first.point tool.second.point := by
      rcases g2 with rfl | rfl
      · exact left_mem_segment ℝ _ _
      · exact right_mem_segment ℝ _ _
    refine ⟨fun x h1 h2 => ⟨v, rfl, ?_⟩, fun h => absurd ⟨hy, g3⟩ (h y)⟩
    have e1 := c1 x h1 h2
    rw [c1 y hy g3] at e1
    cases e1
    exact g1
  | none =>
    dsimp only
    refine ⟨fun x h1 h2 => ?_, fun h => ?_⟩
    · rw [c1 x h1 h2]
      exact ⟨.raw tag (.points [x]), rfl, rfl⟩
    · rw [c2 h]
      rfl

/-- Two edges that are not parallel. -/
example : NotParallel ((seg ![-1, 0, 0] ![1, 0, 0] 1 2).second.point -
      (seg ![-1, 0, 0] ![1, 0, 0] 1 2).first.point)
    ((seg ![0, -1, 0] ![0, 1, 0] 3 4).second.point - (seg ![0, -1, 0] ![0, 1, 0] 3 4).first.point) := by
  intro h
  have := congrFun h 2
  simp [cross, seg, mkEdge] at this

/-- C89, partial: with any tolerances two edges that meet and are not parallel give a vertex. -/
theorem C89_accepts_partial {f : Pt ℝ → Pt ℝ → Pt ℝ → ℝ × ℝ} (hf : IsLstsq f) {P : Params}
    (hc : P.collapse ≤ 1 / 10 ^ 8) {tool object : Edg} {tag pEps lEps : ℝ} (he : 0 ≤ lEps)
    (hn : NotParallel (tool.second.point - tool.first.point) (object.second.point - object.first.point))
    {x : Pt ℝ} (h1 : x ∈ segment ℝ tool.first.point tool.second.point)
    (h2 : x ∈ segment ℝ object.first.point object.second.point) :
    ∃ v, edgeEdge P f tool object tag pEps lEps = .ok (some v) := by
  unfold edgeEdge
  split
  · exact ⟨_, rfl⟩
  · obtain ⟨y, ys, h | h⟩ := C52_accepts hf hn h1 h2 (tol := ⟨P.collapse, P.incidence⟩) hc he <;> rw [h]
    · exact ⟨_, rfl⟩
    · exact ⟨_, rfl⟩

/-- C89.  Two edges without common points give nothing, if the tolerances are small enough. -/
theorem C89_rejects (f : Pt ℝ → Pt ℝ → Pt ℝ → ℝ × ℝ) {tool object : Edg}
    (hno : ∀ x, ¬ (x ∈ segment ℝ tool.first.point tool.second.point ∧
      x ∈ segment ℝ object.first.point object.second.point)) :
    ∃ δ > 0, ∀ P : Params, P.incidence < δ → P.collapse < δ → ∀ tag pEps, ∀ lEps < δ,
      edgeEdge P f tool object tag pEps lEps = .ok none := by
  obtain ⟨d1, p1, k1⟩ := boundary_none
    (fun h => hno _ ⟨left_mem_segment ℝ tool.first.point tool.second.point, h⟩)
    (fun h => hno _ ⟨right_mem_segment ℝ tool.first.point tool.second.point, h⟩)
  obtain ⟨d2, p2, k2⟩ := C52_rejects f hno
  refine ⟨min d1 d2, lt_min p1 p2, fun P hi hc tag pEps lEps hl => ?_⟩
  rw [lt_min_iff] at hi hc hl
  unfold edgeEdge
  rw [k1 P hi.1 hc.1 pEps P.incidence hi.1]
  dsimp only
  rw [k2 ⟨P.collapse, P.incidence⟩ hc.2 hi.2 lEps hl.2]
  rfl

/-- C89 does not hold for the tags: a vertex made at an end of the tool has the tolerance for a tag. -/
theorem C89_tag_violated {P : Params} {f : Pt ℝ → Pt ℝ → Pt ℝ → ℝ × ℝ} {tool object : Edg}
    {tag pEps lEps t : ℝ} {x : Pt ℝ}
    (h : edgeEdge P f tool object tag pEps lEps = .ok (some (.made t x))) : t = pEps := by
  unfold edgeEdge at h
  split at h
  · rename_i h'
    cases h
    rcases boundary_tag h' with h | h | ⟨y, h⟩ <;> cases h
    rfl
  · obtain ⟨out, -, h⟩ := Res.bind_eq_ok.1 h
    cases out <;> cases h

/-- The case of the last theorem: two edges that meet in a corner with vertices of different tags. -/
theorem C89_corner_violated {P : Params} {f : Pt ℝ → Pt ℝ → Pt ℝ → ℝ × ℝ} (hP : 0 ≤ P.incidence)
    (tag pEps lEps : ℝ) :
    edgeEdge P f (seg ![0, 0, 0] ![1, 0, 0] 1 2) (seg ![0, 0, 0] ![0, 1, 0] 3 4) tag pEps lEps =
      .ok (some (.made pEps ![0, 0, 0])) := by
  have hs : SameGeometry (seg ![0, 0, 0] ![1, 0, 0] 1 2).first (seg ![0, 0, 0] ![0, 1, 0] 3 4).first
      P.incidence := close_self hP hP _
  have h1 : onBoundary P (seg ![0, 0, 0] ![1, 0, 0] 1 2).first (seg ![0, 0, 0] ![0, 1, 0] 3 4) pEps
      P.incidence = some (.made pEps ![0, 0, 0]) := by
    unfold onBoundary
    rw [if_neg, if_neg, if_pos hs]
    · rfl
    · rintro ⟨⟨h, -⟩, -⟩
      simp [seg, mkEdge] at h
    · rintro ⟨⟨h, -⟩, -⟩
      simp [seg, mkEdge] at h
  unfold edgeEdge edgeEdgeBoundary
  rw [h1]
  rfl

/-- C89 does not hold for the shape of the point: a crossing inside both edges is returned as an array
with one row. -/
theorem C89_row_violated {f : Pt ℝ → Pt ℝ → Pt ℝ → ℝ × ℝ} (hf : IsLstsq f) {P : Params}
    (hP : P.incidence = 0) (hc : P.collapse = 0) (tag pEps : ℝ) :
    edgeEdge P f (seg ![-1, 0, 0] ![1, 0, 0] 1 2) (seg ![0, -1, 0] ![0, 1, 0] 3 4) tag pEps 0 =
      .ok (some (.raw tag (.points [![0, 0, 0]]))) := by
  have t1 : (seg ![-1, 0, 0] ![1, 0, 0] 1 2).first.point = ![-1, 0, 0] := rfl
  have t2 : (seg ![-1, 0, 0] ![1, 0, 0] 1 2).second.point = ![1, 0, 0] := rfl
  have o1 : (seg ![0, -1, 0] ![0, 1, 0] 3 4).first.point = ![0, -1, 0] := rfl
  have o2 : (seg ![0, -1, 0] ![0, 1, 0] 3 4).second.point = ![0, 1, 0] := rfl
  have hoff : ∀ x : ℝ, (![x, 0, 0] : Pt ℝ) ∈ segment ℝ (![0, -1, 0] : Pt ℝ) ![0, 1, 0] → x = 0 := by
    intro x hx
    obtain ⟨t, -, -, h⟩ := mem_segment_iff.1 hx
    simpa using congrFun h 0
  have hb : edgeEdgeBoundary P (seg ![-1, 0, 0] ![1, 0, 0] 1 2) (seg ![0, -1, 0] ![0, 1, 0] 3 4) pEps 0 =
      none := by
    obtain ⟨b1, -⟩ := boundary_exact' hP hc (seg ![-1, 0, 0] ![1, 0, 0] 1 2)
      (seg ![0, -1, 0] ![0, 1, 0] 3 4) pEps
    cases h : edgeEdgeBoundary P (seg ![-1, 0, 0] ![1, 0, 0] 1 2) (seg ![0, -1, 0] ![0, 1, 0] 3 4)
      pEps 0 with
    | none => rfl
    | some v =>
      obtain ⟨x, -, g1, g2⟩ := b1 v h
      rw [t1, t2] at g1
      rw [o1, o2] at g2
      rcases g1 with rfl | rfl
      · exact absurd (hoff _ g2) (by norm_num)
      · exact absurd (hoff _ g2) (by norm_num)
  unfold edgeEdge
  rw [hP, hc, hb, t1, t2, o1, o2]
  dsimp only
  rw [(C52_exact hf (a := ![-1, 0, 0]) (b := ![1, 0, 0]) (c := ![0, -1, 0]) (d := ![0, 1, 0]) ?_).1
    ![0, 0, 0] (mem_segment_iff.2 ⟨1 / 2, by norm_num, by norm_num, ?_⟩)
    (mem_segment_iff.2 ⟨1 / 2, by norm_num, by norm_num, ?_⟩)]
  · rfl
  · intro h
    have := congrFun h 2
    simp [cross] at this
  · refine pt_ext ?_ ?_ ?_ <;> simp; norm_num
  · refine pt_ext ?_ ?_ ?_ <;> simp; norm_num

/-- C89 does not hold for an object inside of the tool: nothing is found with the tolerances of the
code. -/
theorem C89_contained_violated {f : Pt ℝ → Pt ℝ → Pt ℝ → ℝ × ℝ} (hf : IsLstsq f) {P : Params}
    (hc : P.collapse = 1 / 10 ^ 10) (hi : P.incidence = 1 / 10 ^ 10) (tag : ℝ) :
    edgeEdge P f (seg ![0, 0, 0] ![10, 0, 0] 1 2) (seg ![4, 0, 0] ![5, 0, 0] 3 4) tag (1 / 10 ^ 10)
      (1 / 10 ^ 10) = .ok none := by
  have hb : ∀ (x : ℝ) (t : Int), ((x = 0 ∨ x = 10) ∧ t ≠ 3 ∧ t ≠ 4) → onBoundary P ⟨t, none, ![x, 0, 0]⟩
      (seg ![4, 0, 0] ![5, 0, 0] 3 4) (1 / 10 ^ 10) (1 / 10 ^ 10) = none := by
    rintro x t ⟨hx, h3, h4⟩
    unfold onBoundary
    rw [if_neg (fun h => h3 h.1.1), if_neg (fun h => h4 h.1.1), if_neg, if_neg]
    · refine not_close 0 ?_
      rcases hx with rfl | rfl <;> simp [seg, mkEdge] <;> norm_num
    · refine not_close 0 ?_
      rcases hx with rfl | rfl <;> simp [seg, mkEdge] <;> norm_num
  have b1 := hb 0 1 ⟨.inl rfl, by decide, by decide⟩
  have b2 := hb 10 2 ⟨.inr rfl, by decide, by decide⟩
  have p1 := before_segment
  have p2 := behind_segment
  unfold codeTol at p1 p2
  have hbd : edgeEdgeBoundary P (seg ![0, 0, 0] ![10, 0, 0] 1 2) (seg ![4, 0, 0] ![5, 0, 0] 3 4)
      (1 / 10 ^ 10) (1 / 10 ^ 10) = none := by
    show (match onBoundary P ⟨1, none, ![0, 0, 0]⟩ (seg ![4, 0, 0] ![5, 0, 0] 3 4) (1 / 10 ^ 10)
      (1 / 10 ^ 10), onBoundary P ⟨2, none, ![10, 0, 0]⟩ (seg ![4, 0, 0] ![5, 0, 0] 3 4) (1 / 10 ^ 10)
      (1 / 10 ^ 10) with
      | some f, _ => some f
      | none, some f => some f
      | none, none => match onEdge P ⟨1, none, ![0, 0, 0]⟩ (seg ![4, 0, 0] ![5, 0, 0] 3 4) (1 / 10 ^ 10)
        (1 / 10 ^ 10), onEdge P ⟨2, none, ![10, 0, 0]⟩ (seg ![4, 0, 0] ![5, 0, 0] 3 4) (1 / 10 ^ 10)
        (1 / 10 ^ 10) with
        | some f, _ => some f
        | none, some f => some f
        | none, none => none) = none
    have e1 : onEdge P ⟨1, none, ![0, 0, 0]⟩ (seg ![4, 0, 0] ![5, 0, 0] 3 4) (1 / 10 ^ 10)
        (1 / 10 ^ 10) = none := by
      unfold onEdge
      rw [b1, hc, hi]
      show Option.map _ (pointLineIntersection _ ![0, 0, 0] ![4, 0, 0] ![5, 0, 0] _) = none
      rw [p1]
      rfl
    have e2 : onEdge P ⟨2, none, ![10, 0, 0]⟩ (seg ![4, 0, 0] ![5, 0, 0] 3 4) (1 / 10 ^ 10)
        (1 / 10 ^ 10) = none := by
      unfold onEdge
      rw [b2, hc, hi]
      show Option.map _ (pointLineIntersection _ ![10, 0, 0] ![4, 0, 0] ![5, 0, 0] _) = none
      rw [p2]
      rfl
    rw [b1, b2, e1, e2]
  have hl := (C52_contained_missed hf).2
  unfold codeTol at hl
  unfold edgeEdge
  rw [hi, hbd, hc]
  show (lineLineIntersection ⟨1 / 10 ^ 10, 1 / 10 ^ 10⟩ f ![0, 0, 0] ![10, 0, 0] ![4, 0, 0] ![5, 0, 0]
    (1 / 10 ^ 10) >>= _) = _
  rw [hl]
  rfl

/-- C89 does not hold for edges that overlap: only one of the common points is returned. -/
theorem C89_overlap_violated (f : Pt ℝ → Pt ℝ → Pt ℝ → ℝ × ℝ) {P : Params}
    (hP : P.incidence = 0) (hc : P.collapse = 0) (tag pEps : ℝ) :
    (∃ v, edgeEdge P f (seg ![0, 0, 0] ![2, 0, 0] 1 2) (seg ![1, 0, 0] ![3, 0, 0] 3 4) tag pEps 0 =
      .ok (some v) ∧ v.points (seg ![1, 0, 0] ![3, 0, 0] 3 4) = [![2, 0, 0]]) ∧
    (![1, 0, 0] : Pt ℝ) ∈ segment ℝ (![0, 0, 0] : Pt ℝ) ![2, 0, 0] := by
  have hseg : ∀ x : ℝ, (![x, 0, 0] : Pt ℝ) ∈ segment ℝ (![1, 0, 0] : Pt ℝ) ![3, 0, 0] ↔ 1 ≤ x ∧ x ≤ 3 := by
    intro x
    constructor
    · intro hx
      obtain ⟨t, h0, h1, h⟩ := mem_segment_iff.1 hx
      have := congrFun h 0
      simp at this
      constructor <;> linarith
    · rintro ⟨h1, h2⟩
      refine mem_segment_iff.2 ⟨(x - 1) / 2, by linarith, by linarith, ?_⟩
      refine pt_ext ?_ ?_ ?_ <;> simp; ring
  obtain ⟨b1, b2⟩ := boundary_exact' hP hc (seg ![0, 0, 0] ![2, 0, 0] 1 2)
    (seg ![1, 0, 0] ![3, 0, 0] 3 4) pEps
  refine ⟨?_, mem_segment_iff.2 ⟨1 / 2, by norm_num, by norm_num, by
    refine pt_ext ?_ ?_ ?_ <;> simp⟩⟩
  cases h : edgeEdgeBoundary P (seg ![0, 0, 0] ![2, 0, 0] 1 2) (seg ![1, 0, 0] ![3, 0, 0] 3 4) pEps 0 with
  | none => exact absurd ((hseg 2).2 ⟨by norm_num, by norm_num⟩) (b2 h).2
  | some v =>
    obtain ⟨x, g1, g2, g3⟩ := b1 v h
    refine ⟨v, ?_, ?_⟩
    · unfold edgeEdge
      rw [hP, h]
      rfl
    · rw [g1]
      rcases g2 with rfl | rfl
      · exact absurd ((hseg 0).1 g3).1 (by norm_num)
      · rfl

/-- C89 does not hold for edges with opposite orders of tags: the same segment is not recognised. -/
theorem C89_reversed_violated {P : Params} (hc : P.collapse = 1 / 10 ^ 10) :
    collapseEdge P (seg ![0, 0, 0] ![1, 0, 0] 1 2) (seg ![0, 0, 0] ![1, 0, 0] 4 3) (1 / 10 ^ 10) =
      none := by
  have h : ∀ eps, eps = 1 / 10 ^ 10 → ¬ SameEdge (seg ![0, 0, 0] ![1, 0, 0] 1 2)
      (seg ![0, 0, 0] ![1, 0, 0] 4 3) eps := by
    rintro eps rfl ⟨h, -⟩
    refine not_close (x := ![0, 0, 0]) (y := ![1, 0, 0]) 0 ?_ h
    norm_num
  unfold collapseEdge
  rw [if_neg (fun k => h _ hc k.2), if_neg (h _ rfl)]

#print axioms C88_empty
#print axioms C88_sound
#print axioms C88_one_edge_partial
#print axioms C88_lost_violated
#print axioms C89_collapse_vertex
#print axioms C89_collapse_edge
#print axioms C89_vertex_vertex
#print axioms C89_exact_partial
#print axioms C89_accepts_partial
#print axioms C89_rejects
#print axioms C89_tag_violated
#print axioms C89_corner_violated
#print axioms C89_row_violated
#print axioms C89_contained_violated
#print axioms C89_overlap_violated
#print axioms C89_reversed_violated

end Verif.EdgeOps
