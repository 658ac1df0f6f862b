/-
Lemmas for C88 and C89.
-/
import Verif.Model.EdgeOps
import Verif.Props.VertexOps

namespace Verif.EdgeOps
open MeshBuild MeshGraph Trace MeshMetrics Geometry VertexOps DomainOps
open scoped Classical

/-- Where a vertex found on the edge `e` is. -/
def Found.points (e : Edg) : Found → List (Pt ℝ)
  | .first => [e.first.point]
  | .second => [e.second.point]
  | .made _ x => [x]
  | .raw _ .none => []
  | .raw _ (.points l) => l
  | .raw _ (.both l _) => l

theorem onBoundary_exact {P : Params} (hP : P.incidence = 0) (v : Vtx) (e : Edg) (tag : ℝ) :
    (∀ f, onBoundary P v e tag 0 = some f → f.points e = [v.point] ∧
      (v.point = e.first.point ∨ v.point = e.second.point)) ∧
    (onBoundary P v e tag 0 = none → v.point ≠ e.first.point ∧ v.point ≠ e.second.point) := by
  have hs : ∀ w : Vtx, SameGeometry v w 0 ↔ v.point = w.point := fun w => close_zero
  have ht : ∀ w : Vtx, StrongEquality P v w → v.point = w.point := fun w h =>
    (hs w).1 (hP ▸ h.2)
  unfold onBoundary
  split
  · rename_i h
    refine ⟨fun f hf => ?_, fun h => by cases h⟩
    cases hf
    exact ⟨by rw [ht _ h]; rfl, .inl (ht _ h)⟩
  · split
    · rename_i h
      refine ⟨fun f hf => ?_, fun h => by cases h⟩
      cases hf
      exact ⟨by rw [ht _ h]; rfl, .inr (ht _ h)⟩
    · split
      · rename_i h
        refine ⟨fun f hf => ?_, fun h => by cases h⟩
        cases hf
        exact ⟨by rw [(hs _).1 h]; rfl, .inl ((hs _).1 h)⟩
      · rename_i h1
        split
        · rename_i h
          refine ⟨fun f hf => ?_, fun h => by cases h⟩
          cases hf
          exact ⟨by rw [(hs _).1 h]; rfl, .inr ((hs _).1 h)⟩
        · rename_i h2
          exact ⟨fun f hf => (by cases hf), fun _ => ⟨fun h => h1 ((hs _).2 h), fun h => h2 ((hs _).2 h)⟩⟩

theorem onEdge_exact {P : Params} (hP : P.incidence = 0) (hc : P.collapse = 0) (v : Vtx) (e : Edg)
    (tag : ℝ) :
    (∀ f, onEdge P v e tag 0 = some f → f.points e = [v.point] ∧
      v.point ∈ segment ℝ e.first.point e.second.point) ∧
    (onEdge P v e tag 0 = none → v.point ∉ segment ℝ e.first.point e.second.point) := by
  obtain ⟨h1, h2⟩ := onBoundary_exact hP v e tag
  unfold onEdge
  rw [hP, hc]
  cases hb : onBoundary P v e tag 0 with
  | some f =>
    refine ⟨fun f' hf => ?_, fun h => by cases h⟩
    cases hf
    obtain ⟨g1, g2⟩ := h1 f hb
    refine ⟨g1, ?_⟩
    rcases g2 with g2 | g2 <;> rw [g2]
    · exact left_mem_segment ℝ _ _
    · exact right_mem_segment ℝ _ _
  | none =>
    dsimp only
    cases hx : pointLineIntersection 0 v.point e.first.point e.second.point 0 with
    | none =>
      refine ⟨fun f hf => (by cases hf), fun _ hm => ?_⟩
      rw [pointLine_exact.2 ⟨rfl, hm⟩] at hx
      cases hx
    | some x =>
      refine ⟨fun f hf => ?_, fun h => by cases h⟩
      cases hf
      obtain ⟨rfl, hm⟩ := pointLine_exact.1 hx
      exact ⟨rfl, hm⟩

theorem boundary_exact' {P : Params} (hP : P.incidence = 0) (hc : P.collapse = 0) (tool object : Edg)
    (tag : ℝ) :
    (∀ f, edgeEdgeBoundary P tool object tag 0 = some f → ∃ x, f.points object = [x] ∧
      (x = tool.first.point ∨ x = tool.second.point) ∧
      x ∈ segment ℝ object.first.point object.second.point) ∧
    (edgeEdgeBoundary P tool object tag 0 = none →
      tool.first.point ∉ segment ℝ object.first.point object.second.point ∧
      tool.second.point ∉ segment ℝ object.first.point object.second.point) := by
  have hb : ∀ v f, onBoundary P v object tag 0 = some f → onEdge P v object tag 0 = some f := by
    intro v f h
    unfold onEdge
    rw [h]
  obtain ⟨a1, a2⟩ := onEdge_exact hP hc tool.first object tag
  obtain ⟨b1, b2⟩ := onEdge_exact hP hc tool.second object tag
  have first : ∀ f, onEdge P tool.first object tag 0 = some f → ∃ x, f.points object = [x] ∧
      (x = tool.first.point ∨ x = tool.second.point) ∧
      x ∈ segment ℝ object.first.point object.second.point := fun f h =>
    ⟨_, (a1 f h).1, .inl rfl, (a1 f h).2⟩
  have second : ∀ f, onEdge P tool.second object tag 0 = some f → ∃ x, f.points object = [x] ∧
      (x = tool.first.point ∨ x = tool.second.point) ∧
      x ∈ segment ℝ object.first.point object.second.point := fun f h =>
    ⟨_, (b1 f h).1, .inr rfl, (b1 f h).2⟩
  unfold edgeEdgeBoundary
  split
  · rename_i h
    exact ⟨fun f' hf => by cases hf; exact first _ (hb _ _ h), fun h => by cases h⟩
  · rename_i h
    exact ⟨fun f' hf => by cases hf; exact second _ (hb _ _ h), fun h => by cases h⟩
  · split
    · rename_i h
      exact ⟨fun f' hf => by cases hf; exact first _ h, fun h => by cases h⟩
    · rename_i h
      exact ⟨fun f' hf => by cases hf; exact second _ h, fun h => by cases h⟩
    · rename_i h1 h2
      exact ⟨fun f' hf => (by cases hf), fun _ => ⟨a2 h1, b2 h2⟩⟩

/-- Tags of the vertices made by the boundary test. -/
theorem boundary_tag {P : Params} {tool object : Edg} {tag eps : ℝ} {f : Found}
    (h : edgeEdgeBoundary P tool object tag eps = some f) :
    f = .first ∨ f = .second ∨ ∃ x, f = .made tag x := by
  have hb : ∀ v f, onBoundary P v object tag eps = some f →
      f = .first ∨ f = .second ∨ ∃ x, f = .made tag x := by
    intro v f h
    unfold onBoundary at h
    repeat' split at h
    all_goals cases h
    · exact .inl rfl
    · exact .inr (.inl rfl)
    · exact .inr (.inr ⟨_, rfl⟩)
    · exact .inr (.inr ⟨_, rfl⟩)
  have he : ∀ v f, onEdge P v object tag eps = some f →
      f = .first ∨ f = .second ∨ ∃ x, f = .made tag x := by
    intro v f h
    unfold onEdge at h
    split at h
    · rename_i h'
      cases h
      exact hb _ _ h'
    · obtain ⟨x, -, rfl⟩ := Option.map_eq_some_iff.1 h
      exact .inr (.inr ⟨_, rfl⟩)
  unfold edgeEdgeBoundary at h
  split at h
  · rename_i h'; cases h; exact hb _ _ h'
  · rename_i h'; cases h; exact hb _ _ h'
  · split at h
    · rename_i h'; cases h; exact he _ _ h'
    · rename_i h'; cases h; exact he _ _ h'
    · cases h

/-- With small tolerances nothing is found at the ends, if they are off the object. -/
theorem boundary_none {tool object : Edg}
    (h1 : tool.first.point ∉ segment ℝ object.first.point object.second.point)
    (h2 : tool.second.point ∉ segment ℝ object.first.point object.second.point) :
    ∃ δ > 0, ∀ P : Params, P.incidence < δ → P.collapse < δ → ∀ tag, ∀ eps < δ,
      edgeEdgeBoundary P tool object tag eps = none := by
  have key : ∀ v : Vtx, v.point ∉ segment ℝ object.first.point object.second.point →
      ∃ δ > 0, ∀ P : Params, P.incidence < δ → P.collapse < δ → ∀ tag, ∀ eps < δ,
        onBoundary P v object tag eps = none ∧ onEdge P v object tag eps = none := by
    intro v hv
    obtain ⟨d0, p0, k0⟩ := pointLine_sound hv
    obtain ⟨d1, p1, k1⟩ := not_close_of_ne (x := v.point) (y := object.first.point)
      (by intro e; exact hv (by rw [e]; exact left_mem_segment ℝ _ _))
    obtain ⟨d2, p2, k2⟩ := not_close_of_ne (x := v.point) (y := object.second.point)
      (by intro e; exact hv (by rw [e]; exact right_mem_segment ℝ _ _))
    refine ⟨min d0 (min d1 d2), lt_min p0 (lt_min p1 p2), fun P hi hc tag eps he => ?_⟩
    have i1 := (lt_min_iff.1 hi).1
    have i2 := lt_min_iff.1 (lt_min_iff.1 hi).2
    have c1 := (lt_min_iff.1 hc).1
    have e2 := lt_min_iff.1 (lt_min_iff.1 he).2
    have hb : onBoundary P v object tag eps = none := by
      unfold onBoundary
      rw [if_neg (fun h => k1 _ i2.1 h.2), if_neg (fun h => k2 _ i2.2 h.2), if_neg (c := SameGeometry v object.first eps) (fun h => k1 _ e2.1 h),
        if_neg (c := SameGeometry v object.second eps) (fun h => k2 _ e2.2 h)]
    refine ⟨hb, ?_⟩
    unfold onEdge
    rw [hb]
    dsimp only
    rw [k0 _ c1 _ i1]
    rfl
  obtain ⟨d1, p1, k1⟩ := key _ h1
  obtain ⟨d2, p2, k2⟩ := key _ h2
  refine ⟨min d1 d2, lt_min p1 p2, fun P hi hc tag eps he => ?_⟩
  rw [lt_min_iff] at hi hc he
  unfold edgeEdgeBoundary
  rw [(k1 P hi.1 hc.1 tag eps he.1).1, (k2 P hi.2 hc.2 tag eps he.2).1,
    (k1 P hi.1 hc.1 tag eps he.1).2, (k2 P hi.2 hc.2 tag eps he.2).2]

/-- The store after `vertex_edge_boundary_intersection`, from what was found. -/
def resolve (s : List Vtx) (edge : ERef) (tag : Int) : Option Found → List Vtx × Option Nat
  | some .first => (s, some edge.first)
  | some .second => (s, some edge.second)
  | some (.made _ x) => alloc s tag x
  | _ => (s, none)

/-- The model with values agrees with the model with a store of C47. -/
theorem resolve_onEdge {P : Params} {s : List Vtx} {t : Nat} {v a b : Vtx} {edge : ERef} {tag : Int}
    {eps : ℝ} {physical : Option Int} (hv : s[t]? = some v) (ha : s[edge.first]? = some a)
    (hb : s[edge.second]? = some b) :
    vertexEdge P s t edge tag eps =
      .ok (resolve s edge tag (onEdge P v ⟨edge.tag, physical, a, b⟩ tag eps)) := by
  have h : vertexEdgeBoundary P s v edge tag eps =
      .ok (resolve s edge tag (onBoundary P v ⟨edge.tag, physical, a, b⟩ tag eps)) := by
    unfold vertexEdgeBoundary onBoundary
    rw [getIdx_of ha, Res.bind_ok, getIdx_of hb, Res.bind_ok]
    repeat' split
    all_goals rfl
  unfold vertexEdge onEdge
  rw [getIdx_of hv, Res.bind_ok, h, Res.bind_ok]
  cases hf : onBoundary P v ⟨edge.tag, physical, a, b⟩ tag eps with
  | none =>
    simp only [resolve, getIdx_of ha, getIdx_of hb, Res.bind_ok]
    cases pointLineIntersection P.collapse v.point a.point b.point P.incidence <;> rfl
  | some f =>
    cases f with
    | raw t o =>
      unfold onBoundary at hf
      repeat' split at hf
      all_goals cases hf
    | _ => rfl

/-! ### Intersections of vertices with many edges -/

/-- The points of the vertices do not change. -/
def Keeps (s s' : List Vtx) : Prop :=
  ∀ (i : Nat) v, s[i]? = some v → ∃ w, s'[i]? = some w ∧ w.point = v.point

theorem Keeps.trans {a b c : List Vtx} (h1 : Keeps a b) (h2 : Keeps b c) : Keeps a c := by
  intro i v hv
  obtain ⟨w, g1, g2⟩ := h1 i v hv
  obtain ⟨x, g3, g4⟩ := h2 i w g1
  exact ⟨x, g3, g4.trans g2⟩

theorem Keeps.valid {s s' : List Vtx} (h : Keeps s s') {tools : List Nat} {e : ERef}
    (hv : Valid s tools e) : Valid s' tools e := by
  have : ∀ i, i < s.length → i < s'.length := by
    intro i hi
    obtain ⟨w, g, -⟩ := h i _ (List.getElem?_eq_getElem hi)
    exact (List.getElem?_eq_some_iff.1 g).1
  exact ⟨fun t ht => this t (hv.tools t ht), this _ hv.first, this _ hv.second⟩

theorem verticesEdge_keeps {P : Params} (hP : P.incidence = 0) (hc : P.collapse = 0) {edge : ERef}
    {tools : List Nat} {s s' : List Vtx} {refs ts : List Nat} {tag : Int}
    (hv : Valid s tools edge) (h : verticesEdge P s tools edge tag 0 = .ok (s', refs, ts)) :
    Keeps s s' := by
  unfold verticesEdge at h
  obtain ⟨⟨s1, rs⟩, h1, h2⟩ := Res.bind_eq_ok.1 h
  cases h2
  obtain ⟨⟨m, rfl⟩, -⟩ := mapVertexEdge_exact hP hc tools s s1 rs hv h1
  intro i v hi
  have := retag_point (rs.filterMap id) (s ++ m) tag i
  rw [List.getElem?_append_left (List.getElem?_eq_some_iff.1 hi).1, hi, Option.map_some,
    Option.map_eq_some_iff] at this
  exact this

/-- The tool with the number `t` is on the edge. -/
def On (s : List Vtx) (e : ERef) (t : Nat) : Prop :=
  ∃ v a b, s[t]? = some v ∧ s[e.first]? = some a ∧ s[e.second]? = some b ∧
    v.point ∈ segment ℝ a.point b.point

theorem Keeps.on {s s' : List Vtx} (h : Keeps s s') {tools : List Nat} {e : ERef}
    (hv : Valid s tools e) {t : Nat} (ht : t ∈ tools) : On s' e t ↔ On s e t := by
  obtain ⟨v', g1, g2⟩ := h t _ (List.getElem?_eq_getElem (hv.tools t ht))
  obtain ⟨a', g3, g4⟩ := h e.first _ (List.getElem?_eq_getElem hv.first)
  obtain ⟨b', g5, g6⟩ := h e.second _ (List.getElem?_eq_getElem hv.second)
  constructor
  · rintro ⟨v, a, b, k1, k2, k3, k4⟩
    rw [g1] at k1
    rw [g3] at k2
    rw [g5] at k3
    cases k1
    cases k2
    cases k3
    rw [g2, g4, g6] at k4
    exact ⟨_, _, _, List.getElem?_eq_getElem _, List.getElem?_eq_getElem _, List.getElem?_eq_getElem _, k4⟩
  · rintro ⟨v, a, b, k1, k2, k3, k4⟩
    rw [List.getElem?_eq_getElem (hv.tools t ht)] at k1
    rw [List.getElem?_eq_getElem hv.first] at k2
    rw [List.getElem?_eq_getElem hv.second] at k3
    cases k1
    cases k2
    cases k3
    refine ⟨_, _, _, g1, g3, g5, ?_⟩
    rw [g2, g4, g6]
    exact k4

/-- What one entry of the result says: the tools on the edge and vertices with their points. -/
structure Entry (s s' : List Vtx) (tools : List Nat) (e : ERef) (o : ERef × List Nat × List Nat) :
    Prop where
  edge : o.1 = e
  tools : ∀ t, t ∈ o.2.2 ↔ t ∈ tools ∧ On s e t
  points : List.Forall₂ (fun (t r : Nat) => ∃ v w, s[t]? = some v ∧ s'[r]? = some w ∧
    w.point = v.point) o.2.2 o.2.1

theorem verticesEdges_exact {P : Params} (hP : P.incidence = 0) (hc : P.collapse = 0)
    {tools : List Nat} : ∀ (edges : List ERef) (s s' : List Vtx) (tag : Int)
      (out : List (ERef × List Nat × List Nat)), (∀ e ∈ edges, Valid s tools e) →
      verticesEdges P tools 0 s tag edges = .ok (s', out) →
      Keeps s s' ∧ List.Forall₂ (Entry s s' tools) edges out
  | [], s, s', tag, out, _, h => by
    unfold verticesEdges at h
    cases h
    exact ⟨fun i v hv => ⟨v, hv, rfl⟩, .nil⟩
  | e :: edges, s, s', tag, out, hv, h => by
    unfold verticesEdges at h
    obtain ⟨⟨s1, refs, ts⟩, h1, h⟩ := Res.bind_eq_ok.1 h
    obtain ⟨vs, -, h⟩ := Res.bind_eq_ok.1 h
    obtain ⟨tag', -, h⟩ := Res.bind_eq_ok.1 h
    obtain ⟨⟨s2, rest⟩, h2, h⟩ := Res.bind_eq_ok.1 h
    cases h
    have hve := hv e (by simp)
    have k1 := verticesEdge_keeps hP hc hve h1
    obtain ⟨k2, k3⟩ := verticesEdges_exact hP hc edges s1 _ tag' rest
      (fun x hx => k1.valid (hv x (by simp [hx]))) h2
    have ha := List.getElem?_eq_getElem hve.first
    have hb := List.getElem?_eq_getElem hve.second
    obtain ⟨m1, m2⟩ := C47_exact_partial hP hc hve ha hb h1
    refine ⟨k1.trans k2, .cons ⟨rfl, fun t => ?_, ?_⟩ ?_⟩
    · rw [m1]
      refine and_congr_right fun _ => ⟨?_, ?_⟩
      · rintro ⟨v, g1, g2⟩
        exact ⟨v, _, _, g1, ha, hb, g2⟩
      · rintro ⟨v, a, b, g1, g2, g3, g4⟩
        rw [ha] at g2
        rw [hb] at g3
        cases g2
        cases g3
        exact ⟨v, g1, g4⟩
    · refine List.forall₂_iff_get.2 ⟨m2.length_eq, fun i hi hi' => ?_⟩
      have hm := List.Forall₂.get m2 hi hi'
      have ht := ((m1 _).1 (List.get_mem ts ⟨i, hi⟩)).2
      obtain ⟨v, g1, -⟩ := ht
      rw [g1, Option.map_some, Option.map_eq_some_iff] at hm
      obtain ⟨w, g2, g3⟩ := hm
      obtain ⟨x, g4, g5⟩ := k2 _ w g2
      exact ⟨v, x, g1, g4, g5.trans g3⟩
    · refine List.forall₂_iff_get.2 ⟨k3.length_eq, fun i hi hi' => ?_⟩
      obtain ⟨q1, q2, q3⟩ := List.Forall₂.get k3 hi hi'
      have hve' := hv _ (List.mem_cons_of_mem _ (List.get_mem edges ⟨i, hi⟩))
      refine ⟨q1, fun t => ?_, ?_⟩
      · rw [q2]
        exact and_congr_right fun ht => k1.on hve' ht
      · refine List.forall₂_iff_get.2 ⟨q3.length_eq, fun j hj hj' => ?_⟩
        obtain ⟨v, w, g1, g2, g3⟩ := List.Forall₂.get q3 hj hj'
        have ht := ((q2 _).1 (List.get_mem _ ⟨j, hj⟩)).1
        have hs := List.getElem?_eq_getElem (hve'.tools _ ht)
        obtain ⟨x, g4, g5⟩ := k1 _ _ hs
        rw [g1] at g4
        cases g4
        exact ⟨_, w, hs, g2, g3.trans g5⟩

end Verif.EdgeOps
