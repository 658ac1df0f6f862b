/-
Lemmas on the intersection of vertices with edges.
-/
import Verif.Lemmas.VertexOps

namespace Verif.VertexOps
open MeshBuild MeshGraph Trace MeshMetrics Geometry
open scoped Classical

/-- The tools and the edge refer to vertices of the store. -/
structure Valid (s : List Vtx) (tools : List Nat) (edge : ERef) : Prop where
  tools : ∀ t ∈ tools, t < s.length
  first : edge.first < s.length
  second : edge.second < s.length

/-- What one tool gives: nothing, a new vertex at the end of the store, or a vertex of the edge with
the tool's tag. -/
inductive Step (s : List Vtx) (v : Vtx) (edge : ERef) (tag : Int) : List Vtx × Option Nat → Prop where
  | none : Step s v edge tag (s, none)
  | new (x : Pt ℝ) : Step s v edge tag (s ++ [⟨tag, none, x⟩], some s.length)
  | old (r : Nat) (w : Vtx) : r = edge.first ∨ r = edge.second → s[r]? = some w → v.tag = w.tag →
      Step s v edge tag (s, some r)

theorem boundary_step {P : Params} {s : List Vtx} {v : Vtx} {edge : ERef} {tag : Int} {eps : ℝ}
    {a b : Vtx} (ha : s[edge.first]? = some a) (hb : s[edge.second]? = some b) :
    ∃ r, vertexEdgeBoundary P s v edge tag eps = .ok r ∧ Step s v edge tag r := by
  unfold vertexEdgeBoundary
  rw [getIdx_of ha, Res.bind_ok, getIdx_of hb, Res.bind_ok]
  split
  · rename_i h; exact ⟨_, rfl, .old _ _ (Or.inl rfl) ha h.1.1⟩
  · split
    · rename_i h; exact ⟨_, rfl, .old _ _ (Or.inr rfl) hb h.1.1⟩
    · split
      · exact ⟨_, rfl, .new _⟩
      · split
        · exact ⟨_, rfl, .new _⟩
        · exact ⟨_, rfl, .none⟩

theorem vertexEdge_step {P : Params} {s : List Vtx} {t : Nat} {v : Vtx} {edge : ERef} {tag : Int}
    {eps : ℝ} {a b : Vtx} (hv : s[t]? = some v) (ha : s[edge.first]? = some a)
    (hb : s[edge.second]? = some b) :
    ∃ r, vertexEdge P s t edge tag eps = .ok r ∧ Step s v edge tag r := by
  obtain ⟨r, h1, h2⟩ := boundary_step (P := P) (v := v) (tag := tag) (eps := eps) ha hb
  unfold vertexEdge
  rw [getIdx_of hv, Res.bind_ok, h1, Res.bind_ok]
  obtain ⟨s', bc⟩ := r
  cases bc with
  | some r => exact ⟨_, rfl, h2⟩
  | none =>
    cases h2
    simp only [getIdx_of ha, getIdx_of hb, Res.bind_ok]
    split
    · exact ⟨_, rfl, .new _⟩
    · exact ⟨_, rfl, .none⟩

/-- The results for all tools. -/
theorem mapVertexEdge_spec {P : Params} {edge : ERef} {eps : ℝ} (hne : edge.first ≠ edge.second) :
    ∀ (tools : List Nat) (s : List Vtx), Valid s tools edge →
      (tools.map fun t => (s[t]?).map Vtx.tag).Nodup →
      ∃ s' rs, mapVertexEdge P edge eps s tools = .ok (s', rs) ∧ (∃ m, s' = s ++ m) ∧
        rs.length = tools.length ∧ (rs.filterMap id).Nodup ∧
        ∀ r ∈ rs.filterMap id, r < s'.length ∧ (s.length ≤ r ∨
          ((r = edge.first ∨ r = edge.second) ∧
            ∃ t ∈ tools, (s[t]?).map Vtx.tag = (s[r]?).map Vtx.tag))
  | [], s, _, _ => ⟨s, [], rfl, ⟨[], by simp⟩, rfl, by simp, by simp⟩
  | t :: tools, s, hv, hd => by
    have ht := List.getElem?_eq_getElem (hv.tools t (by simp))
    have ha := List.getElem?_eq_getElem hv.first
    have hb := List.getElem?_eq_getElem hv.second
    rw [List.map_cons, List.nodup_cons] at hd
    obtain ⟨r, e1, st⟩ := vertexEdge_step (P := P) (tag := minTag) (eps := eps) ht ha hb
    have hext : ∃ m, r.1 = s ++ m := by
      cases st
      · exact ⟨[], by simp⟩
      · exact ⟨_, rfl⟩
      · exact ⟨[], by simp⟩
    obtain ⟨m, hm⟩ := hext
    have get : ∀ i, i < s.length → r.1[i]? = s[i]? := by
      intro i hi; rw [hm, List.getElem?_append_left hi]
    have hlen : s.length ≤ r.1.length := by rw [hm]; simp
    obtain ⟨s', rs, f1, ⟨m', hm'⟩, f3, f4, f5⟩ := mapVertexEdge_spec (P := P) (eps := eps) hne tools r.1
      ⟨fun t ht => (hv.tools t (List.mem_cons_of_mem _ ht)).trans_le hlen, hv.first.trans_le hlen,
        hv.second.trans_le hlen⟩ (by
        rw [List.map_congr_left (g := fun t => (s[t]?).map Vtx.tag)]
        · exact hd.2
        · intro t' ht'
          rw [get t' (hv.tools t' (List.mem_cons_of_mem _ ht'))])
    have hlen' : r.1.length ≤ s'.length := by rw [hm']; simp
    have f5' : ∀ q ∈ rs.filterMap id, q < s'.length ∧ (s.length ≤ q ∨
          ((q = edge.first ∨ q = edge.second) ∧
            ∃ t ∈ tools, (s[t]?).map Vtx.tag = (s[q]?).map Vtx.tag)) := by
      intro q hq
      obtain ⟨g1, g2⟩ := f5 q hq
      refine ⟨g1, ?_⟩
      rcases g2 with g2 | ⟨g2, t', ht', g3⟩
      · exact Or.inl (hlen.trans g2)
      · right
        refine ⟨g2, t', ht', ?_⟩
        rw [get t' (hv.tools t' (List.mem_cons_of_mem _ ht')), get q] at g3
        · exact g3
        · rcases g2 with rfl | rfl
          · exact hv.first
          · exact hv.second
    refine ⟨s', r.2 :: rs, ?_, ⟨m ++ m', by rw [hm', hm, List.append_assoc]⟩, by simp [f3], ?_, ?_⟩
    · unfold mapVertexEdge
      rw [e1, Res.bind_ok]
      simp only
      rw [f1, Res.bind_ok]
      rfl
    · cases st with
      | none => simpa using f4
      | new x =>
        simp only [List.filterMap_cons, id]
        rw [List.nodup_cons]
        refine ⟨fun hq => ?_, f4⟩
        rcases (f5 _ hq).2 with g | ⟨g, -⟩
        · simp at g
        · rcases g with g | g
          · exact absurd hv.first (by omega)
          · exact absurd hv.second (by omega)
      | old q w h1 h2 h3 =>
        simp only [List.filterMap_cons, id]
        rw [List.nodup_cons]
        refine ⟨fun hq => ?_, f4⟩
        have hq' : q < s.length := (List.getElem?_eq_some_iff.1 h2).1
        rcases (f5' _ hq).2 with g | ⟨-, t', ht', g⟩
        · omega
        · refine hd.1 (List.mem_map.2 ⟨t', ht', ?_⟩)
          rw [g, h2, ht]
          simp [h3]
    · intro q hq
      have hold : q ∈ rs.filterMap id → q < s'.length ∧ (s.length ≤ q ∨
          ((q = edge.first ∨ q = edge.second) ∧
            ∃ t' ∈ t :: tools, (s[t']?).map Vtx.tag = (s[q]?).map Vtx.tag)) := by
        intro hq
        obtain ⟨g1, g2⟩ := f5' q hq
        refine ⟨g1, g2.imp_right ?_⟩
        rintro ⟨g2, t', ht', g3⟩
        exact ⟨g2, t', List.mem_cons_of_mem _ ht', g3⟩
      cases st with
      | none => exact hold (by simpa using hq)
      | new x =>
        simp only [List.filterMap_cons, id, List.mem_cons] at hq
        rcases hq with rfl | hq
        · exact ⟨by simp at hlen'; omega, Or.inl le_rfl⟩
        · exact hold hq
      | old q' w h1 h2 h3 =>
        simp only [List.filterMap_cons, id, List.mem_cons] at hq
        rcases hq with rfl | hq
        · have := (List.getElem?_eq_some_iff.1 h2).1
          refine ⟨by simp at hlen'; omega, Or.inr ⟨h1, t, by simp, ?_⟩⟩
          rw [h2, ht]; simp [h3]
        · exact hold hq

/-- The tags given to distinct vertices. -/
theorem retag_spec : ∀ (refs : List Nat) (s : List Vtx) (tag : Int), refs.Nodup →
    (∀ r ∈ refs, r < s.length) →
    (retag s tag refs).length = s.length ∧
    (∀ i, i ∉ refs → (retag s tag refs)[i]? = s[i]?) ∧
    (∀ i : Nat, ((retag s tag refs)[i]?).map Vtx.point = (s[i]?).map Vtx.point) ∧
    ∃ vs, fancy (retag s tag refs) refs = .ok vs ∧ vs.map Vtx.tag = consec tag refs.length
  | [], s, tag, _, _ => ⟨rfl, fun _ _ => rfl, fun _ => rfl, [], rfl, rfl⟩
  | r :: refs, s, tag, hn, hlt => by
    rw [List.nodup_cons] at hn
    have hlen : (setTag s r tag).length = s.length := by simp [setTag]
    obtain ⟨h1, h2, h3, vs, h4, h5⟩ := retag_spec refs (setTag s r tag) (tag + 1) hn.2 (by
      intro q hq; rw [hlen]; exact hlt q (List.mem_cons_of_mem _ hq))
    have hr := List.getElem?_eq_getElem (hlt r (by simp))
    have hr' : (setTag s r tag)[r]? = some { s[r]'(hlt r (by simp)) with tag := tag } := by
      unfold setTag
      rw [List.getElem?_modify, hr]; simp
    refine ⟨h1.trans hlen, ?_, ?_, { s[r]'(hlt r (by simp)) with tag := tag } :: vs, ?_, ?_⟩
    · intro i hi
      rw [List.mem_cons, not_or] at hi
      show (retag (setTag s r tag) (tag + 1) refs)[i]? = _
      rw [h2 i hi.2]
      unfold setTag
      rw [List.getElem?_modify]
      simp only [if_neg (Ne.symm hi.1)]
      simp
    · intro i
      show ((retag (setTag s r tag) (tag + 1) refs)[i]?).map _ = _
      rw [h3 i]
      unfold setTag
      rw [List.getElem?_modify]
      cases s[i]? with
      | none => rfl
      | some v => simp only [Option.map_some]; split <;> rfl
    · rw [fancy_iff] at h4 ⊢
      refine .cons ?_ h4
      show (retag (setTag s r tag) (tag + 1) refs)[r]? = _
      rw [h2 r hn.1, hr']
    · rw [List.map_cons, h5, List.length_cons, Nat.add_comm, consec_append]
      simp [consec]

theorem verticesEdge_spec {P : Params} {edge : ERef} {eps : ℝ} (hne : edge.first ≠ edge.second)
    {tools : List Nat} {s : List Vtx} (hv : Valid s tools edge)
    (hd : (tools.map fun t => (s[t]?).map Vtx.tag).Nodup) (tag : Int) :
    ∃ s' refs ts vs, verticesEdge P s tools edge tag eps = .ok (s', refs, ts) ∧ refs.Nodup ∧
      s.length ≤ s'.length ∧ (∀ r ∈ refs, r < s'.length) ∧
      fancy s' refs = .ok vs ∧ vs.map Vtx.tag = consec tag refs.length := by
  obtain ⟨s', rs, h1, ⟨m, hm⟩, -, h4, h5⟩ := mapVertexEdge_spec (P := P) (eps := eps) hne tools s hv hd
  obtain ⟨g1, -, -, vs, g2, g3⟩ := retag_spec (rs.filterMap id) s' tag h4 fun r hr => (h5 r hr).1
  refine ⟨retag s' tag (rs.filterMap id), rs.filterMap id,
    maskFilter tools (rs.map Option.isSome), vs, ?_, h4, ?_, ?_, g2, g3⟩
  · unfold verticesEdge
    rw [h1, Res.bind_ok]
    rfl
  · rw [g1, hm]; simp
  · intro r hr; rw [g1]; exact (h5 r hr).1

/-! ### Exact tolerances -/

theorem boundary_exact {P : Params} (hP : P.incidence = 0) {s : List Vtx} {v : Vtx}
    {edge : ERef} {tag : Int} {a b : Vtx} (ha : s[edge.first]? = some a)
    (hb : s[edge.second]? = some b) {s' : List Vtx} {r : Option Nat}
    (h : vertexEdgeBoundary P s v edge tag 0 = .ok (s', r)) :
    (r = none → s' = s ∧ v.point ≠ a.point ∧ v.point ≠ b.point) ∧
    ∀ q, r = some q → (s'[q]?).map Vtx.point = some v.point ∧
      (v.point = a.point ∨ v.point = b.point) := by
  unfold vertexEdgeBoundary at h
  rw [getIdx_of ha, Res.bind_ok, getIdx_of hb, Res.bind_ok] at h
  unfold StrongEquality SameGeometry at h
  rw [hP] at h
  simp only [close_zero] at h
  split at h
  · rename_i hs
    cases h
    refine ⟨by simp, fun q hq => ?_⟩
    cases hq
    rw [ha]
    exact ⟨by rw [hs.2]; rfl, Or.inl hs.2⟩
  · split at h
    · rename_i hs
      cases h
      refine ⟨by simp, fun q hq => ?_⟩
      cases hq
      rw [hb]
      exact ⟨by rw [hs.2]; rfl, Or.inr hs.2⟩
    · split at h
      · rename_i hs
        cases h
        refine ⟨by simp, fun q hq => ?_⟩
        cases hq
        refine ⟨?_, Or.inl hs⟩
        rw [List.getElem?_append_right le_rfl]
        simp [hs]
      · split at h
        · rename_i hs
          cases h
          refine ⟨by simp, fun q hq => ?_⟩
          cases hq
          refine ⟨?_, Or.inr hs⟩
          rw [List.getElem?_append_right le_rfl]
          simp [hs]
        · rename_i h1 h2
          cases h
          exact ⟨fun _ => ⟨rfl, h1, h2⟩, by simp⟩

/-- With zero tolerances a tool has an intersection when its point is on the edge, and the
intersection has the same point. -/
theorem vertexEdge_exact {P : Params} (hP : P.incidence = 0) (hc : P.collapse = 0) {s : List Vtx}
    {t : Nat} {v : Vtx} {edge : ERef} {tag : Int} {a b : Vtx} (hv : s[t]? = some v)
    (ha : s[edge.first]? = some a) (hb : s[edge.second]? = some b) {s' : List Vtx} {r : Option Nat}
    (h : vertexEdge P s t edge tag 0 = .ok (s', r)) :
    (r.isSome ↔ v.point ∈ segment ℝ a.point b.point) ∧
    ∀ q, r = some q → (s'[q]?).map Vtx.point = some v.point := by
  obtain ⟨⟨s1, r1⟩, e1, -⟩ := boundary_step (P := P) (v := v) (tag := tag) (eps := 0) ha hb
  unfold vertexEdge at h
  rw [getIdx_of hv, Res.bind_ok, e1, Res.bind_ok] at h
  obtain ⟨g1, g2⟩ := boundary_exact hP ha hb e1
  cases r1 with
  | some q =>
    cases h
    obtain ⟨k1, k2⟩ := g2 q rfl
    refine ⟨⟨fun _ => ?_, fun _ => rfl⟩, fun q' hq' => by cases hq'; exact k1⟩
    rcases k2 with k2 | k2
    · rw [k2]; exact left_mem_segment ℝ _ _
    · rw [k2]; exact right_mem_segment ℝ _ _
  | none =>
    obtain ⟨rfl, k1, k2⟩ := g1 rfl
    simp only [getIdx_of ha, getIdx_of hb, Res.bind_ok, hP, hc] at h
    cases hp : pointLineIntersection 0 v.point a.point b.point 0 with
    | none =>
      rw [hp] at h
      cases h
      refine ⟨⟨by simp, fun hm => ?_⟩, by simp⟩
      have := (pointLine_exact (x := v.point)).2 ⟨rfl, hm⟩
      rw [hp] at this; cases this
    | some x =>
      rw [hp] at h
      cases h
      obtain ⟨rfl, hm⟩ := pointLine_exact.1 hp
      refine ⟨⟨fun _ => hm, fun _ => rfl⟩, fun q hq => ?_⟩
      cases hq
      rw [List.getElem?_append_right le_rfl]
      simp

theorem mapVertexEdge_exact {P : Params} (hP : P.incidence = 0) (hc : P.collapse = 0) {edge : ERef} :
    ∀ (tools : List Nat) (s s' : List Vtx) (rs : List (Option Nat)), Valid s tools edge →
      mapVertexEdge P edge 0 s tools = .ok (s', rs) → (∃ m, s' = s ++ m) ∧
      ∀ a b, s[edge.first]? = some a → s[edge.second]? = some b →
      List.Forall₂ (fun t (r : Option Nat) => ∀ v, s[t]? = some v →
        (r.isSome ↔ v.point ∈ segment ℝ a.point b.point) ∧
        ∀ q, r = some q → (s'[q]?).map Vtx.point = some v.point) tools rs
  | [], s, s', rs, _, h => by
    cases h
    exact ⟨⟨[], by simp⟩, fun _ _ _ _ => .nil⟩
  | t :: tools, s, s', rs, hv, h => by
    have ht := List.getElem?_eq_getElem (hv.tools t (by simp))
    have ha := List.getElem?_eq_getElem hv.first
    have hb := List.getElem?_eq_getElem hv.second
    obtain ⟨⟨s1, r1⟩, e1, st⟩ := vertexEdge_step (P := P) (tag := minTag) (eps := 0) ht ha hb
    have hext : ∃ m, s1 = s ++ m := by
      cases st
      · exact ⟨[], by simp⟩
      · exact ⟨_, rfl⟩
      · exact ⟨[], by simp⟩
    obtain ⟨m, hm⟩ := hext
    have hlen : s.length ≤ s1.length := by rw [hm]; simp
    have get : ∀ i, i < s.length → s1[i]? = s[i]? := by
      intro i hi; rw [hm, List.getElem?_append_left hi]
    unfold mapVertexEdge at h
    rw [e1, Res.bind_ok] at h
    simp only at h
    obtain ⟨⟨s2, rs'⟩, h2, h3⟩ := Res.bind_eq_ok.1 h
    cases h3
    obtain ⟨⟨m', hm'⟩, ih⟩ := mapVertexEdge_exact hP hc tools s1 _ _
      ⟨fun t ht => (hv.tools t (List.mem_cons_of_mem _ ht)).trans_le hlen, hv.first.trans_le hlen,
        hv.second.trans_le hlen⟩ h2
    refine ⟨⟨m ++ m', by rw [hm', hm, List.append_assoc]⟩, fun a b ha' hb' => .cons ?_ ?_⟩
    · intro v hv'
      obtain ⟨k1, k2⟩ := vertexEdge_exact hP hc hv' ha' hb' e1
      refine ⟨k1, fun q hq => ?_⟩
      have := k2 q hq
      obtain ⟨w, hw, hw'⟩ := Option.map_eq_some_iff.1 this
      rw [hm', List.getElem?_append_left (List.getElem?_eq_some_iff.1 hw).1]
      exact this
    · have := ih a b (by rw [get _ hv.first, ha']) (by rw [get _ hv.second, hb'])
      refine (List.forall₂_iff_get.2 ⟨this.length_eq, fun i h1 h2 v hv' => ?_⟩)
      have k := List.Forall₂.get this h1 h2
      refine k v ?_
      rw [get _ (List.getElem?_eq_some_iff.1 hv').1]
      exact hv'

theorem retag_point : ∀ (refs : List Nat) (s : List Vtx) (tag : Int) (i : Nat),
    ((retag s tag refs)[i]?).map Vtx.point = (s[i]?).map Vtx.point
  | [], _, _, _ => rfl
  | r :: refs, s, tag, i => by
    show ((retag (setTag s r tag) (tag + 1) refs)[i]?).map _ = _
    rw [retag_point refs _ _ i]
    unfold setTag
    rw [List.getElem?_modify]
    cases s[i]? with
    | none => rfl
    | some v => simp only [Option.map_some]; split <;> rfl

theorem masked {R : Nat → Prop} {Q : Nat → Nat → Prop} {tools : List Nat} {rs : List (Option Nat)}
    (h : List.Forall₂ (fun t (r : Option Nat) => (r.isSome ↔ R t) ∧ ∀ q, r = some q → Q t q)
      tools rs) :
    (∀ t, t ∈ maskFilter tools (rs.map Option.isSome) → t ∈ tools ∧ R t) ∧
    (∀ t ∈ tools, R t → t ∈ maskFilter tools (rs.map Option.isSome)) ∧
    List.Forall₂ Q (maskFilter tools (rs.map Option.isSome)) (rs.filterMap id) := by
  induction h with
  | nil => exact ⟨by simp [maskFilter], by simp, .nil⟩
  | @cons t r tools rs h _ ih =>
    obtain ⟨h1, h2, h3⟩ := ih
    cases r with
    | none =>
      have e : maskFilter (t :: tools) ((none :: rs).map Option.isSome) =
          maskFilter tools (rs.map Option.isSome) := by simp [maskFilter]
      rw [e]
      refine ⟨fun t' ht' => ?_, fun t' ht' hR => ?_, ?_⟩
      · obtain ⟨k1, k2⟩ := h1 t' ht'
        exact ⟨List.mem_cons_of_mem _ k1, k2⟩
      · rcases List.mem_cons.1 ht' with rfl | ht'
        · have := h.1.2 hR; cases this
        · exact h2 t' ht' hR
      · simpa using h3
    | some q =>
      have e : maskFilter (t :: tools) ((some q :: rs).map Option.isSome) =
          t :: maskFilter tools (rs.map Option.isSome) := by simp [maskFilter]
      rw [e]
      refine ⟨fun t' ht' => ?_, fun t' ht' hR => ?_, ?_⟩
      · rcases List.mem_cons.1 ht' with rfl | ht'
        · exact ⟨by simp, h.1.1 rfl⟩
        · obtain ⟨k1, k2⟩ := h1 t' ht'
          exact ⟨List.mem_cons_of_mem _ k1, k2⟩
      · rcases List.mem_cons.1 ht' with rfl | ht'
        · simp
        · exact List.mem_cons_of_mem _ (h2 t' ht' hR)
      · exact .cons (h.2 q rfl) h3

end Verif.VertexOps
