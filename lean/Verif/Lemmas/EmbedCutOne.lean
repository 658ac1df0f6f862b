/-
Lemmas for C34: one pass of the cut as a whole.
-/
import Verif.Lemmas.EmbedCutNodes

namespace Verif.EmbedCut
open MeshBuild MeshGraph Trace MeshMetrics MeshOps Skin

variable {s : Style} {k : Cut} {p q : Parts} {S : Seam}

theorem forall₂_get {α β : Type} {R : α → β → Prop} {l : List α} {m : List β}
    (h : List.Forall₂ R l m) : ∀ {i : Nat} {a : α}, l[i]? = some a → ∃ b, m[i]? = some b ∧ R a b := by
  induction h with
  | nil => intro i a h; simp at h
  | @cons a b l m h1 _ ih =>
    intro i a' h
    cases i with
    | zero => exact ⟨b, by simp, by simpa using (show a = a' by simpa using h) ▸ h1⟩
    | succ i => simpa using ih (by simpa using h)

theorem startOf_split {σ : Bool} {n m i : Nat} : ∀ (_ : n ≤ i) (_ : i < n + 2 * m),
    ∃ σ j, j < m ∧ i = startOf σ n m + j := by
  intro h1 h2
  by_cases h : i < n + m
  · exact ⟨true, i - n, by omega, by simp only [startOf, if_true]; omega⟩
  · exact ⟨false, i - (n + m), by omega, by simp only [startOf]; simp; omega⟩

theorem startOf_le (σ : Bool) (n m : Nat) : n ≤ startOf σ n m := by
  unfold startOf; split <;> omega

theorem startOf_lt {σ : Bool} {n m j : Nat} (h : j < m) : startOf σ n m + j < n + 2 * m := by
  unfold startOf; split <;> omega

theorem startOf_inj {σ τ : Bool} {n m i j : Nat} (hi : i < m) (hj : j < m)
    (h : startOf σ n m + i = startOf τ n m + j) : σ = τ ∧ i = j := by
  cases σ <;> cases τ <;> simp [startOf] at h ⊢ <;> omega

/-- What the cells of the cut mesh are. -/
theorem IsCutAlong.cases (h : IsCutAlong s k p q S) (hp : CutOK p.cells p.points.length) {i : Nat}
    {c' : Cell} (hc : Stored q.cells i c') :
    (∃ c, Stored p.cells i c ∧ (c.dimension = 0 ∨ i ∈ S.edges) ∧ c' = c) ∨
    (∃ c σ, Stored p.cells i c ∧ 0 < c.dimension ∧ i ∉ S.edges ∧ Side k p.points c σ ∧
      c' = renamed (S.edge p σ) (S.vertex p σ) (S.node p σ) c) ∨
    (∃ σ j e c m vs, S.edges[j]? = some e ∧ i = S.edgeStart p σ + j ∧ Stored p.cells e c ∧
      c.dimension = 1 ∧ k.mat = some m ∧ c.sub[0]? = some vs ∧
      c' = ⟨1, i, some (s.scale * m + sign σ), c.nodeTags.map (S.node p σ),
        [vs.map (S.vertex p σ), s.own i e]⟩) ∨
    (∃ σ j v c m, S.vertices[j]? = some v ∧ i = S.vertexStart p σ + j ∧ Stored p.cells v c ∧
      k.mat = some m ∧ c' = ⟨0, i, c.material.map fun _ => s.scale * m + sign σ,
        [S.nodeStart p σ + j], [[S.nodeStart p σ + j]]⟩) := by
  have hi := stored_lt hc
  rw [h.length] at hi
  by_cases h1 : i < p.cells.length
  · obtain ⟨c, hs⟩ := hp.filled i h1
    by_cases h2 : c.dimension = 0 ∨ i ∈ S.edges
    · exact .inl ⟨c, hs, h2, stored_unique' hc (h.kept i c hs h2)⟩
    · rw [not_or] at h2
      obtain ⟨σ, h3, h4⟩ := h.moved i c hs (by omega) h2.2
      exact .inr (.inl ⟨c, σ, hs, by omega, h2.2, h3, stored_unique' hc h4⟩)
  · by_cases h2 : i < p.cells.length + 2 * S.edges.length
    · obtain ⟨σ, j, hj, e⟩ := startOf_split (σ := true) (by omega) h2
      have hj' := List.getElem?_eq_getElem hj
      obtain ⟨c, h3, -, h4⟩ := (h.seam.edges _).1 (List.mem_of_getElem? hj')
      obtain ⟨m, vs, h5, h6, h7⟩ := h.edgeCopy σ j _ c hj' h3
      have e' : i = S.edgeStart p σ + j := e
      rw [← e'] at h7
      exact .inr (.inr (.inl ⟨σ, j, _, c, m, vs, hj', e', h3, h4, h5, h6, stored_unique' hc h7⟩))
    · obtain ⟨σ, j, hj, e⟩ := startOf_split (σ := true) (n := p.cells.length + 2 * S.edges.length)
        (by omega) hi
      have hj' := List.getElem?_eq_getElem hj
      obtain ⟨c, h3, -, h4⟩ := (h.seam.vertices _).1 (List.mem_of_getElem? hj')
      obtain ⟨m, h5, h7⟩ := h.vertexCopy σ j _ c hj' h3
      have e' : i = S.vertexStart p σ + j := e
      rw [← e'] at h7
      exact .inr (.inr (.inr ⟨σ, j, _, c, m, hj', e', h3, h5, stored_unique' hc h7⟩))

/-- Old cells stay and keep their dimension. -/
theorem IsCutAlong.hasDim (h : IsCutAlong s k p q S) {e x : Nat} (hx : HasDim p.cells e x) :
    HasDim q.cells e x := by
  obtain ⟨c, hc, hd⟩ := hx
  by_cases h2 : c.dimension = 0 ∨ x ∈ S.edges
  · exact ⟨c, h.kept x c hc h2, hd⟩
  · rw [not_or] at h2
    obtain ⟨σ, -, h4⟩ := h.moved x c hc (by omega) h2.2
    exact ⟨_, h4, hd⟩

theorem mem_get {l : List Nat} {x : Nat} (h : x ∈ l) : ∃ j : Nat, l[j]? = some x := by
  obtain ⟨j, hj, rfl⟩ := List.mem_iff_getElem.1 h
  exact ⟨j, List.getElem?_eq_getElem hj⟩

theorem IsCutAlong.hasDim_edge (h : IsCutAlong s k p q S) (σ : Bool) {x : Nat}
    (hx : HasDim p.cells 1 x) : HasDim q.cells 1 (S.edge p σ x) := by
  by_cases hm : x ∈ S.edges
  · obtain ⟨j, hj⟩ := mem_get hm
    obtain ⟨c, h3, -, h4⟩ := (h.seam.edges _).1 hm
    obtain ⟨m, vs, -, -, h7⟩ := h.edgeCopy σ j _ c hj h3
    rw [Seam.edge, copyOf_of_get h.seam.edgesNodup hj]
    exact ⟨_, h7, rfl⟩
  · rw [Seam.edge, copyOf_of_not_mem hm]
    exact h.hasDim hx

theorem IsSeam.vertex_dim (h : IsSeam k p S) {v : Nat} (hv : v ∈ S.vertices) :
    HasDim p.cells 0 v := by
  obtain ⟨j, hj⟩ := mem_get hv
  obtain ⟨t, -, c, hc, hd, -⟩ := forall₂_get h.tags hj
  exact ⟨c, hc, hd⟩

/-- The vertices of a side have the nodes of this side. -/
theorem IsCutAlong.vtag (h : IsCutAlong s k p q S) (hp : CutOK p.cells p.points.length) (σ : Bool)
    {v t : Nat} (hv : VTag p.cells v t) : VTag q.cells (S.vertex p σ v) (S.node p σ t) := by
  obtain ⟨h1, h2⟩ := copy_tag hp h.seam.tags hv
  by_cases hm : v ∈ S.vertices
  · obtain ⟨h3, h4⟩ := h2 hm
    obtain ⟨j, hj⟩ := mem_get hm
    obtain ⟨c, hc, hd, -⟩ := hv
    obtain ⟨m, -, h7⟩ := h.vertexCopy σ j _ c hj hc
    have e : S.vertices.idxOf v = j := by
      obtain ⟨hjl, rfl⟩ := List.getElem?_eq_some_iff.1 hj
      exact h.seam.verticesNodup.idxOf_getElem j hjl
    rw [Seam.vertex, copyOf_of_get h.seam.verticesNodup hj, Seam.node, copyOf, if_pos h3, h4, e]
    exact ⟨_, h7, rfl, rfl⟩
  · rw [Seam.vertex, copyOf_of_not_mem hm, Seam.node, copyOf_of_not_mem (h1 hm)]
    obtain ⟨c, hc, hd, e⟩ := hv
    exact ⟨c, h.kept v c hc (.inl hd), hd, e⟩

theorem IsCutAlong.vtag_old (h : IsCutAlong s k p q S) {v t : Nat} (hv : VTag p.cells v t) :
    VTag q.cells v t := by
  obtain ⟨c, hc, hd, e⟩ := hv
  exact ⟨c, h.kept v c hc (.inl hd), hd, e⟩

theorem IsCutAlong.hasDim_vertex (h : IsCutAlong s k p q S) (hp : CutOK p.cells p.points.length)
    (σ : Bool) {x : Nat} (hx : HasDim p.cells 0 x) : HasDim q.cells 0 (S.vertex p σ x) := by
  obtain ⟨c, hc, hd⟩ := hx
  obtain ⟨t, -, e⟩ := hp.vertex x c hc hd
  obtain ⟨c', hc', hd', -⟩ := h.vtag hp σ ⟨c, hc, hd, e⟩
  exact ⟨c', hc', hd'⟩

theorem IsCutAlong.points_length (h : IsCutAlong s k p q S) :
    q.points.length = p.points.length + 2 * S.vertices.length := by
  obtain ⟨xs, h1, h2⟩ := h.points
  rw [h2, List.length_append, List.length_append, ← h1.length_eq, ← h.seam.tags.length_eq]
  omega

theorem renamed_sub0 {E V T : Nat → Nat} {c : Cell} :
    (renamed E V T c).sub[0]? = (c.sub[0]?).map (·.map V) := by
  simp only [renamed, List.getElem?_modify, if_true]
  split
  · rw [List.getElem?_modify]
    cases c.sub[0]? <;> simp
  · cases c.sub[0]? <;> simp

theorem renamed_sub1 {E V T : Nat → Nat} {c : Cell} (hd : c.dimension = 2) :
    (renamed E V T c).sub[1]? = (c.sub[1]?).map (·.map E) := by
  simp only [renamed, hd, if_true, List.getElem?_modify]
  cases c.sub[1]? <;> simp

theorem renamed_length {E V T : Nat → Nat} {c : Cell} :
    (renamed E V T c).sub.length = c.sub.length := by
  simp only [renamed, List.length_modify]
  split <;> simp

/-- The cut mesh can be cut again. -/
theorem IsCutAlong.ok (h : IsCutAlong s k p q S) (hp : CutOK p.cells p.points.length) :
    CutOK q.cells q.points.length where
  filled := by
    intro i hi
    rw [h.length] at hi
    by_cases h1 : i < p.cells.length
    · obtain ⟨c, hc⟩ := hp.filled i h1
      obtain ⟨c', hc', -⟩ := h.hasDim ⟨c, hc, rfl⟩
      exact ⟨c', hc'⟩
    · by_cases h2 : i < p.cells.length + 2 * S.edges.length
      · obtain ⟨σ, j, hj, rfl⟩ := startOf_split (σ := true) (by omega) h2
        have hj' := List.getElem?_eq_getElem hj
        obtain ⟨c, h3, -, h4⟩ := (h.seam.edges _).1 (List.mem_of_getElem? hj')
        obtain ⟨m, vs, h5, h6, h7⟩ := h.edgeCopy σ j _ c hj' h3
        exact ⟨_, h7⟩
      · obtain ⟨σ, j, hj, rfl⟩ := startOf_split (σ := true)
          (n := p.cells.length + 2 * S.edges.length) (by omega) hi
        have hj' := List.getElem?_eq_getElem hj
        obtain ⟨c, h3, -, h4⟩ := (h.seam.vertices _).1 (List.mem_of_getElem? hj')
        obtain ⟨m, h5, h7⟩ := h.vertexCopy σ j _ c hj' h3
        exact ⟨_, h7⟩
  ids := by
    intro i c' hc
    obtain ⟨c, h1, -, rfl⟩ | ⟨c, σ, h1, -, -, -, rfl⟩ | ⟨σ, j, e, c, m, vs, -, -, -, -, -, -, rfl⟩ |
      ⟨σ, j, v, c, m, -, -, -, -, rfl⟩ := h.cases hp hc
    · exact hp.ids i _ h1
    · exact hp.ids i c h1
    · rfl
    · rfl
  dims := by
    intro i c' hc
    obtain ⟨c, h1, -, rfl⟩ | ⟨c, σ, h1, -, -, -, rfl⟩ | ⟨σ, j, e, c, m, vs, -, -, -, -, -, -, rfl⟩ |
      ⟨σ, j, v, c, m, -, -, -, -, rfl⟩ := h.cases hp hc
    · exact hp.dims i _ h1
    · exact hp.dims i c h1
    · simp
    · simp
  subLen := by
    intro i c' hc
    obtain ⟨c, h1, -, rfl⟩ | ⟨c, σ, h1, -, -, -, rfl⟩ | ⟨σ, j, e, c, m, vs, -, -, -, -, -, -, rfl⟩ |
      ⟨σ, j, v, c, m, -, -, -, -, rfl⟩ := h.cases hp hc
    · exact hp.subLen i _ h1
    · rw [renamed_length, hp.subLen i _ h1]
      rfl
    · simp
    · simp
  sub := by
    intro i c' hc e he ids hids x hx
    obtain ⟨c, h1, -, rfl⟩ | ⟨c, σ, h1, -, -, -, rfl⟩ | ⟨σ, j, e', c, m, vs, -, -, h3, h4, -, h6, rfl⟩ |
      ⟨σ, j, v, c, m, -, -, -, -, rfl⟩ := h.cases hp hc
    · exact h.hasDim (hp.sub i _ h1 e he ids hids x hx)
    · have hd := hp.dims i c h1
      have he' : e < c.dimension := he
      obtain rfl | ⟨rfl, hd⟩ : e = 0 ∨ (e = 1 ∧ c.dimension = 2) := by omega
      · rw [renamed_sub0, Option.map_eq_some_iff] at hids
        obtain ⟨vs, h3, rfl⟩ := hids
        obtain ⟨y, hy, rfl⟩ := List.mem_map.1 hx
        exact h.hasDim_vertex hp σ (hp.sub i c h1 0 he' vs h3 y hy)
      · rw [renamed_sub1 hd, Option.map_eq_some_iff] at hids
        obtain ⟨vs, h3, rfl⟩ := hids
        obtain ⟨y, hy, rfl⟩ := List.mem_map.1 hx
        exact h.hasDim_edge σ (hp.sub i c h1 1 he' vs h3 y hy)
    · obtain rfl : e = 0 := by simpa using he
      obtain rfl : vs.map (S.vertex p σ) = ids := by simpa using hids
      obtain ⟨y, hy, rfl⟩ := List.mem_map.1 hx
      exact h.hasDim_vertex hp σ (hp.sub e' c h3 0 (by omega) vs h6 y hy)
    · simp at he
  vertex := by
    intro i c' hc hd
    rw [h.points_length]
    obtain ⟨c, h1, -, rfl⟩ | ⟨c, σ, h1, h2, -, -, rfl⟩ | ⟨σ, j, e', c, m, vs, -, -, -, -, -, -, rfl⟩ |
      ⟨σ, j, v, c, m, h1, -, -, -, rfl⟩ := h.cases hp hc
    · obtain ⟨t, ht, e⟩ := hp.vertex i _ h1 hd
      exact ⟨t, by omega, e⟩
    · have : c.dimension = 0 := hd
      omega
    · simp at hd
    · exact ⟨_, startOf_lt (List.getElem?_eq_some_iff.1 h1).1, rfl⟩
  nodes := by
    intro i c' hc hd vs hvs
    obtain ⟨c, h1, h2, rfl⟩ | ⟨c, σ, h1, h2, -, -, rfl⟩ |
      ⟨σ, j, e', c, m, ws, -, -, h3, h4, -, h6, rfl⟩ | ⟨σ, j, v, c, m, h1, -, -, -, rfl⟩ :=
      h.cases hp hc
    · obtain ⟨h3, h4⟩ := hp.nodes i _ h1 hd vs hvs
      exact ⟨h3, h4.imp fun _ _ => h.vtag_old⟩
    · rw [renamed_sub0, Option.map_eq_some_iff] at hvs
      obtain ⟨ws, h3, rfl⟩ := hvs
      obtain ⟨h4, h5⟩ := hp.nodes i _ h1 h2 ws h3
      refine ⟨by simpa using h4, ?_⟩
      simp only [renamed]
      rw [List.forall₂_map_left_iff, List.forall₂_map_right_iff]
      exact h5.imp fun _ _ => h.vtag hp σ
    · obtain rfl : ws.map (S.vertex p σ) = vs := by simpa using hvs
      obtain ⟨h7, h5⟩ := hp.nodes e' _ h3 (by omega) ws h6
      refine ⟨by simpa using h7, ?_⟩
      dsimp only
      rw [List.forall₂_map_left_iff, List.forall₂_map_right_iff]
      exact h5.imp fun _ _ => h.vtag hp σ
    · simp at hd
  distinct := by
    have key : ∀ v t, VTag q.cells v t → VTag p.cells v t ∨ ∃ σ j, j < S.vertices.length ∧
        v = S.vertexStart p σ + j ∧ t = S.nodeStart p σ + j := by
      rintro v t ⟨c', hc, hd, e⟩
      obtain ⟨c, h1, h2, rfl⟩ | ⟨c, σ, h1, h2, -, -, rfl⟩ |
        ⟨σ, j, e', c, m, ws, -, -, h3, h4, -, h6, rfl⟩ | ⟨σ, j, v', c, m, h1, h2, -, -, rfl⟩ :=
        h.cases hp hc
      · exact .inl ⟨_, h1, hd, e⟩
      · have : c.dimension = 0 := hd
        omega
      · simp at hd
      · exact .inr ⟨σ, j, (List.getElem?_eq_some_iff.1 h1).1, h2, by simpa using e.symm⟩
    have lt : ∀ v t, VTag p.cells v t → t < p.points.length := by
      rintro v t ⟨c, hc, hd, e⟩
      obtain ⟨t', h1, e'⟩ := hp.vertex v c hc hd
      rw [e] at e'
      obtain rfl : t = t' := by simpa using e'
      exact h1
    intro v w t hv hw
    rcases key v t hv with h1 | ⟨σ, j, hj, rfl, rfl⟩
    · rcases key w t hw with h2 | ⟨τ, j', hj', rfl, rfl⟩
      · exact hp.distinct v w t h1 h2
      · have := lt _ _ h1
        have := startOf_le τ p.points.length S.vertices.length
        simp only [Seam.nodeStart] at *
        omega
    · rcases key w _ hw with h2 | ⟨τ, j', hj', rfl, e⟩
      · have := lt _ _ h2
        have := startOf_le σ p.points.length S.vertices.length
        simp only [Seam.nodeStart] at *
        omega
      · obtain ⟨rfl, rfl⟩ := startOf_inj hj hj' e
        rfl

/-! ### One pass -/

theorem mapSub_sub0 {g : Nat → Nat} {c : Cell} : (mapSub 1 g c).sub[0]? = c.sub[0]? := by
  simp [mapSub]

theorem cutOne_spec (h : CutOK p.cells p.points.length) {d : Dict Nat (Nat × Nat)}
    {r : Parts × Dict Nat (Nat × Nat)} (hr : cutOne s k p d = .ok r) :
    ∃ S f, IsCutAlong s k p r.1 S ∧ S.edges = f.map Cell.id ∧
      r.2 = recordPairs p.cells.length f d := by
  unfold cutOne at hr
  obtain ⟨g22, e1, hr⟩ := Res.bind_eq_ok.1 hr
  obtain ⟨g21, e2, hr⟩ := Res.bind_eq_ok.1 hr
  obtain ⟨g11, e3, hr⟩ := Res.bind_eq_ok.1 hr
  obtain ⟨f, e4, hr⟩ := Res.bind_eq_ok.1 hr
  obtain ⟨cells1, e5, hr⟩ := Res.bind_eq_ok.1 hr
  dsimp only at hr
  obtain ⟨vs, e6, hr⟩ := Res.bind_eq_ok.1 hr
  obtain ⟨f', f1, f2, f3⟩ := cutEdges_ok h k
  rw [e4] at f1
  obtain rfl := Except.ok.inj f1
  obtain ⟨c1, c2, c3, c4⟩ := cutFaces_spec h e2 f2 (fun c hc => ((f3 c).1 hc).1) e5
  obtain ⟨vs', v1, v2, v3⟩ := cutVertices_ok (k := k) (cells1 := cells1) h (f := f)
    (fun c hc => ⟨((f3 c).1 hc).1, ((f3 c).1 hc).2.2⟩)
    (fun i c hc hd => c2 i c hc (by omega))
  rw [e6] at v1
  obtain rfl := Except.ok.inj v1
  have hedges : ∀ i, i ∈ f.map Cell.id ↔
      ∃ c, Stored p.cells i c ∧ c.material = k.mat ∧ c.dimension = 1 := by
    intro i
    constructor
    · intro hi
      obtain ⟨c, hc, rfl⟩ := List.mem_map.1 hi
      exact ⟨c, (f3 c).1 hc⟩
    · rintro ⟨c, hc, h1, h2⟩
      have hid := h.ids i c hc
      exact List.mem_map.2 ⟨c, (f3 c).2 ⟨hid ▸ hc, h1, h2⟩, hid⟩
  have hv0 : ∀ v ∈ vs, HasDim p.cells 0 v := by
    intro v hv
    obtain ⟨-, -, -, i, hi, c, hc, ids, hids, hvi⟩ := (v3 v).1 hv
    obtain ⟨c', hc', -, hd⟩ := (hedges i).1 hi
    obtain rfl := stored_unique' hc hc'
    exact h.sub i c hc 0 (by omega) ids hids v hvi
  have hsame : SameNodes p.cells cells1 := by
    intro i c hc
    by_cases hd : c.dimension = 2
    · obtain ⟨σ, -, hs⟩ := c3 i c hc hd
      exact ⟨_, hs, rfl, rfl, mapSub_sub0, by simp [mapSub]⟩
    · exact ⟨c, c2 i c hc hd, rfl, rfl, rfl, rfl⟩
  have hget : ∀ {j i : Nat}, (f.map Cell.id)[j]? = some i → ∃ c, f[j]? = some c ∧ c.id = i := by
    intro j i hj
    rw [List.getElem?_map, Option.map_eq_some_iff] at hj
    exact hj
  have hedge : ∀ {j i : Nat} {c : Cell}, (f.map Cell.id)[j]? = some i → Stored p.cells i c →
      f[j]? = some c ∧ c.dimension = 1 ∧ c.id = i := by
    intro j i c hj hc
    obtain ⟨c', h1, rfl⟩ := hget hj
    obtain ⟨h2, -, h3⟩ := (f3 c').1 (List.mem_of_getElem? h1)
    obtain rfl := stored_unique' hc h2
    exact ⟨h1, h3, rfl⟩
  have hsub1 : ∀ {i : Nat} {c : Cell}, Stored p.cells i c → c.dimension = 1 → ∀ {x : List Nat}
      {ws : List Nat}, c.sub[0]? = some ws → c.sub.set 1 x = [ws, x] := by
    intro i c hc hd x ws hws
    have hl := h.subLen i c hc
    rw [hd] at hl
    match hsub : c.sub with
    | [] => rw [hsub] at hl; simp at hl
    | [a] => rw [hsub] at hl; simp at hl
    | [a, b] => rw [hsub] at hws; simp at hws ⊢; exact hws
    | a :: b :: c' :: l => rw [hsub] at hl; simp at hl
  by_cases hvs : vs = []
  · rw [if_pos hvs] at hr
    obtain rfl := Except.ok.inj hr
    subst hvs
    refine ⟨⟨f.map Cell.id, [], []⟩, f, ?_, rfl, rfl⟩
    refine
      { seam := ⟨hedges, v3, f2, v2, .nil⟩, length := ?_, points := ?_, kept := ?_, moved := ?_,
        edgeCopy := ?_, vertexCopy := ?_ }
    · simpa using c1
    · exact ⟨[], .nil, by simp⟩
    · intro i c hc hor
      refine c2 i c hc ?_
      rcases hor with hor | hor
      · omega
      · obtain ⟨c', hc', -, hd⟩ := (hedges i).1 hor
        obtain rfl := stored_unique' hc hc'
        omega
    · intro i c hc hd hi
      have hid : ∀ σ, Seam.vertex ⟨f.map Cell.id, [], []⟩ p σ = id ∧
          Seam.node ⟨f.map Cell.id, [], []⟩ p σ = id :=
        fun σ => ⟨funext fun x => copyOf_nil _ x, funext fun x => copyOf_nil _ x⟩
      have hmv : ∀ c, mapVertices id id c = c := fun c =>
        mapVertices_id (fun _ _ _ _ => rfl) fun _ _ => rfl
      by_cases hd2 : c.dimension = 2
      · obtain ⟨σ, h1, h2⟩ := c3 i c hc hd2
        refine ⟨σ, h1, ?_⟩
        rw [renamed_two hd2, (hid σ).1, (hid σ).2, hmv]
        simpa [Seam.edge, Seam.edgeStart] using h2
      · obtain ⟨σ, hσ⟩ := h.side hc k
        refine ⟨σ, hσ, ?_⟩
        have := h.dims i c hc
        rw [renamed_one (by omega), (hid σ).1, (hid σ).2, hmv]
        exact c2 i c hc hd2
    · intro σ j i c hj hc
      obtain ⟨h1, h2, h3⟩ := hedge hj hc
      obtain ⟨m, h4, h5⟩ := c4 σ j c h1
      obtain ⟨ws, hws⟩ := h.sub0 hc
      refine ⟨m, ws, h4, hws, ?_⟩
      have e1 : Seam.vertex ⟨f.map Cell.id, [], []⟩ p σ = id := funext fun x => copyOf_nil _ x
      have e2 : Seam.node ⟨f.map Cell.id, [], []⟩ p σ = id := funext fun x => copyOf_nil _ x
      rw [e1, e2, List.map_id, List.map_id]
      rw [h2, h3, hsub1 hc h2 hws] at h5
      simpa [Seam.edgeStart] using h5
    · intro σ j v c hj
      simp at hj
  · rw [if_neg hvs] at hr
    obtain ⟨q, e7, hr⟩ := Res.bind_eq_ok.1 hr
    obtain rfl := Except.ok.inj hr
    obtain ⟨tags, t1, t2, t3, t4, t5, t6, t7⟩ := cutNodes_spec h e1 e3 hsame c1 (by
      intro i hi
      rw [c1] at hi
      by_cases h1 : i < p.cells.length
      · obtain ⟨c, hc⟩ := h.filled i h1
        obtain ⟨c', hc', -, -, -, h5⟩ := hsame i c hc
        exact ⟨c', hc', by rw [h5, h.subLen i c hc]; omega⟩
      · obtain ⟨σ, j, hj, rfl⟩ := startOf_split (σ := true) (by omega) hi
        obtain ⟨m, -, h5⟩ := c4 σ j f[j] (List.getElem?_eq_getElem hj)
        refine ⟨_, h5, ?_⟩
        have hst := ((f3 f[j]).1 (List.getElem_mem hj)).1
        rw [List.length_set, h.subLen _ _ hst]
        omega) rfl v2 hv0 e7
    refine ⟨⟨f.map Cell.id, vs, tags⟩, f, ?_, rfl, rfl⟩
    refine
      { seam := ⟨hedges, v3, f2, v2, t1⟩, length := ?_, points := t3, kept := ?_, moved := ?_,
        edgeCopy := ?_, vertexCopy := ?_ }
    · rw [t2, c1]
      simp
    · intro i c hc hor
      refine t4 i c hc hor c (c2 i c hc ?_)
      rcases hor with hor | hor
      · omega
      · obtain ⟨c', hc', -, hd⟩ := (hedges i).1 hor
        obtain rfl := stored_unique' hc hc'
        omega
    · intro i c hc hd hi
      by_cases hd2 : c.dimension = 2
      · obtain ⟨σ, h1, h2⟩ := c3 i c hc hd2
        refine ⟨σ, h1, ?_⟩
        rw [renamed_two hd2]
        simpa [Seam.edge, Seam.edgeStart, Seam.vertex, Seam.vertexStart, Seam.node,
          Seam.nodeStart] using t5 i c σ hc hd hi h1 _ h2
      · obtain ⟨σ, hσ⟩ := h.side hc k
        refine ⟨σ, hσ, ?_⟩
        have := h.dims i c hc
        rw [renamed_one (by omega)]
        simpa [Seam.vertex, Seam.vertexStart, Seam.node,
          Seam.nodeStart] using t5 i c σ hc hd hi hσ _ (c2 i c hc hd2)
    · intro σ j i c hj hc
      obtain ⟨h1, h2, h3⟩ := hedge hj hc
      obtain ⟨m, h4, h5⟩ := c4 σ j c h1
      obtain ⟨ws, hws⟩ := h.sub0 hc
      refine ⟨m, ws, h4, hws, ?_⟩
      rw [h2, h3, hsub1 hc h2 hws] at h5
      have h6 := t6 σ j (List.getElem?_eq_some_iff.1 h1).1 _ h5
      simpa [Seam.edgeStart, Seam.vertex, Seam.vertexStart, Seam.node, Seam.nodeStart,
        mapVertices] using h6
    · intro σ j v c hj hc
      obtain ⟨c', h1, h2⟩ := t7 σ j v hj
      obtain ⟨-, -, -, i, hi, -⟩ := (v3 v).1 (List.mem_of_getElem? hj)
      obtain ⟨j', hj'⟩ := mem_get hi
      obtain ⟨c'', hj'', -⟩ := hget hj'
      obtain ⟨m, hm, -⟩ := c4 true j' c'' hj''
      have hd : c.dimension ≠ 2 := by
        obtain ⟨c0, hc0, hd0⟩ := hv0 v (List.mem_of_getElem? hj)
        obtain rfl := stored_unique' hc hc0
        omega
      obtain rfl := stored_unique' h1 (c2 v c hc hd)
      refine ⟨m, hm, ?_⟩
      rw [hm] at h2
      simp only [Option.map_some] at h2
      have e : c'.material.bind (fun _ => some (s.scale * m + sign σ)) =
          c'.material.map fun _ => s.scale * m + sign σ := by cases c'.material <;> rfl
      rw [e] at h2
      simpa [Seam.vertexStart, Seam.nodeStart] using h2

end Verif.EmbedCut
