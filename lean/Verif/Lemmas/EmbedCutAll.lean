/-
Lemmas for C34: success of a pass, geometry, separation, the whole loop.
-/
import Verif.Lemmas.EmbedCutOne
import Verif.Lemmas.MeshCutGeom

namespace Verif.EmbedCut
open MeshBuild MeshGraph Trace MeshMetrics MeshOps Skin

variable {s : Style} {k : Cut} {p q : Parts} {S : Seam}

/-! ### Success -/

theorem cutOne_graphs (h : CutOK p.cells p.points.length) : ∃ g22 g21 g11,
    buildGraph ⟨2, p.cells⟩ 2 2 = .ok g22 ∧ buildGraph ⟨2, p.cells⟩ 2 1 = .ok g21 ∧
    buildGraph ⟨2, p.cells⟩ 1 1 = .ok g11 := by
  obtain ⟨g22, h1, -⟩ := h.graph (d := 2) (co := 2) (by omega) (by omega) (by omega)
  obtain ⟨g21, h2, -⟩ := h.graph (d := 2) (co := 1) (by omega) (by omega) (by omega)
  obtain ⟨g11, h3, -⟩ := h.graph (d := 1) (co := 1) (by omega) (by omega) (by omega)
  exact ⟨g22, g21, g11, h1, h2, h3⟩

theorem cutOne_total (h : CutOK p.cells p.points.length) {d : Dict Nat (Nat × Nat)}
    (hm : (∃ i, HasDim p.cells 1 i ∧ ∃ c, Stored p.cells i c ∧ c.material = k.mat) → k.mat ≠ none)
    (hu : ∀ i c, Stored p.cells i c → c.dimension = 1 → c.material = k.mat →
      ∃ t, HasDim p.cells 2 t ∧ SubEntity p.cells t 1 i)
    (hw : ∀ i c v, Stored p.cells i c → c.dimension = 1 → c.material = k.mat →
      SubEntity p.cells i 0 v → ∃ t, HasDim p.cells 2 t ∧ SubEntity p.cells t 0 v) :
    ∃ r, cutOne s k p d = .ok r := by
  obtain ⟨g22, g21, g11, e1, e2, e3⟩ := cutOne_graphs h
  obtain ⟨f, f1, f2, f3⟩ := cutEdges_ok h k
  by_cases hf : f = []
  · subst hf
    refine ⟨(⟨p.cells, p.points⟩, recordPairs p.cells.length [] d), ?_⟩
    · unfold cutOne
      rw [e1, Res.bind_ok, e2, Res.bind_ok, e3, Res.bind_ok, f1, Res.bind_ok]
      have h5 : cutFaces s k g21 p [] = .ok p.cells := by
        simp [cutFaces, faceNeighs, mapRes, splitSides, copyEdges, Res.bind_ok, Res.pure_eq]
      have h6 : cutVertices k p.cells [] = .ok [] := by
        simp [cutVertices, mapRes, filterRes, Res.bind_ok, Res.pure_eq, uniq, npSort]
      rw [h5, Res.bind_ok]
      dsimp only
      rw [h6, Res.bind_ok, if_pos rfl]
      rfl
  have hmat : k.mat ≠ none := by
    obtain ⟨c, l, rfl⟩ := List.exists_cons_of_ne_nil hf
    obtain ⟨h1, h2, h3⟩ := (f3 c).1 (by simp)
    exact hm ⟨c.id, ⟨c, h1, h3⟩, c, h1, h2⟩
  obtain ⟨cells1, e5⟩ := cutFaces_total (s := s) h e2 f2 (fun c hc => ((f3 c).1 hc).1) hmat
    (fun c hc => by
      obtain ⟨h1, h2, h3⟩ := (f3 c).1 hc
      exact hu _ c h1 h3 h2)
  obtain ⟨c1, c2, c3, c4⟩ := cutFaces_spec h e2 f2 (fun c hc => ((f3 c).1 hc).1) e5
  obtain ⟨vs, v1, v2, v3⟩ := cutVertices_ok (k := k) (cells1 := cells1) h (f := f)
    (fun c hc => ⟨((f3 c).1 hc).1, ((f3 c).1 hc).2.2⟩)
    (fun i c hc hd => c2 i c hc (by omega))
  have hv : ∀ v ∈ vs, ∃ c, Stored p.cells c.id c ∧ c.dimension = 1 ∧ c.material = k.mat ∧
      SubEntity p.cells c.id 0 v := by
    intro v hv
    obtain ⟨-, -, -, i, hi, h4⟩ := (v3 v).1 hv
    obtain ⟨c, hc, rfl⟩ := List.mem_map.1 hi
    obtain ⟨h1, h2, h3⟩ := (f3 c).1 hc
    exact ⟨c, h1, h3, h2, h4⟩
  have hsame : SameNodes p.cells cells1 := by
    intro i c hc
    by_cases hd : c.dimension = 2
    · obtain ⟨σ, -, hs⟩ := c3 i c hc hd
      exact ⟨_, hs, rfl, rfl, mapSub_sub0, by simp [mapSub]⟩
    · exact ⟨c, c2 i c hc hd, rfl, rfl, rfl, rfl⟩
  by_cases hvs : vs = []
  · refine ⟨(⟨cells1, p.points⟩, recordPairs p.cells.length f d), ?_⟩
    unfold cutOne
    rw [e1, Res.bind_ok, e2, Res.bind_ok, e3, Res.bind_ok, f1, Res.bind_ok, e5, Res.bind_ok]
    dsimp only
    rw [v1, Res.bind_ok, if_pos hvs]
    rfl
  · obtain ⟨q, e7⟩ := cutNodes_total (s := s) (n := p.cells.length) h e1 e3 hsame c1 (by
      intro i hi
      rw [c1] at hi
      by_cases h1 : i < p.cells.length
      · obtain ⟨c, hc⟩ := h.filled i h1
        obtain ⟨c', hc', -, -, -, h5⟩ := hsame i c hc
        exact ⟨c', hc', by rw [h5, h.subLen i c hc]; omega⟩
      · obtain ⟨σ, j, hj, rfl⟩ := startOf_split (σ := true) (by omega) hi
        obtain ⟨m, -, h5⟩ := c4 σ j f[j] (List.getElem?_eq_getElem hj)
        refine ⟨_, h5, ?_⟩
        have hst := ((f3 f[j]).1 (List.getElem_mem hj)).1
        rw [List.length_set, h.subLen _ _ hst]
        omega) rfl v2 (by
          intro v hv'
          obtain ⟨c, h1, h2, -, c', hc', ids, hids, hvi⟩ := hv v hv'
          obtain rfl := stored_unique' h1 hc'
          exact h.sub _ c h1 0 (by omega) ids hids v hvi) hmat
      (fun v hv' => by
        obtain ⟨c, h1, h2, h3, h4⟩ := hv v hv'
        exact hw _ c v h1 h2 h3 h4)
      (fun v hv' => by
        obtain ⟨c, h1, h2, h3, h4⟩ := hv v hv'
        exact ⟨c.id, ⟨c, h1, h2⟩, h4⟩)
    refine ⟨(q, recordPairs p.cells.length f d), ?_⟩
    unfold cutOne
    rw [e1, Res.bind_ok, e2, Res.bind_ok, e3, Res.bind_ok, f1, Res.bind_ok, e5, Res.bind_ok]
    dsimp only
    rw [v1, Res.bind_ok, if_neg hvs, e7, Res.bind_ok]
    rfl

/-- A cut edge of no triangle. -/
theorem cutOne_unused (h : CutOK p.cells p.points.length) {d : Dict Nat (Nat × Nat)} {i : Nat}
    {c : Cell} (hc : Stored p.cells i c) (hd : c.dimension = 1) (hm : c.material = k.mat)
    (hn : ¬ ∃ t, HasDim p.cells 2 t ∧ SubEntity p.cells t 1 i) :
    cutOne s k p d = .error .networkXError := by
  obtain ⟨g22, g21, g11, e1, e2, e3⟩ := cutOne_graphs h
  obtain ⟨f, f1, f2, f3⟩ := cutEdges_ok h k
  obtain ⟨g', hg', -, ht, hx⟩ := h.graph (d := 2) (co := 1) (by omega) (by omega) (by omega)
  rw [e2] at hg'
  cases hg'
  have hcf : c ∈ f := (f3 c).2 ⟨by rw [h.ids i c hc]; exact hc, hm, hd⟩
  have key : ∀ l : List Cell, c ∈ l →
      mapRes (fun c : Cell => g21.predecessors (1, c.id)) l = .error .networkXError := by
    intro l
    induction l with
    | nil => simp
    | cons a l ih =>
      intro hl
      rw [mapRes]
      by_cases ha : ∃ t, HasDim p.cells 2 t ∧ SubEntity p.cells t 1 a.id
      · obtain ⟨r, hr⟩ := ht a.id ha
        rw [hr, Res.bind_ok, ih, Res.bind_error]
        rcases List.mem_cons.1 hl with rfl | hl
        · exact absurd (by rwa [h.ids i c hc] at ha) hn
        · exact hl
      · rw [hx a.id ha, Res.bind_error]
  unfold cutOne
  rw [e1, Res.bind_ok, e2, Res.bind_ok, e3, Res.bind_ok, f1, Res.bind_ok]
  unfold cutFaces faceNeighs
  rw [key f hcf]
  rfl

/-- Cut edges but no tag. -/
theorem cutOne_untagged (h : CutOK p.cells p.points.length) {d : Dict Nat (Nat × Nat)} {i : Nat}
    {c : Cell} (hk : k.mat = none) (hc : Stored p.cells i c) (hd : c.dimension = 1)
    (hm : c.material = none)
    (hu : ∀ i c, Stored p.cells i c → c.dimension = 1 → c.material = none →
      ∃ t, HasDim p.cells 2 t ∧ SubEntity p.cells t 1 i) :
    cutOne s k p d = .error .typeError := by
  obtain ⟨g22, g21, g11, e1, e2, e3⟩ := cutOne_graphs h
  obtain ⟨f, f1, f2, f3⟩ := cutEdges_ok h k
  obtain ⟨g', hg', hp, ht, hx⟩ := h.graph (d := 2) (co := 1) (by omega) (by omega) (by omega)
  rw [e2] at hg'
  cases hg'
  have hcf : c ∈ f := (f3 c).2 ⟨by rw [h.ids i c hc]; exact hc, by rw [hm, hk], hd⟩
  obtain ⟨r, hr⟩ := exists_forall₂ (R := fun (c : Cell) l => g21.predecessors (1, c.id) = .ok l)
    (l := f) fun c hc => ht c.id (by
      obtain ⟨h1, h2, h3⟩ := (f3 c).1 hc
      exact hu _ c h1 h3 (by rw [h2, hk]))
  have h1 : faceNeighs g21 f = .ok (r.flatten.map Prod.snd) := by
    unfold faceNeighs
    rw [mapRes_iff.2 hr, Res.bind_ok]
    rfl
  have hmem := faceNeighs_ok hp h1
  obtain ⟨sides, h2⟩ := splitSides_total (side := positiveQ k p) (l := r.flatten.map Prod.snd) (by
    intro i hi
    obtain ⟨j, -, ⟨c, hc, -⟩, -⟩ := (hmem i).1 hi
    obtain ⟨σ, hσ⟩ := h.side hc k
    exact ⟨σ, (positiveQ_iff hc).2 hσ⟩)
  obtain ⟨a, l, rfl⟩ := List.exists_cons_of_ne_nil (List.ne_nil_of_mem hcf)
  unfold cutOne
  rw [e1, Res.bind_ok, e2, Res.bind_ok, e3, Res.bind_ok, f1, Res.bind_ok]
  unfold cutFaces
  rw [h1, Res.bind_ok, h2, Res.bind_ok]
  dsimp only
  rw [copyEdges, hk, sideTag]
  rfl

/-! ### Geometry -/

theorem IsCutAlong.point_old (h : IsCutAlong s k p q S) {t : Nat} (ht : t < p.points.length) :
    q.points[t]? = p.points[t]? := by
  obtain ⟨xs, -, e⟩ := h.points
  rw [e, List.append_assoc, List.getElem?_append_left ht]

theorem IsCutAlong.point (h : IsCutAlong s k p q S) (hp : CutOK p.cells p.points.length)
    (σ : Bool) {t : Nat} (ht : t < p.points.length) : q.points[S.node p σ t]? = p.points[t]? := by
  by_cases hm : t ∈ S.tags
  · obtain ⟨j, hj⟩ := mem_get hm
    have hn := (tags_nodup hp h.seam.tags h.seam.verticesNodup).1
    obtain ⟨xs, h1, e⟩ := h.points
    obtain ⟨x, hx, hpx⟩ := forall₂_get h1 hj
    rw [Seam.node, copyOf_of_get hn hj, hpx, e]
    have hl : xs.length = S.vertices.length := by
      rw [← h1.length_eq, h.seam.tags.length_eq]
    have hjx := (List.getElem?_eq_some_iff.1 hx).1
    cases σ with
    | true =>
      rw [List.getElem?_append_left (by simp [Seam.nodeStart, startOf]; omega),
        List.getElem?_append_right (by simp [Seam.nodeStart, startOf])]
      simpa [Seam.nodeStart, startOf] using hx
    | false =>
      rw [List.getElem?_append_right (by simp [Seam.nodeStart, startOf]; omega)]
      simp only [Seam.nodeStart, startOf, List.length_append, hl]
      simpa using hx
  · rw [Seam.node, copyOf_of_not_mem hm]
    exact h.point_old ht

/-- The nodes of the old cells are where they were. -/
theorem IsCutAlong.nodes (h : IsCutAlong s k p q S) (hp : CutOK p.cells p.points.length) {i : Nat}
    {c c' : Cell} (hc : Stored p.cells i c) (hc' : Stored q.cells i c') :
    fancy q.points c'.nodeTags = fancy p.points c.nodeTags := by
  obtain ⟨-, hlt⟩ := hp.nodeTags_lt hc
  by_cases h2 : c.dimension = 0 ∨ i ∈ S.edges
  · obtain rfl := stored_unique' hc' (h.kept i c hc h2)
    refine fancy_congr (List.forall₂_same.2 fun t ht => h.point_old (hlt t ht))
  · rw [not_or] at h2
    obtain ⟨σ, -, h4⟩ := h.moved i c hc (by omega) h2.2
    obtain rfl := stored_unique' hc' h4
    refine fancy_congr ?_
    simp only [renamed]
    rw [List.forall₂_map_right_iff]
    exact List.forall₂_same.2 fun t ht => h.point hp σ (hlt t ht)

/-- The copies of the edges are where these are. -/
theorem IsCutAlong.nodes_copy (h : IsCutAlong s k p q S) (hp : CutOK p.cells p.points.length)
    (σ : Bool) {i : Nat} {c : Cell} (hc : Stored p.cells i c) :
    fancy q.points (c.nodeTags.map (S.node p σ)) = fancy p.points c.nodeTags := by
  obtain ⟨-, hlt⟩ := hp.nodeTags_lt hc
  refine fancy_congr ?_
  rw [List.forall₂_map_right_iff]
  exact List.forall₂_same.2 fun t ht => h.point hp σ (hlt t ht)

theorem IsCutAlong.side_iff (h : IsCutAlong s k p q S) (hp : CutOK p.cells p.points.length)
    {i : Nat} {c c' : Cell} (hc : Stored p.cells i c) (hc' : Stored q.cells i c') {k' : Cut}
    {σ : Bool} : Side k' q.points c' σ ↔ Side k' p.points c σ := by
  unfold Side cellCentroid
  rw [h.nodes hp hc hc']

/-! ### Separation -/

theorem IsSeam.edge_lt (h : IsSeam k p S) {x : Nat} (hx : x ∈ S.edges) : x < p.cells.length := by
  obtain ⟨c, hc, -⟩ := (h.edges x).1 hx
  exact stored_lt hc

theorem IsSeam.vertex_lt (h : IsSeam k p S) {x : Nat} (hx : x ∈ S.vertices) :
    x < p.cells.length := by
  obtain ⟨c, hc, -⟩ := (h.vertices x).1 hx
  exact stored_lt hc

theorem IsSeam.ent_nodup (h : IsSeam k p S) (e : Nat) : (S.ent e).Nodup := by
  unfold Seam.ent; split
  · exact h.verticesNodup
  · exact h.edgesNodup

theorem IsSeam.ent_lt (h : IsSeam k p S) {e x : Nat} (hx : x ∈ S.ent e) : x < p.cells.length := by
  unfold Seam.ent at hx; split at hx
  · exact h.vertex_lt hx
  · exact h.edge_lt hx

theorem Seam.start_le (S : Seam) (p : Parts) (e : Nat) (σ : Bool) :
    p.cells.length ≤ S.start p e σ := by
  have h1 := startOf_le σ p.cells.length S.edges.length
  have h2 := startOf_le σ (p.cells.length + 2 * S.edges.length) S.vertices.length
  unfold Seam.start Seam.vertexStart Seam.edgeStart
  split <;> omega

/-- The edges and vertices of a triangle after the cut. -/
theorem IsCutAlong.sub_triangle (h : IsCutAlong s k p q S) {i : Nat} {c : Cell}
    (hc : Stored p.cells i c) (hd : c.dimension = 2) {σ : Bool} (hσ : Side k p.points c σ) {e : Nat}
    (he : e < 2) (y : Nat) : SubEntity q.cells i e y ↔
      ∃ x, SubEntity p.cells i e x ∧ y = copyOf (S.ent e) (S.start p e σ) x := by
  have hi : i ∉ S.edges := by
    intro hi
    obtain ⟨c', hc', -, hd'⟩ := (h.seam.edges i).1 hi
    obtain rfl := stored_unique' hc hc'
    omega
  obtain ⟨τ, hτ, h1⟩ := h.moved i c hc (by omega) hi
  obtain rfl := hτ.unique hσ
  have hsub : (renamed (S.edge p τ) (S.vertex p τ) (S.node p τ) c).sub[e]? =
      (c.sub[e]?).map (·.map (copyOf (S.ent e) (S.start p e τ))) := by
    obtain rfl | rfl : e = 0 ∨ e = 1 := by omega
    · exact renamed_sub0
    · exact renamed_sub1 hd
  constructor
  · rintro ⟨c', hc', ids, hids, hy⟩
    obtain rfl := stored_unique' hc' h1
    rw [hsub, Option.map_eq_some_iff] at hids
    obtain ⟨xs, hxs, rfl⟩ := hids
    obtain ⟨x, hx, rfl⟩ := List.mem_map.1 hy
    exact ⟨x, ⟨c, hc, xs, hxs, hx⟩, rfl⟩
  · rintro ⟨x, ⟨c', hc', xs, hxs, hx⟩, rfl⟩
    obtain rfl := stored_unique' hc hc'
    exact ⟨_, h1, _, by rw [hsub, hxs]; rfl, List.mem_map_of_mem hx⟩

theorem SubEntity.lt_of (h : CutOK p.cells p.points.length) {i e x : Nat} {c : Cell}
    (hc : Stored p.cells i c) (he : e < c.dimension) (hx : SubEntity p.cells i e x) :
    x < p.cells.length := by
  obtain ⟨c', hc', ids, hids, hxi⟩ := hx
  obtain rfl := stored_unique' hc hc'
  obtain ⟨d, hd, -⟩ := h.sub i c hc e he ids hids x hxi
  exact stored_lt hd

theorem start_ne {S : Seam} {p : Parts} {e x y : Nat} (hx : x ∈ S.ent e) (hy : y ∈ S.ent e) :
    copyOf (S.ent e) (S.start p e true) x ≠ copyOf (S.ent e) (S.start p e false) y := by
  have h1 := copyOf_bound (s := S.start p e true) hx
  have h2 := copyOf_bound (s := S.start p e false) hy
  unfold Seam.ent Seam.start at *
  split <;> simp_all [Seam.vertexStart, Seam.edgeStart, startOf] <;> omega

/-- What two triangles have in common after the cut. -/
theorem IsCutAlong.share (h : IsCutAlong s k p q S) (hp : CutOK p.cells p.points.length)
    {i j : Nat} {ci cj : Cell} (hi : Stored p.cells i ci) (hj : Stored p.cells j cj)
    (hdi : ci.dimension = 2) (hdj : cj.dimension = 2) {σ τ : Bool} (hσ : Side k p.points ci σ)
    (hτ : Side k p.points cj τ) {e : Nat} (he : e < 2) {y : Nat}
    (hyi : SubEntity q.cells i e y) (hyj : SubEntity q.cells j e y) :
    ∃ x, SubEntity p.cells i e x ∧ SubEntity p.cells j e x ∧
      ((x ∉ S.ent e ∧ y = x) ∨
        (x ∈ S.ent e ∧ σ = τ ∧ y = copyOf (S.ent e) (S.start p e σ) x)) := by
  obtain ⟨x, hx, rfl⟩ := (h.sub_triangle hi hdi hσ he y).1 hyi
  obtain ⟨z, hz, e1⟩ := (h.sub_triangle hj hdj hτ he _).1 hyj
  have hxl := SubEntity.lt_of hp hi (by omega) hx
  have hzl := SubEntity.lt_of hp hj (by omega) hz
  by_cases hxm : x ∈ S.ent e <;> by_cases hzm : z ∈ S.ent e
  · by_cases hστ : σ = τ
    · subst hστ
      obtain rfl := copyOf_inj (hxl.trans_le (S.start_le p e σ)) (hzl.trans_le (S.start_le p e σ)) e1
      exact ⟨x, hx, hz, .inr ⟨hxm, rfl, rfl⟩⟩
    · cases σ <;> cases τ
      · exact absurd rfl hστ
      · exact absurd e1.symm (start_ne hzm hxm)
      · exact absurd e1 (start_ne hxm hzm)
      · exact absurd rfl hστ
  · have h1 := (copyOf_bound (s := S.start p e σ) hxm).1
    rw [e1, copyOf_of_not_mem hzm] at h1
    have := S.start_le p e σ
    omega
  · have h1 := (copyOf_bound (s := S.start p e τ) hzm).1
    rw [← e1, copyOf_of_not_mem hxm] at h1
    have := S.start_le p e τ
    omega
  · rw [copyOf_of_not_mem hxm, copyOf_of_not_mem hzm] at e1
    subst e1
    exact ⟨x, hx, hz, .inl ⟨hxm, copyOf_of_not_mem hxm⟩⟩

/-- The material of an edge that is not cut stays. -/
theorem IsCutAlong.material (h : IsCutAlong s k p q S) {x : Nat} {c c' : Cell}
    (hc : Stored p.cells x c) (hc' : Stored q.cells x c') : c'.material = c.material := by
  by_cases h2 : c.dimension = 0 ∨ x ∈ S.edges
  · obtain rfl := stored_unique' hc' (h.kept x c hc h2)
    rfl
  · rw [not_or] at h2
    obtain ⟨σ, -, h4⟩ := h.moved x c hc (by omega) h2.2
    obtain rfl := stored_unique' hc' h4
    rfl

theorem IsCutAlong.old (h : IsCutAlong s k p q S) {i : Nat} {c : Cell} (hc : Stored p.cells i c) :
    ∃ c', Stored q.cells i c' ∧ c'.dimension = c.dimension ∧ c'.material = c.material := by
  obtain ⟨c', hc', hd⟩ := h.hasDim ⟨c, hc, rfl⟩
  exact ⟨c', hc', hd, h.material hc hc'⟩

/-! ### The loop -/

theorem cutAll_cons {ks : Dict (Option Int) (Pt ℝ × Pt ℝ)} {x : Option Int × (Pt ℝ × Pt ℝ)}
    {d : Dict Nat (Nat × Nat)} {r : Parts × Dict Nat (Nat × Nat)}
    (hr : cutAll s (x :: ks) p d = .ok r) :
    ∃ q, cutOne s (cutOf x) p d = .ok q ∧ cutAll s ks q.1 q.2 = .ok r := by
  rw [cutAll] at hr
  exact Res.bind_eq_ok.1 hr

theorem cutAll_ok : ∀ {ks : Dict (Option Int) (Pt ℝ × Pt ℝ)} {p : Parts} {d : Dict Nat (Nat × Nat)}
    {r : Parts × Dict Nat (Nat × Nat)}, CutOK p.cells p.points.length → cutAll s ks p d = .ok r →
    CutOK r.1.cells r.1.points.length ∧ (∀ i c, Stored p.cells i c → ∃ c', Stored r.1.cells i c' ∧
      c'.dimension = c.dimension ∧ c'.material = c.material ∧
      fancy r.1.points c'.nodeTags = fancy p.points c.nodeTags)
  | [], p, d, r, h, hr => by
    cases hr
    exact ⟨h, fun i c hc => ⟨c, hc, rfl, rfl, rfl⟩⟩
  | x :: ks, p, d, r, h, hr => by
    obtain ⟨q, h1, h2⟩ := cutAll_cons hr
    obtain ⟨S, -, hS, -⟩ := cutOne_spec h h1
    obtain ⟨h3, h4⟩ := cutAll_ok (hS.ok h) h2
    refine ⟨h3, fun i c hc => ?_⟩
    obtain ⟨c1, hc1, e1, e2⟩ := hS.old hc
    obtain ⟨c2, hc2, e3, e4, e5⟩ := h4 i c1 hc1
    exact ⟨c2, hc2, e3.trans e1, e4.trans e2, e5.trans (hS.nodes h hc hc1)⟩

theorem cutAll_share : ∀ {ks : Dict (Option Int) (Pt ℝ × Pt ℝ)} {p : Parts}
    {d : Dict Nat (Nat × Nat)} {r : Parts × Dict Nat (Nat × Nat)},
    CutOK p.cells p.points.length → (ks.map Prod.fst).Nodup → cutAll s ks p d = .ok r →
    ∀ (i j : Nat), HasDim p.cells 2 i → HasDim p.cells 2 j → Share r.1.cells 1 i j →
    ∃ x c, SubEntity p.cells i 1 x ∧ SubEntity p.cells j 1 x ∧ Stored p.cells x c ∧
      ∀ k ∈ ks, Apart (cutOf k) p i j → c.material ≠ k.1
  | [], p, d, r, h, _, hr => by
    cases hr
    rintro i j ⟨ci, hi, hdi⟩ hj ⟨y, hyi, hyj⟩
    obtain ⟨c', hc', ids, hids, hy⟩ := hyi
    obtain rfl := stored_unique' hi hc'
    obtain ⟨c, hc, -⟩ := h.sub i ci hi 1 (by omega) ids hids y hy
    exact ⟨y, c, ⟨ci, hi, ids, hids, hy⟩, hyj, hc, by simp⟩
  | k :: ks, p, d, r, h, hn, hr => by
    rw [List.map_cons, List.nodup_cons] at hn
    obtain ⟨q, h1, h2⟩ := cutAll_cons hr
    obtain ⟨S, -, hS, -⟩ := cutOne_spec h h1
    rintro i j ⟨ci, hi, hdi⟩ ⟨cj, hj, hdj⟩ hs
    obtain ⟨y, c', hyi, hyj, hc', hall⟩ := cutAll_share (hS.ok h) hn.2 h2 i j
      (hS.hasDim ⟨ci, hi, hdi⟩) (hS.hasDim ⟨cj, hj, hdj⟩) hs
    obtain ⟨σ, hσ⟩ := h.side hi (cutOf k)
    obtain ⟨τ, hτ⟩ := h.side hj (cutOf k)
    obtain ⟨x, hxi, hxj, hx⟩ := hS.share h hi hj hdi hdj hσ hτ (by omega) hyi hyj
    have hxi' := hxi
    obtain ⟨ci', hci', ids, hids, hxm⟩ := hxi'
    obtain rfl := stored_unique' hi hci'
    obtain ⟨c, hc, hcd⟩ := h.sub i ci hi 1 (by omega) ids hids x hxm
    refine ⟨x, c, hxi, hxj, hc, fun k' hk' hap => ?_⟩
    obtain ⟨ai, aj, ρ, a1, a2, a3, a4⟩ := hap
    obtain rfl := stored_unique' hi a1
    obtain rfl := stored_unique' hj a2
    rcases hx with ⟨hxe, rfl⟩ | ⟨hxe, rfl, rfl⟩
    · have hne : c.material ≠ k.1 := fun e => hxe ((hS.seam.edges y).2 ⟨c, hc, e, hcd⟩)
      rcases List.mem_cons.1 hk' with rfl | hk''
      · exact hne
      · rw [← hS.material hc hc']
        refine hall k' hk'' ?_
        obtain ⟨di, hdi', -, -⟩ := hS.old hi
        obtain ⟨dj, hdj', -, -⟩ := hS.old hj
        exact ⟨di, dj, ρ, hdi', hdj', (hS.side_iff h hi hdi').2 a3, (hS.side_iff h hj hdj').2 a4⟩
    · obtain ⟨c2, hc2, hm2, -⟩ := (hS.seam.edges x).1 hxe
      obtain rfl := stored_unique' hc hc2
      rcases List.mem_cons.1 hk' with rfl | hk''
      · have e1 := a3.unique hσ
        have e2 := a4.unique hτ
        rw [← e2] at e1
        cases ρ <;> simp at e1
      · rw [hm2]
        rintro e
        exact hn.1 (by rw [show k.1 = k'.1 from e]; exact List.mem_map_of_mem hk'')

/-- Edges whose material is no key stay common. -/
theorem cutAll_keep : ∀ {ks : Dict (Option Int) (Pt ℝ × Pt ℝ)} {p : Parts}
    {d : Dict Nat (Nat × Nat)} {r : Parts × Dict Nat (Nat × Nat)},
    CutOK p.cells p.points.length → cutAll s ks p d = .ok r →
    ∀ (i x : Nat) (c : Cell), HasDim p.cells 2 i → Stored p.cells x c →
    c.material ∉ ks.map Prod.fst → (SubEntity r.1.cells i 1 x ↔ SubEntity p.cells i 1 x)
  | [], p, d, r, h, hr => by
    cases hr
    exact fun _ _ _ _ _ _ => Iff.rfl
  | k :: ks, p, d, r, h, hr => by
    obtain ⟨q, h1, h2⟩ := cutAll_cons hr
    obtain ⟨S, -, hS, -⟩ := cutOne_spec h h1
    rintro i x c ⟨ci, hi, hdi⟩ hc hm
    rw [List.map_cons, List.mem_cons, not_or] at hm
    obtain ⟨c', hc', -, e⟩ := hS.old hc
    rw [cutAll_keep (hS.ok h) h2 i x c' (hS.hasDim ⟨ci, hi, hdi⟩) hc' (by rw [e]; exact hm.2)]
    obtain ⟨σ, hσ⟩ := h.side hi (cutOf k)
    rw [hS.sub_triangle hi hdi hσ (by omega)]
    have hx : x ∉ S.edges := by
      intro hx
      obtain ⟨c2, hc2, hm2, -⟩ := (hS.seam.edges x).1 hx
      obtain rfl := stored_unique' hc hc2
      exact hm.1 hm2
    constructor
    · rintro ⟨y, hy, e1⟩
      by_cases hye : y ∈ S.ent 1
      · have := (copyOf_bound (s := S.start p 1 σ) hye).1
        rw [← e1] at this
        have h5 := S.start_le p 1 σ
        have h6 := stored_lt hc
        omega
      · rw [copyOf_of_not_mem hye] at e1
        subst e1
        exact hy
    · intro hy
      exact ⟨x, hy, (copyOf_of_not_mem hx).symm⟩

/-! ### The dictionaries -/

theorem get?_foldl_set {κ ν : Type} [DecidableEq κ] (k : κ) : ∀ (l : List (κ × ν)) (d : Dict κ ν),
    (l.map Prod.fst).Nodup → (l.foldl (fun d p => d.set p.1 p.2) d).get? k =
      (Dict.get? (l : Dict κ ν) k).or (d.get? k)
  | [], d, _ => by simp [Dict.get?]
  | (a, b) :: l, d, h => by
    rw [List.map_cons, List.nodup_cons] at h
    rw [List.foldl_cons, get?_foldl_set k l _ h.2, Dict.get?_set]
    by_cases hk : k = a
    · subst hk
      have hn : Dict.get? (l : Dict κ ν) k = none := by
        rw [Dict.get?_eq_none]
        exact h.1
      simp [Dict.get?, hn]
    · simp [Dict.get?, hk, Ne.symm hk]

theorem get?_zip {κ ν : Type} [DecidableEq κ] : ∀ {ks : List κ} {l : List ν} {j : Nat} {k : κ} {v : ν},
    ks.Nodup → ks[j]? = some k → l[j]? = some v → Dict.get? (ks.zip l) k = some v
  | [], l, j, k, v, _, h, _ => by simp at h
  | a :: ks, [], j, k, v, _, _, h => by simp at h
  | a :: ks, b :: l, 0, k, v, _, h, h' => by
    simp at h h'
    simp [Dict.get?, h, h']
  | a :: ks, b :: l, j + 1, k, v, hn, h, h' => by
    rw [List.nodup_cons] at hn
    simp only [List.getElem?_cons_succ] at h h'
    have hne : a ≠ k := by
      rintro rfl
      exact hn.1 (List.mem_of_getElem? h)
    rw [List.zip_cons_cons, Dict.get?, if_neg hne]
    exact get?_zip hn.2 h h'

theorem recordPairs_get {n : Nat} {f : List Cell} {d : Dict Nat (Nat × Nat)} {j e : Nat}
    (hn : (f.map Cell.id).Nodup) (h : (f.map Cell.id)[j]? = some e) :
    (recordPairs n f d).get? e = some (n + j, n + f.length + j) := by
  have hj := (List.getElem?_eq_some_iff.1 h).1
  rw [List.length_map] at hj
  unfold recordPairs
  rw [get?_foldl_set _ _ _ (by rw [List.map_fst_zip (by simp)]; exact hn),
    get?_zip hn h (v := (n + j, n + f.length + j))]
  · rfl
  · simp [List.getElem?_zip_eq_some, hj]

theorem recordPairs_other {n : Nat} {f : List Cell} {d : Dict Nat (Nat × Nat)} {e : Nat}
    (hn : (f.map Cell.id).Nodup) (h : e ∉ f.map Cell.id) :
    (recordPairs n f d).get? e = d.get? e := by
  unfold recordPairs
  have hk : (((f.map Cell.id).zip ((List.range' n f.length).zip
      (List.range' (n + f.length) f.length))).map Prod.fst) = f.map Cell.id :=
    List.map_fst_zip (by simp)
  rw [get?_foldl_set _ _ _ (by rw [hk]; exact hn), Dict.get?_eq_none.2]
  · rfl
  · rw [Dict.keys, hk]
    exact h

theorem mem_set {κ ν : Type} [DecidableEq κ] {x : κ × ν} {a : κ} {b : ν} :
    ∀ {d : Dict κ ν}, x ∈ (d.set a b : List (κ × ν)) → x = (a, b) ∨ x ∈ (d : List (κ × ν))
  | [], h => by simpa [Dict.set] using h
  | (a', b') :: d, h => by
    rw [Dict.set] at h
    split at h
    · rcases List.mem_cons.1 h with h | h
      · exact .inl h
      · exact .inr (List.mem_cons_of_mem _ h)
    · rcases List.mem_cons.1 h with h | h
      · exact .inr (by rw [h]; simp)
      · rcases mem_set h with h | h
        · exact .inl h
        · exact .inr (List.mem_cons_of_mem _ h)

theorem normalsOf_ok {wire : Topology.Shape (Pt ℝ) → Res (Pt ℝ × Pt ℝ)} :
    ∀ {l : List (Topology.Shape (Pt ℝ))} {d r : Dict (Option Int) (Pt ℝ × Pt ℝ)},
    normalsOf wire l d = .ok r → d.keys.Nodup → r.keys.Nodup ∧
      (∀ t, t ∈ r.keys ↔ t ∈ d.keys ∨ ∃ x ∈ l, x.physicalTag = t) ∧
      ∀ y ∈ (r : List _), y ∈ (d : List _) ∨ ∃ x ∈ l, x.physicalTag = y.1 ∧
        ∃ pts, boundaryPoints wire x = .ok pts ∧ normalOf pts = .ok y.2
  | [], d, r, h, hd => by
    cases h
    exact ⟨hd, by simp, fun y hy => .inl hy⟩
  | x :: l, d, r, h, hd => by
    rw [normalsOf] at h
    obtain ⟨pts, e1, h⟩ := Res.bind_eq_ok.1 h
    obtain ⟨y, e2, h⟩ := Res.bind_eq_ok.1 h
    obtain ⟨h1, h2, h3⟩ := normalsOf_ok h (Dict.keys_set_nodup _ _ hd)
    refine ⟨h1, fun t => ?_, fun z hz => ?_⟩
    · rw [h2, Dict.mem_keys_set]
      simp only [List.mem_cons, exists_eq_or_imp]
      constructor
      · rintro ((rfl | h) | h)
        · exact .inr (.inl rfl)
        · exact .inl h
        · exact .inr (.inr h)
      · rintro (h | rfl | h)
        · exact .inl (.inr h)
        · exact .inl (.inl rfl)
        · exact .inr h
    · rcases h3 z hz with h4 | ⟨w, hw, h4⟩
      · rcases mem_set h4 with rfl | h5
        · exact .inr ⟨x, by simp, rfl, pts, e1, e2⟩
        · exact .inl h5
      · exact .inr ⟨w, List.mem_cons_of_mem _ hw, h4⟩

end Verif.EmbedCut
