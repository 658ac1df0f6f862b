/-
C34: cutting a mesh along immersed shapes.
-/
import Verif.Lemmas.EmbedCutAll
import Verif.Props.MeshCut

namespace Verif.EmbedCut
open MeshBuild MeshGraph Trace MeshMetrics MeshOps Skin Topology

variable {s : Style} {k : Cut} {p q : Parts} {S : Seam}

/-- Meshes in order, of cells of dimension at most 2, can be cut. -/
theorem cutOK_of_meshOK {cells : Cells} {n : Nat} (h : MeshOK cells n)
    (hd : ∀ i c, Stored cells i c → c.dimension ≤ 2) : CutOK cells n where
  filled := h.wf.filled
  ids := h.wf.ids
  dims := hd
  subLen := h.wf.subLen
  sub i c hc e _ ids hids x hx := h.wf.subOk i c hc e ids hids x hx
  vertex i c hc hd0 := by
    have h1 := h.wf.self i c hc
    rw [hd0] at h1
    have h2 := h.nodes.aligned i c hc _ h1
    obtain ⟨t, l, -, h4, h5⟩ := List.forall₂_cons_left_iff.1 h2
    rw [List.forall₂_nil_left_iff.1 h4] at h5
    exact ⟨t, h.tags i t ⟨c, hc, hd0, h5⟩, h5⟩
  nodes i c hc _ vs hvs :=
    ⟨h.wf.subNe i c hc vs (List.mem_of_getElem? hvs), h.nodes.aligned i c hc vs hvs⟩
  distinct := h.nodes.distinct

/-- C34.  What one pass of `cut_conformity_on_embed_shapes` (and of the version for fracture
networks) makes of the mesh: two copies of every edge with the material of the cut and of every
vertex of such an edge with another material are appended, the triangles and the other edges use
the copies of their side.  The result can be cut again, and the record gives the two copies of each
cut edge. -/
theorem C34_cut (hp : CutOK p.cells p.points.length) {d : Dict Nat (Nat × Nat)}
    {r : Parts × Dict Nat (Nat × Nat)} (h : cutOne s k p d = .ok r) :
    ∃ S, IsCutAlong s k p r.1 S ∧ CutOK r.1.cells r.1.points.length ∧
      (∀ j e : Nat, S.edges[j]? = some e →
        r.2.get? e = some (S.edgeStart p true + j, S.edgeStart p false + j)) ∧
      ∀ e, e ∉ S.edges → r.2.get? e = d.get? e := by
  obtain ⟨S, f, h1, h2, h3⟩ := cutOne_spec hp h
  have hn := h1.seam.edgesNodup
  have hl : S.edges.length = f.length := by rw [h2, List.length_map]
  refine ⟨S, h1, h1.ok hp, fun j e hj => ?_, fun e he => ?_⟩
  · rw [h3, Seam.edgeStart, Seam.edgeStart, hl]
    rw [h2] at hn hj
    exact recordPairs_get hn hj
  · rw [h3]
    rw [h2] at hn he
    exact recordPairs_other hn he

/-- C34.  A pass succeeds when every cut edge and every vertex of one belongs to a triangle, and
the tag of the cut is not `None` (if there is any cut edge). -/
theorem C34_success (hp : CutOK p.cells p.points.length) (d : Dict Nat (Nat × Nat))
    (hm : (∃ i, HasDim p.cells 1 i ∧ ∃ c, Stored p.cells i c ∧ c.material = k.mat) → k.mat ≠ none)
    (hu : ∀ i c, Stored p.cells i c → c.dimension = 1 → c.material = k.mat →
      ∃ t, HasDim p.cells 2 t ∧ SubEntity p.cells t 1 i)
    (hw : ∀ i c v, Stored p.cells i c → c.dimension = 1 → c.material = k.mat →
      SubEntity p.cells i 0 v → ∃ t, HasDim p.cells 2 t ∧ SubEntity p.cells t 0 v) :
    ∃ r, cutOne s k p d = .ok r :=
  cutOne_total hp hm hu hw

/-- C34.  A cut edge of no triangle raises an error of networkx. -/
theorem C34_unused_edge (hp : CutOK p.cells p.points.length) (d : Dict Nat (Nat × Nat)) {i : Nat}
    {c : Cell} (hc : Stored p.cells i c) (hd : c.dimension = 1) (hm : c.material = k.mat)
    (hn : ¬ ∃ t, HasDim p.cells 2 t ∧ SubEntity p.cells t 1 i) :
    cutOne s k p d = .error .networkXError :=
  cutOne_unused hp hc hd hm hn

/-- C34.  An immersed shape without physical tag raises `TypeError`, if there are edges without
material (each in a triangle). -/
theorem C34_untagged (hp : CutOK p.cells p.points.length) (d : Dict Nat (Nat × Nat)) {i : Nat}
    {c : Cell} (hk : k.mat = none) (hc : Stored p.cells i c) (hd : c.dimension = 1)
    (hm : c.material = none)
    (hu : ∀ i c, Stored p.cells i c → c.dimension = 1 → c.material = none →
      ∃ t, HasDim p.cells 2 t ∧ SubEntity p.cells t 1 i) :
    cutOne s k p d = .error .typeError :=
  cutOne_untagged hp hk hc hd hm hu

/-- C34.  The tags of the two copies of a cut edge are 1000 times the tag of the cut, plus and minus
one (10 times in the version for fracture networks); the copy refers to itself and to the original
(to itself only). -/
theorem C34_tags (hp : CutOK p.cells p.points.length) {d : Dict Nat (Nat × Nat)} {m : Int}
    (hm : k.mat = some m) {i : Nat} {c : Cell} (hc : Stored p.cells i c) (hd : c.dimension = 1)
    (hi : c.material = some m) :
    (∀ r, cutOne Style.embed k p d = .ok r → ∃ a b ca cb, r.2.get? i = some (a, b) ∧
      Stored r.1.cells a ca ∧ Stored r.1.cells b cb ∧ ca.material = some (1000 * m + 1) ∧
      cb.material = some (1000 * m - 1) ∧ ca.sub[1]? = some [a, i] ∧ cb.sub[1]? = some [b, i]) ∧
    (∀ r, cutOne Style.fracture k p d = .ok r → ∃ a b ca cb, r.2.get? i = some (a, b) ∧
      Stored r.1.cells a ca ∧ Stored r.1.cells b cb ∧ ca.material = some (10 * m + 1) ∧
      cb.material = some (10 * m - 1) ∧ ca.sub[1]? = some [a] ∧ cb.sub[1]? = some [b]) := by
  constructor
  all_goals
    intro r h
    obtain ⟨S, h1, -, h3, -⟩ := C34_cut hp h
    have hmem := (h1.seam.edges i).2 ⟨c, hc, hi.trans hm.symm, hd⟩
    obtain ⟨j, hj, hji⟩ := List.mem_iff_getElem.1 hmem
    have hj' : S.edges[j]? = some i := by rw [List.getElem?_eq_getElem hj, hji]
    obtain ⟨m1, vs1, e1, -, q1⟩ := h1.edgeCopy true j i c hj' hc
    obtain ⟨m2, vs2, e2, -, q2⟩ := h1.edgeCopy false j i c hj' hc
    rw [hm] at e1 e2
    cases e1
    cases e2
    refine ⟨_, _, _, _, h3 j i hj', q1, q2, ?_, ?_, ?_, ?_⟩
  all_goals simp [sign, Style.embed, Style.fracture]
  all_goals rfl

/-- C34.  Every triangle uses the copies of its side: in the place of a cut edge (or duplicated
vertex) its side's copy, never the original nor the copy of the other side; the other edges and
vertices are as before. -/
theorem C34_own_copies (hp : CutOK p.cells p.points.length) (h : IsCutAlong s k p q S) {i : Nat}
    {c : Cell} (hc : Stored p.cells i c) (hd : c.dimension = 2) {σ : Bool}
    (hσ : Side k p.points c σ) {e : Nat} (he : e < 2) (x : Nat) (hx : x < p.cells.length) :
    (x ∈ S.ent e → (SubEntity q.cells i e (S.copy p e σ x) ↔ SubEntity p.cells i e x) ∧
      ¬ SubEntity q.cells i e x ∧ ¬ SubEntity q.cells i e (S.copy p e (!σ) x)) ∧
    (x ∉ S.ent e → (SubEntity q.cells i e x ↔ SubEntity p.cells i e x)) := by
  have hl : ∀ {z}, SubEntity p.cells i e z → z < p.cells.length :=
    fun hz => SubEntity.lt_of hp hc (by omega) hz
  have hst := fun τ => S.start_le p e τ
  refine ⟨fun hm => ⟨?_, ?_, ?_⟩, fun hm => ?_⟩
  · rw [h.sub_triangle hc hd hσ he]
    constructor
    · rintro ⟨z, hz, e1⟩
      obtain rfl := copyOf_inj (hx.trans_le (hst σ)) ((hl hz).trans_le (hst σ)) e1
      exact hz
    · intro hz
      exact ⟨x, hz, rfl⟩
  · rw [h.sub_triangle hc hd hσ he]
    rintro ⟨z, hz, e1⟩
    by_cases hzm : z ∈ S.ent e
    · have := (copyOf_bound (s := S.start p e σ) hzm).1
      have := hst σ
      omega
    · rw [copyOf_of_not_mem hzm] at e1
      subst e1
      exact hzm hm
  · rw [h.sub_triangle hc hd hσ he]
    rintro ⟨z, hz, e1⟩
    by_cases hzm : z ∈ S.ent e
    · cases σ
      · exact start_ne hm hzm e1
      · exact start_ne hzm hm e1.symm
    · rw [copyOf_of_not_mem hzm] at e1
      have h1 := (copyOf_bound (s := S.start p e (!σ)) hm).1
      rw [Seam.copy] at e1
      rw [e1] at h1
      have := hst (!σ)
      have := hl hz
      omega
  · rw [h.sub_triangle hc hd hσ he]
    constructor
    · rintro ⟨z, hz, e1⟩
      by_cases hzm : z ∈ S.ent e
      · have := (copyOf_bound (s := S.start p e σ) hzm).1
        have := hst σ
        omega
      · rw [copyOf_of_not_mem hzm] at e1
        subst e1
        exact hz
    · intro hz
      exact ⟨x, hz, (copyOf_of_not_mem hm).symm⟩

/-- C34.  Triangles on different sides share after the cut only edges and vertices that were common
before and are not part of the seam. -/
theorem C34_separated (hp : CutOK p.cells p.points.length) (h : IsCutAlong s k p q S) {i j : Nat}
    (hi : HasDim p.cells 2 i) (hj : HasDim p.cells 2 j) (ha : Apart k p i j) {e : Nat} (he : e < 2)
    {y : Nat} (hyi : SubEntity q.cells i e y) (hyj : SubEntity q.cells j e y) :
    SubEntity p.cells i e y ∧ SubEntity p.cells j e y ∧ y ∉ S.ent e := by
  obtain ⟨ci, hci, hdi⟩ := hi
  obtain ⟨cj, hcj, hdj⟩ := hj
  obtain ⟨ai, aj, σ, a1, a2, a3, a4⟩ := ha
  obtain rfl := stored_unique' hci a1
  obtain rfl := stored_unique' hcj a2
  obtain ⟨x, h1, h2, ⟨h3, rfl⟩ | ⟨-, h4, -⟩⟩ := h.share hp hci hcj hdi hdj a3 a4 he hyi hyj
  · exact ⟨h1, h2, h3⟩
  · cases σ <;> simp at h4

/-- C34.  Triangles on one side stay connected as they were. -/
theorem C34_connected (h : IsCutAlong s k p q S) {i j : Nat} {ci cj : Cell}
    (hi : Stored p.cells i ci) (hj : Stored p.cells j cj) (hdi : ci.dimension = 2)
    (hdj : cj.dimension = 2) {σ : Bool} (hσi : Side k p.points ci σ) (hσj : Side k p.points cj σ)
    {e : Nat} (he : e < 2) (hs : Share p.cells e i j) : Share q.cells e i j := by
  obtain ⟨x, h1, h2⟩ := hs
  exact ⟨S.copy p e σ x, (h.sub_triangle hi hdi hσi he _).2 ⟨x, h1, rfl⟩,
    (h.sub_triangle hj hdj hσj he _).2 ⟨x, h2, rfl⟩⟩

/-- C34.  The cells have the ids of their positions, so those of the copies are new and differ
from each other; the copies of an edge carry the tags `scale * tag + 1` and `scale * tag - 1`. -/
theorem C34_fresh (h : IsCutAlong s k p q S) :
    (∀ i c, Stored q.cells i c → p.cells.length ≤ i →
      (∃ σ j, j < S.edges.length ∧ i = S.edgeStart p σ + j) ∨
      ∃ σ j, j < S.vertices.length ∧ i = S.vertexStart p σ + j) ∧
    (∀ σ τ j l, j < S.edges.length → l < S.edges.length →
      S.edgeStart p σ + j = S.edgeStart p τ + l → σ = τ ∧ j = l) ∧
    (∀ σ τ j l, j < S.vertices.length → l < S.vertices.length →
      S.vertexStart p σ + j = S.vertexStart p τ + l → σ = τ ∧ j = l) ∧
    (∀ σ τ j l, j < S.edges.length → p.cells.length ≤ S.edgeStart p σ + j ∧
      S.edgeStart p σ + j < S.vertexStart p τ + l) ∧
    ∀ σ (j e : Nat), S.edges[j]? = some e → ∃ c m, Stored q.cells (S.edgeStart p σ + j) c ∧
      c.id = S.edgeStart p σ + j ∧ k.mat = some m ∧ c.material = some (s.scale * m + sign σ) := by
  refine ⟨fun i c hc hi => ?_, fun σ τ j l hj hl e => startOf_inj hj hl e,
    fun σ τ j l hj hl e => startOf_inj hj hl e, fun σ τ j l hj => ?_, fun σ j e hj => ?_⟩
  · have hlt := stored_lt hc
    rw [h.length] at hlt
    by_cases h2 : i < p.cells.length + 2 * S.edges.length
    · obtain ⟨σ, j, hj, e⟩ := startOf_split (σ := true) hi h2
      exact .inl ⟨σ, j, hj, e⟩
    · obtain ⟨σ, j, hj, e⟩ := startOf_split (σ := true) (n := p.cells.length + 2 * S.edges.length)
        (by omega) hlt
      exact .inr ⟨σ, j, hj, e⟩
  · have h1 := startOf_le σ p.cells.length S.edges.length
    have h2 := startOf_lt (σ := σ) (n := p.cells.length) hj
    have h3 := startOf_le τ (p.cells.length + 2 * S.edges.length) S.vertices.length
    unfold Seam.edgeStart Seam.vertexStart
    omega
  · obtain ⟨c, hc, -, -⟩ := (h.seam.edges e).1 (List.mem_of_getElem? hj)
    obtain ⟨m, vs, h1, -, h3⟩ := h.edgeCopy σ j e c hj hc
    exact ⟨_, m, h3, rfl, h1, rfl⟩

/-- C34.  Nothing moves: the cells are where they were, the copies of an edge where it is. -/
theorem C34_geometry (hp : CutOK p.cells p.points.length) (h : IsCutAlong s k p q S) :
    (∀ i c c', Stored p.cells i c → Stored q.cells i c' →
      fancy q.points c'.nodeTags = fancy p.points c.nodeTags) ∧
    ∀ σ (j e : Nat) c c', S.edges[j]? = some e → Stored p.cells e c →
      Stored q.cells (S.edgeStart p σ + j) c' →
      fancy q.points c'.nodeTags = fancy p.points c.nodeTags := by
  refine ⟨fun i c c' hc hc' => h.nodes hp hc hc', fun σ j e c c' hj hc hc' => ?_⟩
  obtain ⟨m, vs, -, -, h3⟩ := h.edgeCopy σ j e c hj hc
  obtain rfl := stored_unique' hc' h3
  exact h.nodes_copy hp σ hc

/-- C34 does not hold for the vertices: in a mesh with at least as many cells as points (every
point belongs to a vertex, say) no copy of a vertex names itself as its sub-cell.  It names its
node tag, which is the id of another cell. -/
theorem C34_vertex_copies_violated (h : IsCutAlong s k p q S)
    (hn : p.points.length ≤ p.cells.length) (σ : Bool) {j v : Nat} (hj : S.vertices[j]? = some v) :
    ∃ c, Stored q.cells (S.vertexStart p σ + j) c ∧ c.id = S.vertexStart p σ + j ∧
      c.sub[0]? = some c.nodeTags ∧ c.sub[0]? ≠ some [c.id] := by
  obtain ⟨c, hc, -, i, hi, -⟩ := (h.seam.vertices v).1 (List.mem_of_getElem? hj)
  obtain ⟨m, -, h2⟩ := h.vertexCopy σ j v c hj hc
  refine ⟨_, h2, rfl, rfl, ?_⟩
  have hpos : 0 < S.edges.length := List.length_pos_of_mem hi
  simp only [List.getElem?_cons_zero, ne_eq, Option.some.injEq, List.cons.injEq, and_true]
  unfold Seam.nodeStart Seam.vertexStart startOf
  split <;> omega

/-- C34 for the whole loop.  If two triangles are on different sides of some of the immersed
shapes, then an edge they share in the end comes from one they shared before which lies on none of
these shapes. -/
theorem C34_all_partial {ks : Dict (Option Int) (Pt ℝ × Pt ℝ)} {d : Dict Nat (Nat × Nat)}
    {r : Parts × Dict Nat (Nat × Nat)} (hp : CutOK p.cells p.points.length)
    (hn : ks.keys.Nodup) (h : cutAll s ks p d = .ok r) {i j : Nat} (hi : HasDim p.cells 2 i)
    (hj : HasDim p.cells 2 j) (hs : Share r.1.cells 1 i j) :
    ∃ x c, SubEntity p.cells i 1 x ∧ SubEntity p.cells j 1 x ∧ Stored p.cells x c ∧
      ∀ k ∈ ks, Apart (cutOf k) p i j → c.material ≠ k.1 :=
  cutAll_share hp hn h i j hi hj hs

/-- C34 for the whole loop.  All cells stay, with their dimension, material and coordinates; the
edges of a triangle that lie on no immersed shape stay its edges. -/
theorem C34_kept {ks : Dict (Option Int) (Pt ℝ × Pt ℝ)} {d : Dict Nat (Nat × Nat)}
    {r : Parts × Dict Nat (Nat × Nat)} (hp : CutOK p.cells p.points.length)
    (h : cutAll s ks p d = .ok r) :
    CutOK r.1.cells r.1.points.length ∧
    (∀ i c, Stored p.cells i c → ∃ c', Stored r.1.cells i c' ∧ c'.dimension = c.dimension ∧
      c'.material = c.material ∧ fancy r.1.points c'.nodeTags = fancy p.points c.nodeTags) ∧
    ∀ i x c, HasDim p.cells 2 i → Stored p.cells x c → c.material ∉ ks.keys →
      (SubEntity r.1.cells i 1 x ↔ SubEntity p.cells i 1 x) :=
  ⟨(cutAll_ok hp h).1, (cutAll_ok hp h).2, cutAll_keep hp h⟩

/-- C34 for `cut_conformity_on_embed_shapes`, called once on a mesh: it needs a two-dimensional
domain with one shape; it cuts along every immersed shape, and separates as in
`C34_all_partial`. -/
theorem C34_embedded_partial {wire : Shape (Pt ℝ) → Res (Pt ℝ × Pt ℝ)} {dimension : Nat}
    {domain : Domain (Pt ℝ)} {r : Parts × Dict Nat (Nat × Nat)}
    (hp : CutOK p.cells p.points.length)
    (h : cutEmbedded wire dimension domain [] p = .ok r) :
    dimension = 2 ∧ ∃ shape ks, domain.shapes[2]? = some [shape] ∧ ks.keys.Nodup ∧
      (∀ t, t ∈ ks.keys ↔ ∃ x ∈ shape.view.immersed, x.physicalTag = t) ∧
      (∀ k ∈ ks, ∃ x ∈ shape.view.immersed, x.physicalTag = k.1 ∧
        ∃ pts, boundaryPoints wire x = .ok pts ∧ normalOf pts = .ok k.2) ∧
      cutAll Style.embed ks p [] = .ok r ∧
      ∀ i j, HasDim p.cells 2 i → HasDim p.cells 2 j → Share r.1.cells 1 i j →
        ∃ x c, SubEntity p.cells i 1 x ∧ SubEntity p.cells j 1 x ∧ Stored p.cells x c ∧
          ∀ k ∈ ks, Apart (cutOf k) p i j → c.material ≠ k.1 := by
  unfold cutEmbedded at h
  by_cases hd : dimension = 2
  swap
  · rw [if_pos hd] at h
    cases h
  subst hd
  rw [if_neg (by simp)] at h
  obtain ⟨ks, h1, h2⟩ := Res.bind_eq_ok.1 h
  unfold embedNormals at h1
  rw [if_neg (by simp)] at h1
  obtain ⟨shapes, h3, h1⟩ := Res.bind_eq_ok.1 h1
  by_cases hl : shapes.length = 1
  swap
  · rw [if_pos hl] at h1
    cases h1
  rw [if_neg (by simpa using hl)] at h1
  obtain ⟨shape, h4, h1⟩ := Res.bind_eq_ok.1 h1
  obtain ⟨x, rfl⟩ := List.length_eq_one_iff.1 hl
  obtain rfl : x = shape := by simpa [getIdx] using h4
  have hks : ks.keys.Nodup ∧ (∀ t, t ∈ ks.keys ↔ ∃ y ∈ x.view.immersed, y.physicalTag = t) ∧
      ∀ k ∈ ks, ∃ y ∈ x.view.immersed, y.physicalTag = k.1 ∧
        ∃ pts, boundaryPoints wire y = .ok pts ∧ normalOf pts = .ok k.2 := by
    by_cases h0 : x.view.immersed.length = 0
    · rw [if_pos h0] at h1
      obtain rfl := Except.ok.inj h1
      simp [List.length_eq_zero_iff.1 h0, Dict.keys]
    · rw [if_neg h0] at h1
      have := normalsOf_ok h1 (by simp [Dict.keys])
      refine ⟨this.1, fun t => ?_, fun k hk => ?_⟩
      · rw [this.2.1]
        simp [Dict.keys]
      · simpa using this.2.2 k hk
  exact ⟨rfl, x, ks, getIdx_eq_ok.1 h3, hks.1, hks.2.1, hks.2.2, h2,
    fun i j hi hj hs => cutAll_share hp hks.1 h2 i j hi hj hs⟩

/-- C34.  The positive side of an immersed edge from `a` to `b` is the one on the left. -/
theorem C34_side {a b : Pt ℝ} (hab : a ≠ b) (hz : a 2 = b 2) (t : Option Int) :
    ∃ n c, normalOf [a, b] = .ok (n, c) ∧ ∀ points cell σ, Side ⟨t, n, c⟩ points cell σ ↔
      ∃ x, cellCentroid points cell = .ok x ∧
        (σ = true ↔ 0 < (b 0 - a 0) * (x 1 - a 1) - (b 1 - a 1) * (x 0 - a 0)) := by
  have hmid : (fun k => (([a, b] : List (Pt ℝ)).map (· k)).sum / ((2 : Nat) : ℝ)) = midpoint a b := by
    funext k
    simp [MeshOps.midpoint]
  refine ⟨normalDir a b, midpoint a b, by rw [← hmid]; rfl, fun points cell σ => ?_⟩
  have hpos : 0 < Real.sqrt ((b 0 - a 0) ^ 2 + (b 1 - a 1) ^ 2) := by
    apply Real.sqrt_pos.2
    by_contra h
    have h0 : b 0 - a 0 = 0 := by nlinarith [sq_nonneg (b 0 - a 0), sq_nonneg (b 1 - a 1)]
    have h1 : b 1 - a 1 = 0 := by nlinarith [sq_nonneg (b 0 - a 0), sq_nonneg (b 1 - a 1)]
    apply hab
    funext k
    fin_cases k
    · simpa using (sub_eq_zero.1 h0).symm
    · simpa using (sub_eq_zero.1 h1).symm
    · simpa using hz
  unfold Side
  refine exists_congr fun x => and_congr_right fun hx => ?_
  obtain ⟨x', hx', e⟩ := (C58_side hab hz (points := points) (c := cell)
    (s := dot3 (x - midpoint a b) (normalDir a b))).1 ⟨x, hx, rfl⟩
  rw [hx] at hx'
  obtain rfl := Except.ok.inj hx'
  rw [e, div_pos_iff_of_pos_right hpos]

example : (![0, 0, 0] : Pt ℝ) ≠ ![1, 0, 0] := fun h => by simpa using congrFun h 0

/-- C34.  The other domains are refused. -/
theorem C34_refused {wire : Shape (Pt ℝ) → Res (Pt ℝ × Pt ℝ)} {dimension : Nat}
    {domain : Domain (Pt ℝ)} {d : Dict (Option Int) (Pt ℝ × Pt ℝ)} :
    (dimension ≠ 2 → cutEmbedded wire dimension domain d p = .error .assertionError) ∧
    ∀ shapes, domain.shapes[2]? = some shapes → shapes.length ≠ 1 →
      cutEmbedded wire 2 domain d p = .error .assertionError := by
  refine ⟨fun hd => ?_, fun shapes h1 h2 => ?_⟩
  · unfold cutEmbedded
    rw [if_pos hd]
    rfl
  · unfold cutEmbedded embedNormals
    rw [if_neg (by simp), getIdx_of h1]
    simp [h2, bind, Except.bind, throw, throwThe, MonadExceptOf.throw]

/-! ### Two triangles -/

/-- The cut along the common edge of the two triangles. -/
noncomputable def twoKey : Option Int × (Pt ℝ × Pt ℝ) := (some 10, ![0, 1, 0], ![1 / 2, 0, 0])

theorem two_cutOK : CutOK twoParts.cells twoParts.points.length := by
  refine cutOK_of_meshOK two_meshOK fun i c hc => ?_
  have hi := stored_lt hc
  change i < 11 at hi
  interval_cases i <;> simp [Stored, twoParts, twoTriangles] at hc <;> subst hc <;> simp

theorem two_cutOne : ∃ r, cutOne Style.embed (cutOf twoKey) twoParts [] = .ok r := by
  have h4 : ∀ i c, Stored twoParts.cells i c → c.dimension = 1 → c.material = some 10 → i = 4 := by
    intro i c hc hd hm
    have hi := stored_lt hc
    change i < 11 at hi
    interval_cases i <;> simp [Stored, twoParts, twoTriangles] at hc <;> subst hc <;>
      simp at hd hm ⊢
  have h9 : Stored twoParts.cells 9 ⟨2, 9, some 1, [0, 1, 2], [[0, 1, 2], [4, 6, 5], [9]]⟩ := rfl
  have hc4 : Stored twoParts.cells 4 ⟨1, 4, some 10, [0, 1], [[0, 1], [4]]⟩ := rfl
  refine C34_success two_cutOK [] (fun _ => by simp [cutOf, twoKey]) ?_ ?_
  · intro i c hc hd hm
    obtain rfl := h4 i c hc hd hm
    exact ⟨9, ⟨_, h9, rfl⟩, _, h9, [4, 6, 5], rfl, by simp⟩
  · intro i c v hc hd hm hv
    obtain rfl := h4 i c hc hd hm
    obtain ⟨c', hc', ids, hids, hvi⟩ := hv
    obtain rfl := stored_unique' hc' hc4
    obtain rfl : [0, 1] = ids := by simpa using hids
    refine ⟨9, ⟨_, h9, rfl⟩, _, h9, [0, 1, 2], rfl, ?_⟩
    simp at hvi ⊢
    omega

theorem two_sides : Side (cutOf twoKey) twoParts.points
      ⟨2, 9, some 1, [0, 1, 2], [[0, 1, 2], [4, 6, 5], [9]]⟩ true ∧
    Side (cutOf twoKey) twoParts.points
      ⟨2, 10, some 1, [0, 1, 3], [[0, 1, 3], [4, 8, 7], [10]]⟩ false := by
  constructor <;>
  · refine ⟨_, rfl, ?_⟩
    simp [twoPoints, twoParts, dot3, cutOf, twoKey]

/-- The two triangles share an edge, and are on different sides of it. -/
example : Share twoParts.cells 1 9 10 ∧ Apart (cutOf twoKey) twoParts 9 10 :=
  ⟨⟨4, ⟨_, rfl, [4, 6, 5], rfl, by simp⟩, ⟨_, rfl, [4, 8, 7], rfl, by simp⟩⟩,
    _, _, true, rfl, rfl, two_sides.1, two_sides.2⟩

/-- After the cut they share none. -/
theorem two_separated : ∃ r, cutAll Style.embed [twoKey] twoParts [] = .ok r ∧
    ¬ Share r.1.cells 1 9 10 := by
  obtain ⟨r, hr⟩ := two_cutOne
  have h : cutAll Style.embed [twoKey] twoParts [] = .ok r := by
    rw [show ([twoKey] : List _) = [(some 10, ![0, 1, 0], ![1 / 2, 0, 0])] from rfl, cutAll]
    rw [show (⟨some 10, (![0, 1, 0] : Pt ℝ), (![1 / 2, 0, 0] : Pt ℝ)⟩ : Cut) = cutOf twoKey from rfl,
      hr, Res.bind_ok, cutAll]
  refine ⟨r, h, fun hs => ?_⟩
  have hn : Dict.keys ([twoKey] : Dict (Option Int) (Pt ℝ × Pt ℝ)) = [some 10] := rfl
  obtain ⟨x, c, h1, h2, h3, h4⟩ := C34_all_partial two_cutOK (by rw [hn]; simp) h
    (i := 9) (j := 10) ⟨_, rfl, rfl⟩ ⟨_, rfl, rfl⟩ hs
  have h5 := h4 twoKey (by simp) ⟨_, _, true, rfl, rfl, two_sides.1, two_sides.2⟩
  obtain ⟨c1, e1, i1, e2, m1⟩ := h1
  obtain ⟨c2, e3, i2, e4, m2⟩ := h2
  obtain rfl := stored_unique' e1 (show Stored twoParts.cells 9
    ⟨2, 9, some 1, [0, 1, 2], [[0, 1, 2], [4, 6, 5], [9]]⟩ from rfl)
  obtain rfl := stored_unique' e3 (show Stored twoParts.cells 10
    ⟨2, 10, some 1, [0, 1, 3], [[0, 1, 3], [4, 8, 7], [10]]⟩ from rfl)
  obtain rfl : [4, 6, 5] = i1 := by simpa using e2
  obtain rfl : [4, 8, 7] = i2 := by simpa using e4
  obtain rfl : x = 4 := by
    simp at m1 m2
    omega
  obtain rfl := stored_unique' h3 (show Stored twoParts.cells 4
    ⟨1, 4, some 10, [0, 1], [[0, 1], [4]]⟩ from rfl)
  exact h5 rfl

/-- The seam of this cut: edge 4 and its two vertices, so the copies of the latter have the ids
13 to 16, and name the cells 4 to 7 as their sub-cells. -/
theorem two_vertex_copies : ∃ r S, cutOne Style.embed (cutOf twoKey) twoParts [] = .ok r ∧
    IsCutAlong Style.embed (cutOf twoKey) twoParts r.1 S ∧ S.vertices.length = 2 ∧
    ∀ (j v : Nat), S.vertices[j]? = some v → ∃ c, Stored r.1.cells (S.vertexStart twoParts true + j) c ∧
      c.sub[0]? ≠ some [c.id] := by
  obtain ⟨r, hr⟩ := two_cutOne
  obtain ⟨S, hS, -⟩ := C34_cut two_cutOK hr
  refine ⟨r, S, hr, hS, ?_, fun j v hj => ?_⟩
  · have h4 : ∀ i, i ∈ S.edges ↔ i = 4 := by
      intro i
      rw [hS.seam.edges]
      constructor
      · rintro ⟨c, hc, hm, hd⟩
        have hi := stored_lt hc
        change i < 11 at hi
        change c.material = some 10 at hm
        interval_cases i <;> simp [Stored, twoParts, twoTriangles] at hc <;> subst hc <;>
          simp at hd hm ⊢
      · rintro rfl
        exact ⟨_, rfl, rfl, rfl⟩
    have hv : ∀ v, v ∈ S.vertices ↔ v ∈ [0, 1] := by
      intro v
      rw [hS.seam.vertices]
      constructor
      · rintro ⟨c, hc, -, i, hi, c', hc', ids, hids, hv⟩
        obtain rfl := (h4 i).1 hi
        obtain rfl := stored_unique' hc' (show Stored twoParts.cells 4
          ⟨1, 4, some 10, [0, 1], [[0, 1], [4]]⟩ from rfl)
        obtain rfl : [0, 1] = ids := by simpa using hids
        exact hv
      · intro hv
        have hst : ∃ c, Stored twoParts.cells v c ∧ c.material = none := by
          simp at hv
          rcases hv with rfl | rfl
          · exact ⟨_, rfl, rfl⟩
          · exact ⟨_, rfl, rfl⟩
        obtain ⟨c, hc, hm⟩ := hst
        exact ⟨c, hc, by rw [hm]; simp [cutOf, twoKey], 4, (h4 4).2 rfl, _, rfl, [0, 1], rfl, hv⟩
    have hperm : S.vertices.Perm [0, 1] :=
      (List.perm_ext_iff_of_nodup hS.seam.verticesNodup (by simp)).2 hv
    exact hperm.length_eq
  · obtain ⟨c, h1, -, -, h2⟩ := C34_vertex_copies_violated hS (by decide) true hj
    exact ⟨c, h1, h2⟩

/-- An immersed shape without tag, on this mesh. -/
example (d : Dict Nat (Nat × Nat)) (n c : Pt ℝ) :
    cutOne Style.embed ⟨none, n, c⟩ twoParts d = .error .typeError := by
  refine C34_untagged two_cutOK d rfl
    (show Stored twoParts.cells 5 ⟨1, 5, none, [0, 2], [[0, 2], [5]]⟩ from rfl) rfl rfl ?_
  intro i c hc hd hm
  have hi := stored_lt hc
  change i < 11 at hi
  have h9 : Stored twoParts.cells 9 ⟨2, 9, some 1, [0, 1, 2], [[0, 1, 2], [4, 6, 5], [9]]⟩ := rfl
  have h10 : Stored twoParts.cells 10 ⟨2, 10, some 1, [0, 1, 3], [[0, 1, 3], [4, 8, 7], [10]]⟩ := rfl
  have : i = 5 ∨ i = 6 ∨ i = 7 ∨ i = 8 := by
    interval_cases i <;> simp [Stored, twoParts, twoTriangles] at hc <;> subst hc <;>
      simp at hd hm ⊢
  rcases this with rfl | rfl | rfl | rfl
  · exact ⟨9, ⟨_, h9, rfl⟩, _, h9, [4, 6, 5], rfl, by simp⟩
  · exact ⟨9, ⟨_, h9, rfl⟩, _, h9, [4, 6, 5], rfl, by simp⟩
  · exact ⟨10, ⟨_, h10, rfl⟩, _, h10, [4, 8, 7], rfl, by simp⟩
  · exact ⟨10, ⟨_, h10, rfl⟩, _, h10, [4, 8, 7], rfl, by simp⟩

/-- A mesh of one edge, in no triangle. -/
def oneEdge : List Cell := [⟨0, 0, none, [0], [[0]]⟩, ⟨0, 1, none, [1], [[1]]⟩,
  ⟨1, 2, some 10, [0, 1], [[0, 1], [2]]⟩]

theorem oneEdge_ok : CutOK (oneEdge.map some) 2 := by
  obtain ⟨h1, h2, h3⟩ := CheckMesh.sound (cs := oneEdge) (by decide)
  refine cutOK_of_meshOK ⟨h1, h2, h3, ?_⟩ fun i c hc => ?_
  · rintro v t ⟨c, hc, hd, ht⟩
    have hi := stored_lt hc
    change v < 3 at hi
    interval_cases v <;> simp [Stored, oneEdge] at hc <;> subst hc <;> simp at hd ht <;> omega
  · have hi := stored_lt hc
    change i < 3 at hi
    interval_cases i <;> simp [Stored, oneEdge] at hc <;> subst hc <;> simp

example (d : Dict Nat (Nat × Nat)) (n c x y : Pt ℝ) :
    cutOne Style.embed ⟨some 10, n, c⟩ ⟨oneEdge.map some, [x, y]⟩ d = .error .networkXError := by
  refine C34_unused_edge oneEdge_ok d
    (show Stored (oneEdge.map some) 2 ⟨1, 2, some 10, [0, 1], [[0, 1], [2]]⟩ from rfl) rfl rfl ?_
  rintro ⟨t, ⟨c, hc, hd⟩, -⟩
  have hi := stored_lt hc
  change t < 3 at hi
  interval_cases t <;> simp [Stored, oneEdge] at hc <;> subst hc <;> simp at hd

#print axioms C34_cut
#print axioms C34_success
#print axioms C34_unused_edge
#print axioms C34_untagged
#print axioms C34_own_copies
#print axioms C34_separated
#print axioms C34_connected
#print axioms C34_fresh
#print axioms C34_geometry
#print axioms C34_vertex_copies_violated
#print axioms C34_all_partial
#print axioms C34_kept
#print axioms C34_embedded_partial
#print axioms C34_side
#print axioms C34_refused

#print axioms C34_tags

end Verif.EmbedCut
