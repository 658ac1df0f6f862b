/-
C35: detection of closed internal boundaries.
-/
import Verif.Lemmas.Skin
import Verif.Props.MeshGraph

namespace Verif.Skin
open MeshBuild MeshGraph Topology

/-- C35.  If `circulate_internal_bc` gives an answer, the answer is `True` and there is a closed skin
through a vertex that has the tag of the first fracture and is an end of some edge. -/
theorem C35_sound {limit : Nat} {m : Mesh} {tags : List (Option Int)} {b : Bool}
    (h : circulate limit m tags = .ok b) : b = true ∧
    ∃ graph tag v x n vs cs, buildGraphOnMaterials m 1 1 = .ok graph ∧ tags[0]? = some tag ∧
      Stored m.cells v x ∧ x.material = tag ∧
      (∃ i c ids, Stored m.cells i c ∧ c.dimension = 1 ∧ c.sub[0]? = some ids ∧ v ∈ ids) ∧
      n ≤ limit ∧ ClosedSkin m.cells tags graph (x.dimension, v) n vs cs := by
  unfold circulate at h
  obtain ⟨tag, htag, h⟩ := Res.bind_eq_ok.1 h
  obtain ⟨vertices, hvs, h⟩ := Res.bind_eq_ok.1 h
  obtain ⟨graph, hg, h⟩ := Res.bind_eq_ok.1 h
  obtain ⟨v, hv, h⟩ := Res.bind_eq_ok.1 h
  obtain ⟨x, hx, h⟩ := Res.bind_eq_ok.1 h
  obtain ⟨skin, hskin, h⟩ := Res.bind_eq_ok.1 h
  obtain ⟨s, hs, h⟩ := Res.bind_eq_ok.1 h
  obtain ⟨rfl, n, vs, cs, hn, hle, e1, e2, hwalk, hne, hend⟩ := next_ok h
  refine ⟨rfl, graph, tag, v, x, n, vs, cs, hg, getIdx_eq_ok.1 htag, cellAt_iff.1 hx, ?_, ?_, hle, ?_⟩
  · obtain ⟨⟨y, hy, e⟩, -⟩ := fractureVertices_mem hvs (List.mem_of_getElem? (getIdx_eq_ok.1 hv))
    rw [← cellAt_iff, hx] at hy
    cases hy
    exact e
  · exact (fractureVertices_mem hvs (List.mem_of_getElem? (getIdx_eq_ok.1 hv))).2
  · have := hwalk.closedSkin hn (fun i h0 hi => by rw [e1]; exact hne i h0 hi) (by rw [e1]; exact hend)
    rwa [e1] at this

/-- C35.  In the variant that reads the fractures from the domain, `True` is also the answer for a
surface without immersed shapes. -/
theorem C35_from_domain {P : Type} {limit : Nat} {m : Mesh} {d : Domain P} {b : Bool}
    (h : circulateFromDomain limit m d = .ok b) : b = true ∧ m.dimension = 2 ∧
    ∃ s, d.shapes[2]? = some [s] ∧ (s.view.immersed = [] ∨
      ∃ graph v x n vs cs, buildGraphOnMaterials m 1 1 = .ok graph ∧ Stored m.cells v x ∧
        (s.view.immersed.map Shape.physicalTag)[0]? = some x.material ∧ n ≤ limit ∧
        ClosedSkin m.cells (s.view.immersed.map Shape.physicalTag) graph (x.dimension, v) n vs cs) := by
  unfold circulateFromDomain at h
  by_cases hd : m.dimension ≠ 2
  · rw [if_pos hd] at h; cases h
  rw [if_neg hd] at h
  have hd : m.dimension = 2 := by simpa using hd
  obtain ⟨shapes, h1, h⟩ := Res.bind_eq_ok.1 h
  by_cases hl : shapes.length ≠ 1
  · rw [if_pos hl] at h; cases h
  rw [if_neg hl] at h
  obtain ⟨s, h2, h'⟩ := Res.bind_eq_ok.1 h
  clear h
  have hs : shapes = [s] := by
    match shapes, hl, h2 with
    | [a], _, h2 => cases h2; rfl
    | [], hl, _ => simp at hl
    | _ :: _ :: _, hl, _ => simp at hl
  subst hs
  have h1 := getIdx_eq_ok.1 h1
  rw [hd] at h1
  by_cases hi : s.view.immersed.length = 0
  · rw [if_pos hi] at h'
    cases h'
    exact ⟨rfl, hd, s, h1, .inl (List.length_eq_zero_iff.1 hi)⟩
  · rw [if_neg hi] at h'
    obtain ⟨rfl, graph, tag, v, x, n, vs, cs, hg, ht, hx, hxt, -, hle, hc⟩ := C35_sound h'
    exact ⟨rfl, hd, s, h1, .inr ⟨graph, v, x, n, vs, cs, hg, hx, by rw [ht, hxt], hle, hc⟩⟩

/-- C35.  The walk ends: with more recursion depth than the graph has nodes, the only failures are
those of a step. -/
theorem C35_terminates {limit : Nat} {cells : Cells} {tags : List (Option Int)}
    {graph : DiGraph Node} {seed c : Node} (hl : graph.nodes.length < limit)
    (hn : ∀ u v, (u, v) ∈ graph.edges → u ∈ graph.nodes ∧ v ∈ graph.nodes)
    (hs : ∀ u v, (u, v) ∈ graph.edges → ∃ x, Stored cells u.2 x) (hseed : seed ∈ graph.nodes) :
    next cells tags graph seed limit c seed = .ok true ∨
      next cells tags graph seed limit c seed = .error .assertionError := by
  cases h : next cells tags graph seed limit c seed with
  | ok b => obtain ⟨rfl, -⟩ := next_ok h; exact .inl rfl
  | error e =>
    refine .inr ?_
    obtain rfl | ⟨c', v', hv', h'⟩ := next_error_node hn hseed h
    · exact absurd h (next_bounded hl)
    · rcases nextPair_error h' with rfl | ⟨-, hv⟩ | ⟨f, x, hf, hf'⟩ | ⟨-, x, hx, hx'⟩
      · rfl
      · exact absurd hv' hv
      · exact absurd (hn f x hf).1 hf'
      · obtain ⟨y, hy⟩ := hs x v' hx
        exact absurd hy (hx' y)

/-- C35 (completeness).  If every vertex of a skin cell has exactly two skin cells and every skin
cell has two ends, the answer at a vertex with a skin cell is `True`. -/
theorem C35_complete {limit : Nat} {cells : Cells} {tags : List (Option Int)}
    {graph : DiGraph Node} (h : Manifold cells tags graph) {seed c : Node}
    (hl : graph.nodes.length < limit) (hc : SkinAt cells tags graph seed c) :
    next cells tags graph seed limit c seed = .ok true := by
  rcases next_total h (seed := seed) (fuel := limit) hc with h1 | h1
  · exact h1
  · exact absurd h1 (next_bounded hl)

/-- C35 (completeness for a mesh).  The answer is `True` when the first vertex with the tag of the
first fracture has a skin cell and the skin is a manifold. -/
theorem C35_circulate {limit : Nat} {m : Mesh} {tags : List (Option Int)} {tag : Option Int}
    {graph : DiGraph Node} {v : Nat} {l : List Nat} {x : Cell} (ht : tags[0]? = some tag)
    (hv : fractureVertices m.cells tag = .ok (v :: l))
    (hg : buildGraphOnMaterials m 1 1 = .ok graph) (hx : Stored m.cells v x)
    (h : Manifold m.cells tags graph) (hl : graph.nodes.length < limit) {c : Node}
    (hc : SkinAt m.cells tags graph (x.dimension, v) c) : circulate limit m tags = .ok true := by
  obtain ⟨s, hs⟩ := skinNeighs_total h (h.nodes _ _ hc.1).2
  obtain ⟨-, hm, -⟩ := skinNeighs_ok hs
  have hne : c ∈ s := (hm c).2 hc
  obtain ⟨y, r, rfl⟩ : ∃ y r, s = y :: r := by
    cases s with
    | nil => cases hne
    | cons y r => exact ⟨y, r, rfl⟩
  have hy := (hm y).1 (by simp)
  unfold circulate
  rw [getIdx_of ht, Res.bind_ok, hv, Res.bind_ok, hg, Res.bind_ok]
  simp only [getIdx, List.getElem?_cons_zero, Res.bind_ok, cellAt_iff.2 hx, hs]
  exact C35_complete h hl hy

/-! ### Failures -/

/-- C35.  Without fractures, or when no vertex carries the tag of the first fracture, there is no
seed: `IndexError`. -/
theorem C35_no_seed {limit : Nat} {m : Mesh} {tags : List (Option Int)} :
    circulate limit m [] = .error .indexError ∧
    ∀ {tag graph}, tags[0]? = some tag → fractureVertices m.cells tag = .ok [] →
      buildGraphOnMaterials m 1 1 = .ok graph → circulate limit m tags = .error .indexError := by
  refine ⟨rfl, fun {tag graph} ht hv hg => ?_⟩
  unfold circulate
  rw [getIdx_of ht, Res.bind_ok, hv, Res.bind_ok, hg, Res.bind_ok]
  rfl

/-! ### Example -/

/-- Two points joined by a fracture edge (tag 10) and the two copies of it on its sides. -/
def lens : Mesh := ⟨2, [some ⟨0, 0, some 10, [0], [[0]]⟩, some ⟨0, 1, some 10, [1], [[1]]⟩,
  some ⟨1, 2, some 10, [0, 1], [[0, 1], [2]]⟩, some ⟨1, 3, some 10001, [0, 1], [[0, 1], [3]]⟩,
  some ⟨1, 4, some 9999, [0, 1], [[0, 1], [4]]⟩]⟩

/-- The skin of the fracture is closed. -/
example : circulate 1000 lens [some 10] = .ok true := by decide +kernel

/-- Without one of the copies it is not, and an assertion fails. -/
example : circulate 1000 ⟨2, lens.cells.dropLast⟩ [some 10] = .error .assertionError := by
  decide +kernel

/-- The graph of the edges of `lens` and their ends. -/
def lensGraph : DiGraph Node := DiGraph.ofEdges
  [((1, 2), (0, 0)), ((1, 2), (0, 1)), ((1, 3), (0, 0)), ((1, 3), (0, 1)), ((1, 4), (0, 0)),
    ((1, 4), (0, 1))]

theorem lens_skin (c : Node) : SkinCell lens.cells [some 10] c ↔ c.2 = 3 ∨ c.2 = 4 := by
  obtain ⟨d, i⟩ := c
  match i with
  | 0 => simp [SkinCell, Stored, lens]
  | 1 => simp [SkinCell, Stored, lens]
  | 2 => simp [SkinCell, Stored, lens]
  | 3 => simp [SkinCell, Stored, lens]
  | 4 => simp [SkinCell, Stored, lens]
  | i + 5 => simp [SkinCell, Stored, lens]

/-- The hypotheses of `C35_terminates`, `C35_complete` and `C35_circulate` can be satisfied. -/
theorem lens_manifold : Manifold lens.cells [some 10] lensGraph where
  edgesNodup := by decide +kernel
  nodes := by
    have : ∀ e ∈ lensGraph.edges, e.1 ∈ lensGraph.nodes ∧ e.2 ∈ lensGraph.nodes := by
      decide +kernel
    exact fun u v h => this _ h
  stored := by
    have : ∀ e ∈ lensGraph.edges, e.1.2 = 2 ∨ e.1.2 = 3 ∨ e.1.2 = 4 := by decide +kernel
    intro u v h
    rcases this _ h with h | h | h <;> (dsimp only at h; rw [h]) <;> exact ⟨_, rfl⟩
  neighs := by
    have h : ∀ e ∈ lensGraph.edges, (e.2 = (0, 0) ∨ e.2 = (0, 1)) ∧
        (e.1.2 = 3 ∨ e.1.2 = 4 → e.1 = (1, 3) ∨ e.1 = (1, 4)) := by decide +kernel
    rintro v ⟨c, hc, -⟩
    refine ⟨(1, 3), (1, 4), by decide, fun x => ⟨fun hx => ?_, ?_⟩⟩
    · exact (h _ hx.1).2 ((lens_skin _).1 hx.2)
    · rcases (h _ hc).1 with hv | hv <;> (dsimp only at hv; rw [hv]) <;> rintro (rfl | rfl) <;>
        exact ⟨by decide +kernel, (lens_skin _).2 (by decide)⟩
  ends := by
    have h : ∀ e ∈ lensGraph.edges, (e.1 = (1, 2) ∨ e.1 = (1, 3) ∨ e.1 = (1, 4)) ∧
      (e.2 = (0, 0) ∨ e.2 = (0, 1)) := by decide +kernel
    rintro c - ⟨v, hv⟩
    refine ⟨(0, 0), (0, 1), by decide, fun x => ⟨fun hx => (h _ hx).2, ?_⟩⟩
    rcases (h _ hv).1 with hc | hc | hc <;> (dsimp only at hc; rw [hc]) <;>
      rintro (rfl | rfl) <;> decide +kernel

theorem lens_graph : buildGraphOnMaterials lens 1 1 = .ok lensGraph := by rfl

example : circulate 1000 lens [some 10] = .ok true :=
  C35_circulate (x := ⟨0, 0, some 10, [0], [[0]]⟩) (v := 0) (l := [1]) (c := (1, 3)) rfl
    (by decide +kernel) lens_graph rfl lens_manifold (by decide +kernel)
    ⟨by decide +kernel, (lens_skin _).2 (by decide)⟩

#print axioms C35_sound
#print axioms C35_from_domain
#print axioms C35_terminates
#print axioms C35_complete
#print axioms C35_circulate
#print axioms C35_no_seed

end Verif.Skin
