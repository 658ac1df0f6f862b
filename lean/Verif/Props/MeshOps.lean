/-
C30-C33: duplicating cells and points, replacing graph nodes, replacing sub-cells
(src/mesh/mesh_operations.py).
-/
import Verif.Lemmas.MeshUpdate
import Verif.Lemmas.MeshCheck
import Mathlib.Tactic.IntervalCases
import Mathlib.Tactic.FinCases

namespace Verif.MeshOps
open MeshBuild MeshGraph MeshStore Trace MeshMetrics

/-! ### C30 -/

/-- C30.  The copies are numbered consecutively from the start id, each is a copy of the cell in
the same place, and the next free id is returned. -/
theorem C30_copies {tagMap : Dict (Option Int) (Option Int)} {cs : List Cell} {n : Nat}
    (h : ∀ c ∈ cs, c.dimension < c.sub.length) :
    ∃ r, duplicateCells tagMap n cs = .ok (r, n + cs.length) ∧ r.length = cs.length ∧
      ∀ i c, cs[i]? = some c → ∃ c', r[i]? = some c' ∧ IsCopy tagMap (n + i) c c' := by
  obtain ⟨r, h1, h2, h3⟩ := duplicateCells_ok (tagMap := tagMap) (n := n) h
  refine ⟨r, h1, h2, fun i c hc => ?_⟩
  obtain ⟨c', h4, h5, -⟩ := h3 i c hc
  exact ⟨c', h4, h5⟩

/-- C30.  Copies started at the number of stored cells are new: they are accepted by
`append_cells`, follow the stored cells, which stay as they are, and keep "id = position". -/
theorem C30_fresh {tagMap : Dict (Option Int) (Option Int)} {cells : Cells} {cs r : List Cell}
    {next : Nat} (hne : cs ≠ [])
    (h : duplicateCells tagMap cells.length cs = .ok (r, next)) :
    appendCells cells r = .ok (cells ++ r.map some) ∧
      next = (cells ++ r.map some).length ∧
      (IdsArePositions cells → IdsArePositions (cells ++ r.map some)) := by
  have hall : ∀ c ∈ cs, c.dimension < c.sub.length := by
    intro c hc
    by_contra hlt
    rw [duplicateCells_error ⟨c, hc, by omega⟩] at h
    simp at h
  obtain ⟨r', h1, h2, h3⟩ := duplicateCells_ok (tagMap := tagMap) (n := cells.length) hall
  rw [h1] at h
  obtain ⟨rfl, rfl⟩ : r' = r ∧ cells.length + cs.length = next := by simpa using h
  have hid : ∀ (i : Nat) c', r'[i]? = some c' → c'.id = cells.length + i := by
    intro i c' hc'
    have hi := (List.getElem?_eq_some_iff.1 hc').1
    obtain ⟨c'', h4, h5, -⟩ := h3 i cs[i] (List.getElem?_eq_getElem (by omega))
    rw [hc'] at h4
    obtain rfl : c' = c'' := by simpa using h4
    exact h5.id
  have happ : appendCells cells r' = .ok (cells ++ r'.map some) := by
    refine appendCells_ok.2 ⟨?_, ?_, rfl⟩
    · rintro rfl; exact hne (List.length_eq_zero_iff.1 h2.symm)
    · intro c hc
      obtain ⟨i, hi⟩ := List.mem_iff_getElem?.1 hc
      rw [hid i c hi]; omega
  refine ⟨happ, by simp [h2], fun hp i hi => ?_⟩
  rcases Nat.lt_or_ge i cells.length with hl | hl
  · obtain ⟨c, hc, hci⟩ := hp i hl
    exact ⟨c, stored_of_prefix (List.prefix_append _ _) hc, hci⟩
  · simp only [List.length_append, List.length_map] at hi
    have hget : r'[i - cells.length]? = some (r'[i - cells.length]'(by omega)) :=
      List.getElem?_eq_getElem (by omega)
    refine ⟨r'[i - cells.length]'(by omega), ?_, ?_⟩
    · unfold Stored
      rw [List.getElem?_append_right hl, List.getElem?_map, hget]; rfl
    · rw [hid _ _ hget]; omega

/-- C30, rejection: a cell without an entry for its own dimension raises `IndexError`, and nothing
else is rejected. -/
theorem C30_rejects {tagMap : Dict (Option Int) (Option Int)} {cs : List Cell} {n : Nat} :
    (∃ c ∈ cs, c.sub.length ≤ c.dimension) ↔
      duplicateCells tagMap n cs = .error .indexError := by
  refine ⟨duplicateCells_error, fun h => ?_⟩
  by_contra hno
  push Not at hno
  obtain ⟨r, h1, -⟩ := duplicateCells_ok (tagMap := tagMap) (n := n) hno
  rw [h1] at h
  simp at h

example : duplicateCells [(some 7, some 70)] 9
    [⟨1, 5, some 7, [1, 0], [[1, 0], [5]]⟩, ⟨0, 1, none, [1], [[1]]⟩] =
    .ok ([⟨1, 9, some 70, [1, 0], [[1, 0], [9]]⟩, ⟨0, 10, none, [1], [[10]]⟩], 11) := rfl
example : duplicateCells [] 9 [⟨1, 5, some 7, [1, 0], [[1, 0]]⟩] = .error .indexError := rfl

/-! ### C31 -/

/-- C31.  The call succeeds on a non-empty list of vertices with one existing node each; the old
points stay, one point per vertex follows (displaced as `bumped`), and the vertices get the tags
of their own new points.  `argsort` returns a rearrangement of the positions. -/
theorem C31_points {argsort : List ℝ → List Nat}
    (hsort : ∀ l, (argsort l).Perm (List.range l.length)) {bump : Option Bump}
    {cs : List Cell} {points : Points ℝ} {tags : List Nat} {ps : List (Pt ℝ)}
    (hne : cs ≠ []) (htags : cs.map (·.nodeTags) = tags.map ([·]))
    (hps : List.Forall₂ (fun t p => points[t]? = some p) tags ps) :
    duplicatePoints argsort bump cs points =
      .ok (points ++ ps.map (displaced bump),
        cs.zipIdx.map fun p => { p.1 with nodeTags := [points.length + p.2] }) := by
  have h1 : cs.flatMap (·.nodeTags) = tags := by
    rw [List.flatMap_def, htags]
    clear hps htags
    induction tags with
    | nil => rfl
    | cons a t ih => simpa using ih
  have hlen : ps.length = cs.length := by
    rw [← hps.length_eq]
    simpa using (congrArg List.length htags).symm
  have hf : fancy points tags = .ok ps := fancy_iff.2 hps
  unfold duplicatePoints
  rw [if_neg hne, h1, hf, retagNodes_ok]
  have hb : ∀ b, bumpPoints argsort b ps = ps.map (bumped b) := fun b =>
    bumpPoints_get argsort b ps (by simpa using hsort (ps.map fun p => norm3 (p - b.a)))
  cases bump with
  | none => simp [hlen, show displaced none = _root_.id from rfl]
  | some b => simp [hb, hlen, show displaced (some b) = bumped b from rfl]

/-- C31, zero displacement (the call of the non-visual cut): the new points are the old ones of
the vertices, so that every vertex keeps its place in space. -/
theorem C31_coincide {argsort : List ℝ → List Nat}
    (hsort : ∀ l, (argsort l).Perm (List.range l.length)) {bump : Option Bump}
    (hb : ∀ b, bump = some b → b.scale = 0)
    {cs : List Cell} {points : Points ℝ} {tags : List Nat} {ps : List (Pt ℝ)}
    (hne : cs ≠ []) (htags : cs.map (·.nodeTags) = tags.map ([·]))
    (hps : List.Forall₂ (fun t p => points[t]? = some p) tags ps) :
    ∃ points' cs', duplicatePoints argsort bump cs points = .ok (points', cs') ∧
      points'.length = points.length + cs.length ∧ cs'.length = cs.length ∧
      (∀ t < points.length, points'[t]? = points[t]?) ∧
      ∀ (i : Nat) c t p, cs[i]? = some c → c.nodeTags = [t] → points[t]? = some p →
        cs'[i]? = some { c with nodeTags := [points.length + i] } ∧
        points'[points.length + i]? = some p := by
  have h1 := C31_points hsort (bump := bump) hne htags hps
  have h2 : ps.map (displaced bump) = ps := by
    have : displaced bump = _root_.id := by
      funext p
      cases bump with
      | none => rfl
      | some b => exact bumped_zero (hb b rfl) p
    rw [this, List.map_id]
  rw [h2] at h1
  have hlen : ps.length = cs.length := by
    rw [← hps.length_eq]
    simpa using (congrArg List.length htags).symm
  refine ⟨_, _, h1, by simp [hlen], by simp, ?_, ?_⟩
  · intro t ht; rw [List.getElem?_append_left ht]
  · intro i c t p hc hct hp
    constructor
    · rw [List.getElem?_map, List.getElem?_zipIdx, hc]; simp
    · rw [List.getElem?_append_right (by omega), Nat.add_sub_cancel_left]
      have hi : i < cs.length := (List.getElem?_eq_some_iff.1 hc).1
      have h3 : tags[i]? = some t := by
        have := congrArg (fun l => l[i]?) htags
        simp only [List.getElem?_map, hc, Option.map_some, hct] at this
        cases ht : tags[i]? with
        | none => rw [ht] at this; simp at this
        | some t' => rw [ht] at this; simp at this; rw [this]
      have hit : i < tags.length := (List.getElem?_eq_some_iff.1 h3).1
      have := (List.forall₂_iff_get.1 hps).2 i hit (by rw [hlen]; exact hi)
      simp only [List.get_eq_getElem] at this
      rw [List.getElem?_eq_getElem (by rw [hlen]; exact hi), ← hp, ← this]
      congr 1
      have := (List.getElem?_eq_some_iff.1 h3).2
      exact this

/-- C31, rejections: an empty list raises `ValueError`, a missing node `IndexError`, and a cell
with a number of nodes other than one makes the final assertion fail (unless the numbers average
to one). -/
theorem C31_rejects {argsort : List ℝ → List Nat}
    (hsort : ∀ l, (argsort l).Perm (List.range l.length)) (bump : Option Bump)
    (cs : List Cell) (points : Points ℝ) :
    duplicatePoints argsort bump [] points = .error .valueError ∧
    ((∃ c ∈ cs, ∃ t ∈ c.nodeTags, points.length ≤ t) →
      duplicatePoints argsort bump cs points = .error .indexError) ∧
    ((∀ c ∈ cs, ∀ t ∈ c.nodeTags, t < points.length) →
      (cs.flatMap (·.nodeTags)).length ≠ cs.length →
      duplicatePoints argsort bump cs points = .error .assertionError) := by
  refine ⟨by simp [duplicatePoints], ?_, ?_⟩
  · rintro ⟨c, hc, t, ht, hlt⟩
    have hne : cs ≠ [] := by rintro rfl; simp at hc
    have hmem : t ∈ cs.flatMap (·.nodeTags) := List.mem_flatMap.2 ⟨c, hc, ht⟩
    unfold duplicatePoints
    rw [if_neg hne]
    have : fancy points (cs.flatMap (·.nodeTags)) = .error .indexError := by
      generalize cs.flatMap (·.nodeTags) = tags at hmem
      induction tags with
      | nil => simp at hmem
      | cons a l ih =>
        simp only [fancy, mapRes] at ih ⊢
        by_cases ha : a < points.length
        · have hne : t ≠ a := by omega
          have := ih (by simpa [hne] using hmem)
          simp [getIdx, List.getElem?_eq_getElem ha, this]
        · simp [getIdx, List.getElem?_eq_none (by omega : points.length ≤ a)]
    rw [this]; rfl
  · intro hall hlen
    have hne : cs ≠ [] := by rintro rfl; simp at hlen
    obtain ⟨ps, hps0⟩ := fancy_total (a := points) (idx := cs.flatMap (·.nodeTags)) (by
      intro t ht
      obtain ⟨c, hc, ht⟩ := List.mem_flatMap.1 ht
      exact hall c hc t ht)
    have hps := fancy_iff.2 hps0
    have hpl : ps.length = (cs.flatMap (·.nodeTags)).length :=
      hps0.length_eq.symm
    unfold duplicatePoints
    rw [if_neg hne, hps, retagNodes_ok]
    have hb : ∀ b, bumpPoints argsort b ps = ps.map (bumped b) := fun b =>
      bumpPoints_get argsort b ps (by simpa using hsort (ps.map fun p => norm3 (p - b.a)))
    cases bump with
    | none =>
      simp only [Res.bind_ok, List.length_append]
      rw [if_neg (by omega)]
    | some b =>
      simp only [Res.bind_ok, List.length_append, hb, List.length_map]
      rw [if_neg (by omega)]

example : ∃ points' cs', duplicatePoints (fun l => List.range l.length)
      (some ⟨fun _ => 0, fun _ => 1, 1, 0⟩)
      [⟨0, 7, none, [1], [[7]]⟩, ⟨0, 8, none, [0], [[8]]⟩]
      [(fun _ => 5 : Pt ℝ), fun _ => 6] = .ok (points', cs') ∧
    cs'[1]? = some ⟨0, 8, none, [3], [[8]]⟩ ∧ points'[3]? = some (fun _ => 5) := by
  obtain ⟨p', c', h1, -, -, -, h⟩ := C31_coincide (argsort := fun l => List.range l.length)
    (fun l => List.Perm.refl _) (bump := some ⟨fun _ => 0, fun _ => 1, 1, 0⟩)
    (by rintro b h; simp only [Option.some.injEq] at h; subst h; rfl)
    (cs := [⟨0, 7, none, [1], [[7]]⟩, ⟨0, 8, none, [0], [[8]]⟩])
    (points := [(fun _ => 5 : Pt ℝ), fun _ => 6]) (tags := [1, 0])
    (ps := [(fun _ => 6 : Pt ℝ), fun _ => 5]) (by simp) rfl
    (.cons rfl (.cons rfl .nil))
  obtain ⟨h2, h3⟩ := h 1 ⟨0, 8, none, [0], [[8]]⟩ 0 (fun _ => 5) rfl rfl rfl
  exact ⟨p', c', h1, h2, h3⟩

/-! ### C32 -/

section
variable {N : Type} [DecidableEq N]

/-- C32.  Replacing a node by another: the edges are those that do not touch the old node, and
those into the old node (from other nodes) moved to the new one. -/
theorem C32_edges_partial (g : DiGraph N) {old new : N} (hne : new ≠ old)
    (hg : ∀ e ∈ g.edges, e.1 ∈ g.nodes ∧ e.2 ∈ g.nodes) (u v : N) :
    (u, v) ∈ (replaceNode g (old, new)).edges ↔
      u ≠ old ∧ (((u, v) ∈ g.edges ∧ v ≠ old) ∨ (v = new ∧ (u, old) ∈ g.edges)) := by
  by_cases h : old ∈ g.nodes
  · rw [replaceNode_edges h]
    constructor
    · rintro ⟨h1, h2, h3 | h3⟩
      · exact ⟨h1, Or.inl ⟨h3, h2⟩⟩
      · exact ⟨h1, Or.inr h3⟩
    · rintro ⟨h1, ⟨h3, h2⟩ | ⟨rfl, h3⟩⟩
      · exact ⟨h1, h2, Or.inl h3⟩
      · exact ⟨h1, hne, Or.inr ⟨rfl, h3⟩⟩
  · unfold replaceNode
    rw [if_neg h]
    constructor
    · intro h1
      refine ⟨?_, Or.inl ⟨h1, ?_⟩⟩
      · rintro rfl; exact h (hg _ h1).1
      · rintro rfl; exact h (hg _ h1).2
    · rintro ⟨h1, ⟨h3, h2⟩ | ⟨rfl, h3⟩⟩
      · exact h3
      · exact absurd (hg _ h3).2 h

/-- C32.  The old node is gone; the new one is added if the old one had a predecessor; all other
nodes stay. -/
theorem C32_nodes (g : DiGraph N) {old new : N} (h : old ∈ g.nodes)
    (hg : ∀ e ∈ g.edges, e.1 ∈ g.nodes ∧ e.2 ∈ g.nodes) (n : N) :
    n ∈ (replaceNode g (old, new)).nodes ↔
      n ≠ old ∧ (n ∈ g.nodes ∨ (n = new ∧ ∃ u, (u, old) ∈ g.edges)) :=
  replaceNode_nodes h hg n

/-- C32, an absent node leaves the graph unchanged. -/
theorem C32_absent (g : DiGraph N) {old new : N} (h : old ∉ g.nodes) :
    replaceNode g (old, new) = g := if_neg h

/-- C32 is violated when a node is replaced by itself: the node is deleted with all its edges. -/
theorem C32_same_node_violated (g : DiGraph N) {u v : N} (hv : v ∈ g.nodes)
    (_huv : (u, v) ∈ g.edges) :
    v ∉ (replaceNode g (v, v)).nodes ∧ (u, v) ∉ (replaceNode g (v, v)).edges := by
  constructor
  · unfold replaceNode
    simp [hv, DiGraph.removeNode]
  · rw [replaceNode_edges hv]; simp

/-- The graph keeps the ends of its edges among its nodes. -/
theorem replaceNode_closed {g : DiGraph N}
    (hg : ∀ e ∈ g.edges, e.1 ∈ g.nodes ∧ e.2 ∈ g.nodes) (p : N × N) :
    ∀ e ∈ (replaceNode g p).edges, e.1 ∈ (replaceNode g p).nodes ∧
      e.2 ∈ (replaceNode g p).nodes := by
  obtain ⟨old, new⟩ := p
  by_cases h : old ∈ g.nodes
  · rintro ⟨u, v⟩ he
    rw [replaceNode_edges h] at he
    obtain ⟨h1, h2, h3 | ⟨rfl, h3⟩⟩ := he
    · exact ⟨(replaceNode_nodes h hg u).2 ⟨h1, Or.inl (hg _ h3).1⟩,
        (replaceNode_nodes h hg v).2 ⟨h2, Or.inl (hg _ h3).2⟩⟩
    · exact ⟨(replaceNode_nodes h hg u).2 ⟨h1, Or.inl (hg _ h3).1⟩,
        (replaceNode_nodes h hg v).2 ⟨h2, Or.inr ⟨rfl, u, h3⟩⟩⟩
  · unfold replaceNode
    rw [if_neg h]; exact hg

/-- C32, a list of pairs on an incidence graph (no old node has successors), the old nodes
distinct and none of them new: every edge is moved according to its own pair. -/
theorem C32_list : ∀ (pairs : List (N × N)) (g : DiGraph N),
    (∀ e ∈ g.edges, e.1 ∈ g.nodes ∧ e.2 ∈ g.nodes) →
    (pairs.map Prod.fst).Nodup → (∀ p ∈ pairs, ∀ q ∈ pairs, p.2 ≠ q.1) →
    (∀ p ∈ pairs, ∀ v, (p.1, v) ∉ g.edges) → ∀ u v,
    (u, v) ∈ (replaceNodes pairs g).edges ↔
      ∃ w, (u, w) ∈ g.edges ∧ v = (Dict.get? pairs w).getD w
  | [], g, _, _, _, _, u, v => by simp [replaceNodes]
  | (old, new) :: pairs, g, hg, hnd, hfresh, hsrc, u, v => by
    rw [List.map_cons, List.nodup_cons] at hnd
    have hne : new ≠ old := hfresh (old, new) (by simp) (old, new) (by simp)
    have hnew : Dict.get? pairs new = none := by
      rw [Dict.get?_eq_none]
      intro h
      obtain ⟨q, hq, hqn⟩ := List.mem_map.1 h
      exact hfresh (old, new) (by simp) q (by simp [hq]) hqn.symm
    have ih := C32_list pairs (replaceNode g (old, new)) (replaceNode_closed hg _) hnd.2
      (fun p hp q hq => hfresh p (by simp [hp]) q (by simp [hq]))
      (fun p hp v hv => by
        rw [C32_edges_partial g hne hg] at hv
        obtain ⟨-, ⟨h, -⟩ | ⟨-, h⟩⟩ := hv
        · exact hsrc p (by simp [hp]) _ h
        · exact hsrc p (by simp [hp]) _ h) u v
    rw [show replaceNodes ((old, new) :: pairs) g = replaceNodes pairs (replaceNode g (old, new))
      from rfl, ih]
    constructor
    · rintro ⟨w, hw, rfl⟩
      rw [C32_edges_partial g hne hg] at hw
      obtain ⟨-, ⟨h, h2⟩ | ⟨rfl, h⟩⟩ := hw
      · exact ⟨w, h, by simp [Dict.get?, Ne.symm h2]⟩
      · refine ⟨old, h, ?_⟩
        rw [hnew]
        simp [Dict.get?]
    · rintro ⟨w, hw, rfl⟩
      have hu : u ≠ old := by
        rintro rfl; exact hsrc (u, new) (by simp) w hw
      by_cases hwo : w = old
      · subst hwo
        refine ⟨new, (C32_edges_partial g hne hg _ _).2 ⟨hu, Or.inr ⟨rfl, hw⟩⟩, ?_⟩
        rw [hnew]
        simp [Dict.get?]
      · exact ⟨w, (C32_edges_partial g hne hg _ _).2 ⟨hu, Or.inl ⟨hw, hwo⟩⟩,
          by simp [Dict.get?, Ne.symm hwo]⟩

end

example : (replaceNode (DiGraph.ofEdges [(1, 2), (3, 2), (1, 4)]) (2, 9)).edges =
    [(1, 4), (1, 9), (3, 9)] := by decide
example : (replaceNodes [(2, 9), (4, 8)] (DiGraph.ofEdges [(1, 2), (3, 2), (1, 4)])).edges =
    [(1, 9), (3, 9), (1, 8)] := by decide

/-! ### C33 -/

variable {m : Mesh} {targets : List Cell} {pairs : Pairs} {k : Nat} {P : Nat → List (Cell × Cell)}

/-- C33.  In each given cell every sub-cell that is the old cell of a pair becomes the new cell of
the pair and every other sub-cell stays; the node tags follow the vertices; all other cells of the
mesh are unchanged. -/
theorem C33_replaces (hw : WellFormed m.cells) (hs : SubNodup m.cells) (hn : NodesOK m.cells)
    (hu : UpdateOK m.cells targets pairs k P) (hf : Found m.cells targets k P) :
    ∃ cells', updateCells m targets pairs = .ok cells' ∧ cells'.length = m.cells.length ∧
      ∀ i c, Stored m.cells i c → ∃ c', Stored cells' i c' ∧
        (i ∉ targets.map (·.id) → c' = c) ∧
        (i ∈ targets.map (·.id) → Updated P c c' ∧
          ∀ vs, c'.sub[0]? = some vs → List.Forall₂ (VTag m.cells) vs c'.nodeTags) :=
  updateCells_ok hw hs hn hu hf

/-- C33.  The mesh stays well-formed, with node tags agreeing with vertices. -/
theorem C33_keeps_mesh (hw : WellFormed m.cells) (hs : SubNodup m.cells) (hn : NodesOK m.cells)
    (hu : UpdateOK m.cells targets pairs k P) (hk : 0 < k) {cells' : Cells}
    (h : updateCells m targets pairs = .ok cells') :
    WellFormed cells' ∧ SubNodup cells' ∧ NodesOK cells' := by
  have hf : Found m.cells targets k P := by
    by_contra hf
    rw [updateCells_absent hw hs hn hu hf] at h
    simp at h
  obtain ⟨c1, h1, h2, h3⟩ := updateCells_ok hw hs hn hu hf
  rw [h1] at h
  obtain rfl : c1 = cells' := by simpa using h
  obtain ⟨h4, h5, h6, -⟩ := updateCells_keeps hw hs hn hu hk h2 h3
  exact ⟨h4, h5, h6⟩

/-- C33, rejections: no cells, or cells of different dimensions, raise `ValueError`; an old cell
that is no sub-cell of the given cells raises `NetworkXError`. -/
theorem C33_rejects (m : Mesh) (targets : List Cell) (pairs : Pairs) :
    (targets = [] → updateCells m targets pairs = .error .valueError) ∧
    ((∃ c ∈ targets, ∃ d ∈ targets, c.dimension ≠ d.dimension) →
      updateCells m targets pairs = .error .valueError) ∧
    (∀ k P, WellFormed m.cells → SubNodup m.cells → NodesOK m.cells →
      UpdateOK m.cells targets pairs k P → ¬ Found m.cells targets k P →
      updateCells m targets pairs = .error .networkXError) := by
  refine ⟨?_, ?_, fun k P hw hs hn hu hf => updateCells_absent hw hs hn hu hf⟩
  · rintro rfl; rfl
  · rintro ⟨c, hc, d, hd, hcd⟩
    have hne : targets.map (·.dimension) ≠ [] := by
      intro h; rw [List.map_eq_nil_iff] at h; rw [h] at hc; simp at hc
    obtain ⟨a, ha⟩ := npMin_exists hne
    obtain ⟨b, hb⟩ : ∃ b, npMax (targets.map (·.dimension)) = .ok b := by
      cases ht : targets.map (·.dimension) with
      | nil => exact absurd ht hne
      | cons x t => exact ⟨_, rfl⟩
    have h1 := (npMin_ok ha).2
    have h2 : ∀ x ∈ targets.map (·.dimension), x ≤ b := by
      intro x hx
      have h3 := hb
      clear hb
      cases ht : targets.map (·.dimension) with
      | nil => exact absurd ht hne
      | cons y t =>
        rw [ht] at h3 hx
        simp only [npMax, Except.ok.injEq] at h3
        subst h3
        have : ∀ (l : List Nat) (z : Nat), z ≤ l.foldl max z ∧ ∀ w ∈ l, w ≤ l.foldl max z := by
          intro l
          induction l with
          | nil => simp
          | cons q l ih =>
            intro z
            rw [List.foldl_cons]
            obtain ⟨i1, i2⟩ := ih (max z q)
            refine ⟨le_trans (le_max_left _ _) i1, fun w hw => ?_⟩
            rcases List.mem_cons.1 hw with rfl | hw
            · exact le_trans (le_max_right _ _) i1
            · exact i2 w hw
        rcases List.mem_cons.1 hx with rfl | hx
        · exact (this t x).1
        · exact (this t y).2 x hx
    have hab : b ≠ a := by
      intro h
      have := h1 _ (List.mem_map_of_mem (f := (·.dimension)) hc)
      have := h1 _ (List.mem_map_of_mem (f := (·.dimension)) hd)
      have := h2 _ (List.mem_map_of_mem (f := (·.dimension)) hc)
      have := h2 _ (List.mem_map_of_mem (f := (·.dimension)) hd)
      omega
    unfold updateCells
    simp only [ha, hb, Res.bind_ok]
    rw [if_pos hab]

/-- Meshes built from a file have node tags that agree with their vertices. -/
theorem nodesOK_of_build {f : MeshFile} {cells : Cells} (h : buildConformalMesh f = .ok cells) :
    NodesOK cells := by
  constructor
  · intro i c hc vs hvs
    obtain ⟨-, -, h2⟩ := C02_sub_entities f cells h i c hc
    obtain ⟨ids, h3, h4⟩ := h2 0 (Nat.zero_le _)
    rw [hvs] at h3
    obtain rfl : vs = ids := by simpa using h3
    simp only [faces, if_true, List.forall₂_map_right_iff] at h4
    refine h4.imp ?_
    rintro v t ⟨s, h5, h6, h7⟩
    exact ⟨s, h5, h6, List.perm_singleton.1 h7⟩
  · rintro v w t ⟨c, h1, h2, h3⟩ ⟨d, h4, h5, h6⟩
    exact (C03_one_cell_per_node_set f cells h v w c d h1 h4 (by omega) (by rw [h3, h6])).1

/-- A mesh of one triangle, with copies of its edge 5 and of the vertices 0 and 1. -/
def exampleMesh : Mesh := ⟨2, exampleCells ++
  [some ⟨1, 7, some 20, [1, 0], [[1, 0], [7]]⟩, some ⟨0, 8, none, [3], [[8]]⟩,
   some ⟨0, 9, none, [4], [[9]]⟩]⟩

/-- Its triangle. -/
def exampleTarget : Cell := ⟨2, 6, some 1, [0, 1, 2], [[0, 1, 2], [3, 4, 5], [6]]⟩

/-- The pairs by dimension. -/
def examplePairs : Nat → List (Cell × Cell)
  | 0 => [(⟨0, 0, none, [0], [[0]]⟩, ⟨0, 8, none, [3], [[8]]⟩),
      (⟨0, 1, none, [1], [[1]]⟩, ⟨0, 9, none, [4], [[9]]⟩)]
  | _ => [(⟨1, 5, some 2, [1, 0], [[1, 0], [5]]⟩, ⟨1, 7, some 20, [1, 0], [[1, 0], [7]]⟩)]

example : WellFormed exampleMesh.cells ∧ SubNodup exampleMesh.cells ∧ NodesOK exampleMesh.cells :=
  CheckMesh.sound (cs := [⟨0, 0, none, [0], [[0]]⟩, ⟨0, 1, none, [1], [[1]]⟩,
    ⟨0, 2, none, [2], [[2]]⟩, ⟨1, 3, none, [1, 2], [[1, 2], [3]]⟩,
    ⟨1, 4, none, [0, 2], [[0, 2], [4]]⟩, ⟨1, 5, some 2, [1, 0], [[1, 0], [5]]⟩,
    ⟨2, 6, some 1, [0, 1, 2], [[0, 1, 2], [3, 4, 5], [6]]⟩,
    ⟨1, 7, some 20, [1, 0], [[1, 0], [7]]⟩, ⟨0, 8, none, [3], [[8]]⟩,
    ⟨0, 9, none, [4], [[9]]⟩]) (by decide)

theorem exampleTarget_sub {e x : Nat} :
    SubEntity exampleMesh.cells 6 e x ↔ x ∈ (exampleTarget.sub[e]?).getD [] := by
  constructor
  · rintro ⟨c, hc, ids, h1, h2⟩
    have : c = exampleTarget := by
      simp only [Stored, exampleMesh, exampleCells] at hc
      simpa [exampleTarget] using hc.symm
    subst this
    rw [h1]; exact h2
  · intro h
    cases hs : exampleTarget.sub[e]? with
    | none => rw [hs] at h; simp at h
    | some ids => rw [hs] at h; exact ⟨exampleTarget, rfl, ids, hs, h⟩

example : UpdateOK exampleMesh.cells [exampleTarget]
      [none, some (examplePairs 1), some (examplePairs 0)] 2 examplePairs ∧
    Found exampleMesh.cells [exampleTarget] 2 examplePairs := by
  refine ⟨⟨by simp, ?_, ?_, ?_, ?_, ?_, ?_, ?_, ?_⟩, ?_⟩
  · intro c hc
    rw [List.mem_singleton.1 hc]
    exact ⟨rfl, exampleTarget, rfl, rfl⟩
  · intro e he; interval_cases e <;> rfl
  · intro e he p hp
    interval_cases e <;> fin_cases hp <;> rfl
  · intro e he p hp
    interval_cases e <;> fin_cases hp <;> exact ⟨rfl, _, rfl, rfl⟩
  · intro e he; interval_cases e <;> decide
  · intro e he; interval_cases e <;> decide
  · intro e he; interval_cases e <;> decide
  · intro e he p hp c hc
    rw [List.mem_singleton.1 hc, show exampleTarget.id = 6 from rfl, exampleTarget_sub]
    interval_cases e <;> fin_cases hp <;> decide
  · intro e he p hp
    refine ⟨exampleTarget, by simp, ?_⟩
    rw [show exampleTarget.id = 6 from rfl, exampleTarget_sub]
    interval_cases e <;> fin_cases hp <;> decide

example : updateCells exampleMesh [exampleTarget]
      [none, some (examplePairs 1), some (examplePairs 0)] =
    .ok (exampleMesh.cells.set 6
      (some ⟨2, 6, some 1, [3, 4, 2], [[8, 9, 2], [3, 4, 7], [6]]⟩)) := rfl
example : updateCells exampleMesh [exampleTarget, ⟨0, 0, none, [0], [[0]]⟩]
    [none, some (examplePairs 1), some (examplePairs 0)] = .error .valueError := rfl
example : updateCells exampleMesh [exampleTarget]
    [none, some [(⟨1, 7, some 20, [1, 0], [[1, 0], [7]]⟩,
      ⟨1, 7, some 20, [1, 0], [[1, 0], [7]]⟩)], some (examplePairs 0)] =
    .error .networkXError := rfl

#print axioms C30_copies
#print axioms C30_fresh
#print axioms C30_rejects
#print axioms C31_points
#print axioms C31_coincide
#print axioms C31_rejects
#print axioms C32_edges_partial
#print axioms C32_nodes
#print axioms C32_absent
#print axioms C32_same_node_violated
#print axioms C32_list
#print axioms C33_replaces
#print axioms C33_keeps_mesh
#print axioms C33_rejects

end Verif.MeshOps
