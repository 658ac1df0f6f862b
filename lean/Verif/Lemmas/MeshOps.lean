/-
Lemmas for C30-C33.
-/
import Verif.Spec.MeshOps
import Verif.Lemmas.MeshStore
import Verif.Lemmas.MeshGraph
import Verif.Lemmas.Graph

namespace Verif.DiGraph
variable {N : Type} [DecidableEq N]

theorem addEdges_edges (g : DiGraph N) (l : List (N × N)) :
    (g.addEdges l).edges = l.foldl addNew g.edges := by
  unfold addEdges
  induction l generalizing g with
  | nil => rfl
  | cons e l ih => rw [List.foldl_cons, ih]; rfl

theorem addEdges_nodes (g : DiGraph N) (l : List (N × N)) :
    (g.addEdges l).nodes = (l.flatMap fun e => [e.1, e.2]).foldl addNew g.nodes := by
  unfold addEdges
  induction l generalizing g with
  | nil => rfl
  | cons e l ih => rw [List.foldl_cons, ih, List.flatMap_cons, List.foldl_append]; rfl

theorem mem_addEdges_edges {g : DiGraph N} {l : List (N × N)} {e : N × N} :
    e ∈ (g.addEdges l).edges ↔ e ∈ g.edges ∨ e ∈ l := by
  rw [addEdges_edges, mem_foldl_addNew]

theorem mem_addEdges_nodes {g : DiGraph N} {l : List (N × N)} {n : N} :
    n ∈ (g.addEdges l).nodes ↔ n ∈ g.nodes ∨ ∃ e ∈ l, n = e.1 ∨ n = e.2 := by
  rw [addEdges_nodes, mem_foldl_addNew, List.mem_flatMap]
  simp

theorem mem_edgesInOrder {g : DiGraph N} (hg : ∀ e ∈ g.edges, e.1 ∈ g.nodes) {e : N × N} :
    e ∈ g.edgesInOrder ↔ e ∈ g.edges := by
  unfold edgesInOrder
  simp only [List.mem_flatMap, List.mem_filter, decide_eq_true_eq]
  constructor
  · rintro ⟨_, _, h, _⟩; exact h
  · intro h; exact ⟨e.1, hg e h, h, rfl⟩

end Verif.DiGraph

namespace Verif.MeshOps
open MeshBuild MeshGraph MeshStore Trace MeshMetrics

/-! ### Duplication -/

theorem duplicateCells_ok {tagMap : Dict (Option Int) (Option Int)} : ∀ {cs : List Cell} {n : Nat},
    (∀ c ∈ cs, c.dimension < c.sub.length) →
    ∃ r, duplicateCells tagMap n cs = .ok (r, n + cs.length) ∧ r.length = cs.length ∧
      ∀ i c, cs[i]? = some c → ∃ c', r[i]? = some c' ∧ IsCopy tagMap (n + i) c c' ∧
        c'.sub.length = c.sub.length
  | [], n, _ => ⟨[], rfl, rfl, by simp⟩
  | c :: cs, n, h => by
    obtain ⟨r, h1, h2, h3⟩ := duplicateCells_ok (tagMap := tagMap) (cs := cs) (n := n + 1)
      fun c hc => h c (List.mem_cons_of_mem _ hc)
    have hc := h c (by simp)
    refine ⟨{ c with
        id := n, sub := c.sub.set c.dimension [n],
        material := (tagMap.get? c.material).getD c.material } :: r, ?_, by simp [h2], ?_⟩
    · simp only [duplicateCells, if_pos hc, h1]
      simp; omega
    · rintro (_ | i) d hd
      · simp only [List.getElem?_cons_zero, Option.some.injEq] at hd ⊢
        subst hd
        refine ⟨_, rfl, ⟨rfl, rfl, rfl, ?_, ?_, ?_, ?_⟩, by simp⟩
        · simp [hc]
        · intro e he; simp [List.getElem?_set, Ne.symm he]
        · intro t ht; simp [ht]
        · intro ht; simp [ht]
      · simp only [List.getElem?_cons_succ] at hd ⊢
        obtain ⟨c', h4, h5, h6⟩ := h3 i d hd
        exact ⟨c', h4, by rwa [show n + (i + 1) = n + 1 + i by omega], h6⟩

theorem duplicateCells_error {tagMap : Dict (Option Int) (Option Int)} :
    ∀ {cs : List Cell} {n : Nat}, (∃ c ∈ cs, c.sub.length ≤ c.dimension) →
    duplicateCells tagMap n cs = .error .indexError
  | [], n, h => by simp at h
  | c :: cs, n, h => by
    simp only [duplicateCells]
    by_cases hc : c.dimension < c.sub.length
    · rw [if_pos hc, duplicateCells_error]
      · rfl
      · obtain ⟨d, hd, h⟩ := h
        rcases List.mem_cons.1 hd with rfl | hd
        · omega
        · exact ⟨d, hd, h⟩
    · rw [if_neg hc]

theorem retagNodes_ok : ∀ (cs : List Cell) (n : Nat),
    retagNodes n cs =
      (cs.zipIdx.map fun p => { p.1 with nodeTags := [n + p.2] }, n + cs.length)
  | [], n => rfl
  | c :: cs, n => by
    rw [retagNodes, retagNodes_ok cs (n + 1)]
    simp only [List.zipIdx_cons, List.map_cons, List.length_cons, Nat.add_zero, Prod.mk.injEq,
      List.cons.injEq, true_and]
    refine ⟨?_, by omega⟩
    rw [List.zipIdx_succ, List.map_map]
    apply List.map_congr_left
    rintro ⟨d, i⟩ _
    simp; omega

theorem bumpPoints_get (argsort : List ℝ → List Nat) (b : Bump) (ps : List (Pt ℝ))
    (h : (argsort (ps.map fun p => norm3 (p - b.a))).Perm (List.range ps.length)) :
    bumpPoints argsort b ps = ps.map (bumped b) := by
  unfold bumpPoints
  generalize hidx : argsort _ = idx at *
  suffices key : ∀ (idx : List Nat) (qs : List (Pt ℝ)), qs.length = ps.length →
      ∀ i : Nat, (idx.foldl (fun ps' i =>
      match ps[i]? with
      | some p => ps'.set i (bumped b p)
      | none => ps') qs)[i]? = if i ∈ idx then (ps[i]?).map (bumped b) else qs[i]? by
    apply List.ext_getElem?
    intro i
    refine (key idx ps rfl i).trans ?_
    rw [List.getElem?_map]
    split
    · rfl
    · rename_i hi
      have : ps.length ≤ i := by
        by_contra hlt
        exact hi (h.mem_iff.2 (List.mem_range.2 (by omega)))
      simp [List.getElem?_eq_none this]
  intro idx
  induction idx with
  | nil => intro qs h i; simp
  | cons j idx ih =>
    intro qs hq i
    rw [List.foldl_cons, ih _ (by cases ps[j]? <;> simp [hq])]
    by_cases hi : i ∈ idx
    · simp [hi]
    · rw [if_neg hi]
      by_cases hij : i = j
      · subst hij
        simp only [List.mem_cons, true_or, if_true]
        cases hp : ps[i]? with
        | none =>
          have := List.getElem?_eq_none_iff.1 hp
          simpa using (by omega : qs.length ≤ i)
        | some p =>
          have hlt : i < qs.length := by rw [hq]; exact (List.getElem?_eq_some_iff.1 hp).1
          simp [hlt]
      · have : i ∉ j :: idx := by simp [hij, hi]
        rw [if_neg this]
        cases ps[j]? with
        | none => rfl
        | some p => simp [List.getElem?_set, Ne.symm hij]

theorem bumped_zero {b : Bump} (h : b.scale = 0) (p : Pt ℝ) : bumped b p = p := by
  funext k; simp [bumped, h]

/-! ### Graph nodes -/

section
variable {N : Type} [DecidableEq N]

theorem replaceNode_edges {g : DiGraph N} {old new : N} (h : old ∈ g.nodes) (u v : N) :
    (u, v) ∈ (replaceNode g (old, new)).edges ↔
      u ≠ old ∧ v ≠ old ∧ ((u, v) ∈ g.edges ∨ (v = new ∧ (u, old) ∈ g.edges)) := by
  unfold replaceNode
  simp only [if_pos h, DiGraph.removeNode, List.mem_filter, DiGraph.mem_addEdges_edges,
    DiGraph.removeEdges, List.mem_map, decide_eq_true_eq, Prod.mk.injEq]
  constructor
  · rintro ⟨h1 | ⟨p, ⟨⟨a, b⟩, ⟨h1, h2⟩, rfl⟩, rfl, rfl⟩, h3, h4⟩
    · exact ⟨h3, h4, Or.inl h1.1⟩
    · simp only at h2; subst h2
      exact ⟨h3, h4, Or.inr ⟨rfl, h1⟩⟩
  · rintro ⟨h3, h4, h1 | ⟨rfl, h1⟩⟩
    · refine ⟨Or.inl ⟨h1, ?_⟩, h3, h4⟩
      rintro ⟨p, _, _, h6⟩
      exact h4 h6.symm
    · exact ⟨Or.inr ⟨u, ⟨(u, old), ⟨h1, rfl⟩, rfl⟩, rfl, rfl⟩, h3, h4⟩

theorem replaceNode_nodes {g : DiGraph N} {old new : N} (h : old ∈ g.nodes)
    (hg : ∀ e ∈ g.edges, e.1 ∈ g.nodes ∧ e.2 ∈ g.nodes) (n : N) :
    n ∈ (replaceNode g (old, new)).nodes ↔
      n ≠ old ∧ (n ∈ g.nodes ∨ (n = new ∧ ∃ u, (u, old) ∈ g.edges)) := by
  unfold replaceNode
  simp only [if_pos h, DiGraph.removeNode, List.mem_filter, DiGraph.mem_addEdges_nodes,
    DiGraph.removeEdges, List.mem_map, decide_eq_true_eq, ne_eq]
  constructor
  · rintro ⟨h1 | ⟨e, ⟨p, ⟨⟨a, b⟩, ⟨h1, h2⟩, rfl⟩, rfl⟩, rfl | rfl⟩, h3⟩
    · exact ⟨h3, Or.inl h1⟩
    · exact ⟨h3, Or.inl (hg _ h1).1⟩
    · simp only at h2; subst h2
      exact ⟨h3, Or.inr ⟨rfl, a, h1⟩⟩
  · rintro ⟨h3, h1 | ⟨rfl, u, h1⟩⟩
    · exact ⟨Or.inl h1, h3⟩
    · exact ⟨Or.inr ⟨(u, n), ⟨u, ⟨(u, old), ⟨h1, rfl⟩, rfl⟩, rfl⟩, Or.inr rfl⟩, h3⟩

end

end Verif.MeshOps
