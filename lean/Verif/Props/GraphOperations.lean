/-
C152: cutting a graph of subdomains at a fracture and coupling it anew.
-/
import Verif.Spec.GraphOperations
import Verif.Lemmas.Prelude

namespace Verif.GraphOperations

variable {N : Type} [DecidableEq N]

theorem mem_addNew' {l : List N} {x y : N} : y ∈ addNew l x ↔ y ∈ l ∨ y = x := by
  rw [addNew]
  split
  · rename_i h
    exact ⟨Or.inl, fun h' => h'.elim id fun e => e ▸ h⟩
  · simp

theorem adj_iff {g : Graph N} {u v : N} :
    g.adj u v = true ↔ (u, v) ∈ g.edges ∨ (g.directed = false ∧ (v, u) ∈ g.edges) := by
  simp [Graph.adj]

theorem addEdges_directed (g : Graph N) (l : List (N × N)) : (g.addEdges l).directed = g.directed := by
  induction l generalizing g with
  | nil => rfl
  | cons e l ih => exact ih (g.addEdge e)

theorem addEdges_nodes (g : Graph N) (l : List (N × N)) (n : N) :
    n ∈ (g.addEdges l).nodes ↔ n ∈ g.nodes ∨ ∃ e ∈ l, n = e.1 ∨ n = e.2 := by
  induction l generalizing g with
  | nil => simp [Graph.addEdges]
  | cons e l ih =>
    show n ∈ ((g.addEdge e).addEdges l).nodes ↔ _
    rw [ih]
    have : n ∈ (g.addEdge e).nodes ↔ (n ∈ g.nodes ∨ n = e.1) ∨ n = e.2 := by
      show n ∈ addNew (addNew g.nodes e.1) e.2 ↔ _
      rw [mem_addNew', mem_addNew']
    rw [this]
    simp only [List.mem_cons, exists_eq_or_imp]
    generalize (∃ e, e ∈ l ∧ (n = e.1 ∨ n = e.2)) = P
    tauto

theorem addEdge_adj (g : Graph N) (e : N × N) (u v : N) : (g.addEdge e).adj u v = true ↔
    g.adj u v = true ∨ e = (u, v) ∨ (g.directed = false ∧ e = (v, u)) := by
  have hd : (g.addEdge e).directed = g.directed := rfl
  have he : (g.addEdge e).edges = if g.adj e.1 e.2 then g.edges else g.edges ++ [e] := rfl
  rw [adj_iff, hd, he]
  by_cases h : g.adj e.1 e.2 = true
  · rw [if_pos h, ← adj_iff]
    constructor
    · exact Or.inl
    · rintro (h' | rfl | ⟨hf, rfl⟩)
      · exact h'
      · exact h
      · rw [adj_iff] at h ⊢
        exact h.elim (fun h => Or.inr ⟨hf, h⟩) fun h => Or.inl h.2
  · rw [if_neg h, adj_iff]
    simp only [List.mem_append, List.mem_singleton]
    constructor
    · rintro ((h | h) | ⟨hd, h | h⟩)
      · exact Or.inl (Or.inl h)
      · exact Or.inr (Or.inl h.symm)
      · exact Or.inl (Or.inr ⟨hd, h⟩)
      · exact Or.inr (Or.inr ⟨hd, h.symm⟩)
    · rintro ((h | ⟨hd, h⟩) | h | ⟨hd, h⟩)
      · exact Or.inl (Or.inl h)
      · exact Or.inr ⟨hd, Or.inl h⟩
      · exact Or.inl (Or.inr h.symm)
      · exact Or.inr ⟨hd, Or.inr h.symm⟩

theorem addEdges_adj (g : Graph N) (l : List (N × N)) (u v : N) : (g.addEdges l).adj u v = true ↔
    g.adj u v = true ∨ (u, v) ∈ l ∨ (g.directed = false ∧ (v, u) ∈ l) := by
  induction l generalizing g with
  | nil => simp [Graph.addEdges]
  | cons e l ih =>
    show ((g.addEdge e).addEdges l).adj u v = true ↔ _
    rw [ih, addEdge_adj, show (g.addEdge e).directed = g.directed from rfl]
    simp only [List.mem_cons, eq_comm (a := e)]
    tauto

theorem removeNodes_adj (g : Graph N) (l : List N) (u v : N) :
    (g.removeNodes l).adj u v = true ↔ g.adj u v = true ∧ u ∉ l ∧ v ∉ l := by
  rw [adj_iff, adj_iff]
  simp only [Graph.removeNodes, List.mem_filter, decide_eq_true_eq]
  tauto

/-- what the cut gives -/
theorem cut_ok {g g' h c u : Graph N} (e : cut g g' h c = .ok u) : g.directed = h.directed ∧ u.directed = g'.directed ∧
    (∀ n, n ∈ u.nodes ↔ (n ∈ g'.nodes ∧ ¬ (n ∈ g.nodes ∧ n ∈ h.nodes)) ∨ ∃ e ∈ c.edges, n = e.1 ∨ n = e.2) ∧
    ∀ a b, u.adj a b = true ↔
      (g'.adj a b = true ∧ ¬ (a ∈ g'.nodes ∧ a ∈ g.nodes ∧ a ∈ h.nodes) ∧ ¬ (b ∈ g'.nodes ∧ b ∈ g.nodes ∧ b ∈ h.nodes)) ∨
        (a, b) ∈ c.edges ∨ (g'.directed = false ∧ (b, a) ∈ c.edges) := by
  rw [cut, intersection] at e
  by_cases hd : g.directed = h.directed
  · rw [if_neg (fun h => h hd)] at e
    injection e with e
    subst e
    refine ⟨hd, addEdges_directed _ _, fun n => ?_, fun a b => ?_⟩
    · rw [addEdges_nodes]
      simp only [Graph.removeNodes, List.mem_filter, decide_eq_true_eq]
      generalize (∃ e, e ∈ c.edges ∧ (n = e.1 ∨ n = e.2)) = P
      tauto
    · rw [addEdges_adj, removeNodes_adj]
      simp only [List.mem_filter, decide_eq_true_eq]
      rfl
  · rw [if_pos hd] at e
    cases e

/-- Graphs of two kinds are refused. -/
theorem C152_refused (g g' h c : Graph N) (hd : g.directed ≠ h.directed) : cut g g' h c = .error .networkXError := by
  rw [cut, intersection, if_pos hd]
  rfl

/-- Graphs of one kind are not. -/
theorem C152_total (g g' h c : Graph N) (hd : g.directed = h.directed) : ∃ u, cut g g' h c = .ok u := by
  rw [cut, intersection, if_neg (fun h => h hd)]
  exact ⟨_, rfl⟩

/-- After the cut the edges at the common nodes are those of the coupling, and all other edges are as before. -/
theorem C152_cut {g h c u : Graph N} (hg : Proper g) (e : cut g g h c = .ok u) (hc : c.directed = g.directed) (a b : N) :
    u.adj a b = true ↔ c.adj a b = true ∨
      (g.adj a b = true ∧ a ∉ h.nodes ∧ b ∉ h.nodes) := by
  obtain ⟨-, -, -, ha⟩ := cut_ok e
  rw [ha, adj_iff (g := c), hc]
  have hn : g.adj a b = true → a ∈ g.nodes ∧ b ∈ g.nodes := by
    intro h
    rcases adj_iff.1 h with h | ⟨-, h⟩
    · exact hg _ h
    · exact (hg _ h).symm
  tauto

/-- Cutting and coupling with the same edges gives the graph back, if each common node has an edge. -/
theorem C152_restored {g h c u : Graph N} (hg : Proper g) (hc : c.directed = g.directed)
    (hsame : ∀ a b, c.adj a b = true ↔ g.adj a b = true ∧ (a ∈ h.nodes ∨ b ∈ h.nodes))
    (hlone : ∀ n ∈ g.nodes, n ∈ h.nodes → ∃ m, g.adj n m = true ∨ g.adj m n = true)
    (e : cut g g h c = .ok u) : graphsEqual u g := by
  obtain ⟨-, hd, hn, -⟩ := cut_ok e
  have hin : ∀ a b, g.adj a b = true → a ∈ g.nodes ∧ b ∈ g.nodes := by
    intro a b h
    rcases adj_iff.1 h with h | ⟨-, h⟩
    · exact hg _ h
    · exact (hg _ h).symm
  refine ⟨hd, fun n => ?_, fun a b => ?_⟩
  · rw [hn]
    constructor
    · rintro (⟨h, -⟩ | ⟨e, he, h⟩)
      · exact h
      · have := (hsame e.1 e.2).1 (adj_iff.2 (Or.inl he))
        rcases h with rfl | rfl
        · exact (hin _ _ this.1).1
        · exact (hin _ _ this.1).2
    · intro h'
      by_cases hh : n ∈ h.nodes
      · right
        obtain ⟨m, hm⟩ := hlone n h' hh
        rcases hm with hm | hm
        · rcases adj_iff.1 ((hsame n m).2 ⟨hm, Or.inl hh⟩) with hm | ⟨-, hm⟩
          · exact ⟨_, hm, Or.inl rfl⟩
          · exact ⟨_, hm, Or.inr rfl⟩
        · rcases adj_iff.1 ((hsame m n).2 ⟨hm, Or.inr hh⟩) with hm | ⟨-, hm⟩
          · exact ⟨_, hm, Or.inr rfl⟩
          · exact ⟨_, hm, Or.inl rfl⟩
      · exact Or.inl ⟨h', fun h => hh h.2⟩
  · rw [Bool.eq_iff_iff, C152_cut hg e hc, hsame]
    tauto

/-- Edges that go up in an order before and in the coupling leave no closed walk behind. -/
theorem C152_acyclic {g g' h c u : Graph N} (hd : g'.directed = true) (rank : N → Nat)
    (hg : ∀ e ∈ g'.edges, rank e.1 < rank e.2) (hc : ∀ e ∈ c.edges, rank e.1 < rank e.2)
    (e : cut g g' h c = .ok u) : Acyclic u := by
  obtain ⟨-, -, -, ha⟩ := cut_ok e
  have step : ∀ a b, u.adj a b = true → rank a < rank b := by
    intro a b h
    rcases (ha a b).1 h with ⟨h, -⟩ | h | ⟨h, -⟩
    · rcases adj_iff.1 h with h | ⟨h, -⟩
      · exact hg _ h
      · rw [hd] at h; cases h
    · exact hc _ h
    · rw [hd] at h; cases h
  intro a hr
  have : ∀ b, Reaches u a b → rank a < rank b := by
    intro b hb
    induction hb with
    | single h => exact step _ _ h
    | tail _ h ih => exact ih.trans (step _ _ h)
  exact absurd (this a hr) (lt_irrefl _)

/-- `md_sequence`: the union is the graph (`equal` of line 49 is `True`). -/
theorem C152_sequence : ∃ u, sequenceUnion = .ok u ∧ graphsEqual u sequenceGraph := by
  obtain ⟨u, hu⟩ := C152_total sequenceGraph sequenceGraph (fracture false) (coupling false) rfl
  have hc : ∀ a b, (coupling false).adj a b = true ↔
      sequenceGraph.adj a b = true ∧ (a ∈ (fracture false).nodes ∨ b ∈ (fracture false).nodes) := by
    intro a b
    rw [adj_iff, adj_iff]
    have h1 : (coupling false).edges = [((1, 3), (1, 4)), ((1, 3), (1, 5))] := by decide
    have h2 : sequenceGraph.edges = [((0, 1), (0, 2)), ((0, 1), (0, 3)), ((0, 2), (1, 1)), ((0, 2), (1, 4)),
      ((0, 3), (1, 5)), ((0, 3), (1, 2)), ((1, 4), (1, 3)), ((1, 5), (1, 3))] := by decide
    have h3 : (fracture false).nodes = [(1, 3)] := by decide
    rw [h1, h2, h3, show (coupling false).directed = false from rfl, show sequenceGraph.directed = false from rfl]
    simp only [List.mem_cons, List.not_mem_nil, or_false, Prod.mk.injEq]
    constructor
    · rintro ((⟨rfl, rfl⟩ | ⟨rfl, rfl⟩) | ⟨-, ⟨rfl, rfl⟩ | ⟨rfl, rfl⟩⟩) <;> simp
    · rintro ⟨(h | ⟨-, h⟩), rfl | rfl⟩ <;> simp at h ⊢ <;> tauto
  exact ⟨u, hu, C152_restored (g := sequenceGraph) (h := fracture false) (c := coupling false) (by unfold Proper; decide) rfl hc
    (fun n hn hh => ⟨(1, 4), Or.inl (by
      rw [show (fracture false).nodes = [(1, 3)] by decide, List.mem_singleton] at hh
      subst hh
      decide)⟩) hu⟩

/-- `md_conformal_to_no_conformal`: its nodes and edges. -/
theorem C152_nonconformal : nonConformal.toOption.map (fun u => (u.nodes, u.edges))
    = some ([(0, 1), (0, 2), (0, 3), (1, 1), (1, 2), (1, 4), (1, 5), (1, 3)],
        [((0, 1), (0, 2)), ((0, 1), (0, 3)), ((0, 2), (1, 1)), ((0, 3), (1, 2)), ((0, 2), (1, 4)), ((0, 3), (1, 5)),
          ((1, 3), (1, 4)), ((1, 3), (1, 5))]) := by decide +kernel

/-- It has no closed walk: `cycles` of line 85 is empty. -/
theorem C152_no_cycles : ∃ u, nonConformal = .ok u ∧ Acyclic u := by
  obtain ⟨u, hu⟩ := C152_total conformal withDuplicates (fracture true) (coupling true) rfl
  exact ⟨u, hu, C152_acyclic (by decide) (fun n => 10 * n.1 + n.2) (by decide) (by decide) hu⟩

/-- The fracture is no longer reached from the whole domain: its only edges go out of it. -/
theorem C152_reached_violated :
    Reaches conformal (0, 1) (1, 3) ∧ ∃ u, nonConformal = .ok u ∧ (1, 3) ∈ u.nodes ∧ ∀ a, ¬ Reaches u a (1, 3) := by
  refine ⟨Relation.TransGen.tail (Relation.TransGen.single (b := (0, 2)) (by decide)) (by decide), ?_⟩
  obtain ⟨u, hu⟩ := C152_total conformal withDuplicates (fracture true) (coupling true) rfl
  have h := C152_nonconformal
  rw [show nonConformal = .ok u from hu] at h
  simp only [Except.toOption, Option.map_some, Option.some.injEq, Prod.mk.injEq] at h
  refine ⟨u, hu, by rw [h.1]; decide, fun a hr => ?_⟩
  have hdir : u.directed = true := (cut_ok hu).2.1
  have last : ∃ b, u.adj b (1, 3) = true := by
    cases hr with
    | single h => exact ⟨_, h⟩
    | tail _ h => exact ⟨_, h⟩
  obtain ⟨b, hb⟩ := last
  rcases adj_iff.1 hb with hb | ⟨hb, -⟩
  · rw [h.2] at hb
    simp at hb
  · rw [hdir] at hb; cases hb

/-- A common node without an edge is lost. -/
theorem C152_lone_violated :
    let g : Graph Sub := fracture false
    ∃ u, cut g g g (Graph.new false) = .ok u ∧ ¬ graphsEqual u g :=
  ⟨_, rfl, fun h => absurd ((h.2.1 (1, 3)).2 (by decide)) (by decide)⟩

/-- The common graph: the nodes and the edges that are in both; graphs of two kinds have none. -/
theorem C152_common (g h : Graph N) :
    (g.directed ≠ h.directed → intersection g h = .error .networkXError) ∧
    (g.directed = h.directed → ∃ i, intersection g h = .ok i ∧ (∀ n, n ∈ i.nodes ↔ n ∈ g.nodes ∧ n ∈ h.nodes) ∧
      ∀ u v, (u, v) ∈ i.edges ↔ (u, v) ∈ g.edges ∧ h.adj u v = true) := by
  refine ⟨fun e => by rw [intersection, if_pos e], fun e => ⟨_, by rw [intersection, if_neg (not_not.2 e)], ?_, ?_⟩⟩
  · intro n; simp
  · intro u v; simp

#print axioms C152_refused
#print axioms C152_total
#print axioms C152_cut
#print axioms C152_restored
#print axioms C152_acyclic
#print axioms C152_sequence
#print axioms C152_nonconformal
#print axioms C152_no_cycles
#print axioms C152_reached_violated
#print axioms C152_lone_violated

#print axioms C152_common

end Verif.GraphOperations
