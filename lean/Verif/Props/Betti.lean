/-
C157: the Betti numbers of the tests of domain operations, and the graph that they rebuild.
-/
import Mathlib.Data.Fintype.EquivFin
import Mathlib.Data.Fintype.Sets
import Verif.Spec.Betti
import Verif.Props.Domain

namespace Verif.Betti
variable {N : Type} [DecidableEq N]

instance (g : DiGraph N) : Fintype (Node g) := inferInstanceAs (Fintype {n // n ∈ g.nodes})

theorem card_node {g : DiGraph N} (h : g.nodes.Nodup) : Nat.card (Node g) = g.nodes.length := by
  rw [Nat.card_eq_fintype_card, Fintype.card_of_subtype g.nodes.toFinset (fun x => List.mem_toFinset),
    List.toFinset_card_of_nodup h]

theorem reach_le {g : DiGraph N} {r : N → Int} (hr : ∀ u v, (u, v) ∈ g.edges → r u < r v) {u v : N}
    (h : Reach g u v) : u = v ∨ r u < r v := by
  induction h with
  | refl => exact Or.inl rfl
  | tail _ hb ih =>
    have := hr _ _ hb
    rcases ih with rfl | ih
    · exact Or.inr this
    · exact Or.inr (by omega)

theorem strong_card {g : DiGraph N} (hp : Proper g) (hg : Graded g) : strongComponents g = g.nodes.length := by
  obtain ⟨r, hr⟩ := hg
  have key : ∀ u v : Node g, Reach g u v ∧ Reach g v u → u = v := by
    rintro u v ⟨h1, h2⟩
    rcases reach_le hr h1 with h1 | h1
    · exact Subtype.ext h1
    · rcases reach_le hr h2 with h2 | h2
      · exact Subtype.ext h2.symm
      · omega
  rw [← card_node hp.nodes]
  refine Nat.card_congr ⟨Quot.lift id key, Quot.mk _, ?_, fun _ => rfl⟩
  rintro ⟨u⟩
  rfl

/-- C157.  In a graph whose edges lower the dimension the computed numbers count nodes and edges. -/
theorem C157_counts {g : DiGraph N} (hp : Proper g) (hg : Graded g) :
    bettiNumbers g = ((g.nodes.length : Int), (g.edges.length : Int)) := by
  unfold bettiNumbers
  rw [strong_card hp hg]
  simp

/-- C157.  The alternating sum is that of the Betti numbers, for all graphs. -/
theorem C157_euler (g : DiGraph N) : (bettiNumbers g).1 - (bettiNumbers g).2 = (betti g).1 - (betti g).2 := by
  simp only [bettiNumbers, betti]
  omega

theorem components_lt {g : DiGraph N} (hp : Proper g) (hg : Graded g) (he : g.edges ≠ []) :
    components g < g.nodes.length := by
  classical
  obtain ⟨r, hr⟩ := hg
  obtain ⟨⟨u, v⟩, huv⟩ := List.exists_mem_of_ne_nil _ he
  obtain ⟨hu, hv⟩ := hp.ends u v huv
  rw [← card_node hp.nodes]
  unfold components
  have : Fintype (Quot fun u v : Node g => (u.1, v.1) ∈ g.edges) := Fintype.ofFinite _
  rw [Nat.card_eq_fintype_card, Nat.card_eq_fintype_card]
  refine Fintype.card_lt_of_surjective_not_injective (Quot.mk _) Quot.mk_surjective ?_
  intro hi
  have := hi (Quot.sound (r := fun u v : Node g => (u.1, v.1) ∈ g.edges) (a := ⟨u, hu⟩) (b := ⟨v, hv⟩) huv)
  have h := congrArg Subtype.val this
  simp only at h
  have := hr u v huv
  rw [h] at this
  omega

theorem components_nil {g : DiGraph N} (hp : Proper g) (he : g.edges = []) : components g = g.nodes.length := by
  rw [← card_node hp.nodes]
  unfold components
  refine Nat.card_congr ⟨Quot.lift id ?_, Quot.mk _, ?_, fun _ => rfl⟩
  · intro a b h
    rw [he] at h
    exact absurd h List.not_mem_nil
  · rintro ⟨u⟩
    rfl

/-- C157.  They are the Betti numbers exactly for the graphs without edges. -/
theorem C157_right_iff_partial {g : DiGraph N} (hp : Proper g) (hg : Graded g) :
    bettiNumbers g = betti g ↔ g.edges = [] := by
  rw [C157_counts hp hg]
  constructor
  · intro h
    by_contra he
    have := components_lt hp hg he
    have h1 := congrArg Prod.fst h
    simp only [betti] at h1
    omega
  · intro he
    simp [betti, components_nil hp he]

/-- C157 does not hold as soon as there is an edge: there are more strongly connected components than components, and
the second number is too large by the same amount. -/
theorem C157_betti_violated {g : DiGraph N} (hp : Proper g) (hg : Graded g) (he : g.edges ≠ []) :
    (betti g).1 < (bettiNumbers g).1 ∧ (betti g).2 < (bettiNumbers g).2 := by
  rw [C157_counts hp hg]
  have := components_lt hp hg he
  simp only [betti]
  constructor <;> omega

section domain
open Topology Shape

variable {P : Type}

/-- The shapes below a shape of dimension `k` have children of lower dimension only. -/
def Lowers (l : List (Shape P)) : Prop :=
  ∀ s ∈ l, ∀ a c, Below s.view a → Child a c → c.dimension < a.dimension

theorem domain_graph {d : Domain P} (hd : Grouped d) {k : Nat} (hk : k ≤ d.dimension) {l : List (Shape P)}
    (hl : d.shapes[k]? = some l) (hlow : Lowers l) {g : DiGraph (Int × Int)} (hg : d.buildGraph k = .ok g) :
    Proper g ∧ Graded g := by
  obtain ⟨g', l', hl', hg', h1, h2, h3, h4, h5⟩ := C43_graph hd hk
  rw [hl] at hl'
  cases hl'
  rw [hg] at hg'
  cases hg'
  refine ⟨⟨h4, h5, fun u v huv => ?_⟩, fun x => x.1, fun u v huv => ?_⟩
  · by_cases hk0 : k = 0
    · rw [(h3 hk0).1] at huv
      exact absurd huv List.not_mem_nil
    · exact ⟨(h2 hk0 u).2 ⟨v, Or.inl huv⟩, (h2 hk0 v).2 ⟨u, Or.inr huv⟩⟩
  · obtain ⟨s, hs, a, c, hb, hc, rfl, rfl⟩ := (h1 u v).1 huv
    have := hlow s hs a c hb hc
    simp only [index]
    omega

/-- C157.  So the numbers of the graph of a domain are those of its nodes and edges. -/
theorem C157_domain {d : Domain P} (hd : Grouped d) {k : Nat} (hk : k ≤ d.dimension) {l : List (Shape P)}
    (hl : d.shapes[k]? = some l) (hlow : Lowers l) {g : DiGraph (Int × Int)} (hg : d.buildGraph k = .ok g) :
    bettiNumbers g = ((g.nodes.length : Int), (g.edges.length : Int)) := by
  obtain ⟨h1, h2⟩ := domain_graph hd hk hl hlow hg
  exact C157_counts h1 h2

/-- C157.  The assertion of the test on the graph of vertices holds, if their tags are distinct. -/
theorem C157_vertices {d : Domain P} (hd : Grouped d) {l : List (Shape P)} (hl : d.shapes[0]? = some l)
    (ht : (l.map tag).Nodup) : ∃ g, d.buildGraph 0 = .ok g ∧ 
    bettiNumbers g = ((l.length : Int), 0) ∧ bettiNumbers g = betti g := by
  obtain ⟨g, l', hl', hg, h1, h2, h3, h4, h5⟩ := C43_graph hd (Nat.zero_le _)
  rw [hl] at hl'
  cases hl'
  obtain ⟨he, hn⟩ := h3 rfl
  have hp : Proper g := ⟨h4, h5, fun u v h => by rw [he] at h; exact absurd h List.not_mem_nil⟩
  have hgr : Graded g := ⟨fun _ => 0, fun u v h => by rw [he] at h; exact absurd h List.not_mem_nil⟩
  refine ⟨g, hg, ?_, (C157_right_iff_partial hp hgr).2 he⟩
  rw [C157_counts hp hgr, he]
  have : (l.map (index d.dimension)).Perm g.nodes := by
    refine (List.perm_ext_iff_of_nodup ?_ h4).2 fun x => ?_
    · refine List.Nodup.of_map Prod.snd ?_
      rw [List.map_map]
      exact ht
    · rw [hn, List.mem_map]
      simp only [eq_comm]
  rw [← this.length_eq, List.length_map]
  rfl

/-- C157 does not hold for a single edge: it is connected and has no cycle, the numbers are 3 and 2. -/
theorem C157_edge_violated : ∃ g : DiGraph (Int × Int),
    Domain.buildGraph ⟨1, [[plainVertex 0, plainVertex 1], [plainEdge 2 0 1]]⟩ 1 = .ok g ∧
    bettiNumbers g = (3, 2) ∧ betti g = (1, 0) := by
  refine ⟨⟨[(0, 2), (1, 0), (1, 1)], [((0, 2), (1, 0)), ((0, 2), (1, 1))]⟩, rfl, ?_, ?_⟩
  · rw [C157_counts]
    · rfl
    · exact ⟨by decide, by decide, by simp; omega⟩
    · refine ⟨fun x => x.1, ?_⟩
      intro u v h
      simp only [List.mem_cons, Prod.mk.injEq, List.not_mem_nil, or_false] at h
      rcases h with ⟨rfl, rfl⟩ | ⟨rfl, rfl⟩ <;> decide
  · have : components (⟨[(0, 2), (1, 0), (1, 1)], [((0, 2), (1, 0)), ((0, 2), (1, 1))]⟩ : DiGraph (Int × Int)) = 1 := by
      unfold components
      rw [Nat.card_eq_one_iff_unique]
      refine ⟨⟨?_⟩, ⟨Quot.mk _ ⟨(0, 2), by simp⟩⟩⟩
      have key : ∀ x : Quot fun u v : Node (⟨[(0, 2), (1, 0), (1, 1)], [((0, 2), (1, 0)), ((0, 2), (1, 1))]⟩ :
          DiGraph (Int × Int)) => (u.1, v.1) ∈ [(((0 : Int), (2 : Int)), ((1 : Int), (0 : Int))), ((0, 2), (1, 1))],
          Quot.mk _ ⟨(0, 2), by simp⟩ = x := by
        rintro ⟨⟨x, hx⟩⟩
        simp only [List.mem_cons, List.not_mem_nil, or_false] at hx
        rcases hx with rfl | rfl | rfl
        · rfl
        · exact Quot.sound (by simp)
        · exact Quot.sound (by simp)
      exact fun x y => (key x).symm.trans (key y)
    unfold betti
    rw [this]
    rfl

end domain

theorem mem_addEdge {g : DiGraph N} {e x : N × N} : x ∈ (g.addEdge e).edges ↔ x ∈ g.edges ∨ x = e := by
  simp only [DiGraph.addEdge, addNew]
  split
  · constructor
    · exact Or.inl
    · rintro (h | rfl) <;> assumption
  · simp

theorem mem_addEdge_nodes {g : DiGraph N} {e : N × N} {x : N} :
    x ∈ (g.addEdge e).nodes ↔ x ∈ g.nodes ∨ x = e.1 ∨ x = e.2 := by
  have key : ∀ (l : List N) (a : N), x ∈ addNew l a ↔ x ∈ l ∨ x = a := by
    intro l a
    unfold addNew
    split
    · constructor
      · exact Or.inl
      · rintro (h | rfl) <;> assumption
    · simp
  simp only [DiGraph.addEdge, key, or_assoc]

theorem mem_addEdges {l : List (N × N)} : ∀ {g : DiGraph N} {x : N × N},
    x ∈ (l.foldl DiGraph.addEdge g).edges ↔ x ∈ g.edges ∨ x ∈ l := by
  induction l with
  | nil => simp
  | cons e l ih =>
    intro g x
    rw [List.foldl_cons, ih, mem_addEdge, List.mem_cons, or_assoc]

theorem mem_addEdges_nodes {l : List (N × N)} : ∀ {g : DiGraph N} {x : N},
    x ∈ (l.foldl DiGraph.addEdge g).nodes ↔ x ∈ g.nodes ∨ ∃ e ∈ l, x = e.1 ∨ x = e.2 := by
  induction l with
  | nil => simp
  | cons e l ih =>
    intro g x
    rw [List.foldl_cons, ih, mem_addEdge_nodes, or_assoc]
    simp only [List.mem_cons, exists_eq_or_imp]

/-- C157.  The rebuilt graph has the edges of the union off the tool, and those that only the difference has. -/
theorem C157_rebuilt_edges (md c0 c1 : DiGraph N) (e : N × N) : e ∈ (reconstruct md c0 c1).edges ↔
    (e ∈ md.edges ∧ e.1 ∉ c1.nodes ∧ e.2 ∉ c1.nodes) ∨ (e ∈ c0.edges ∧ e ∉ md.edges) := by
  unfold reconstruct
  simp only [mem_addEdges]
  simp only [removeIsolates, removeEdges, intersection, List.mem_filter, decide_eq_true_eq]
  tauto

/-- C157.  Its nodes are the ends of its edges. -/
theorem C157_rebuilt_nodes {md c0 c1 : DiGraph N} (hp : Proper md) (n : N) : n ∈ (reconstruct md c0 c1).nodes ↔
    ∃ e ∈ (reconstruct md c0 c1).edges, n = e.1 ∨ n = e.2 := by
  simp only [C157_rebuilt_edges]
  unfold reconstruct
  simp only [mem_addEdges_nodes]
  simp only [removeIsolates, removeEdges, intersection, List.mem_filter, decide_eq_true_eq, List.any_eq_true,
    not_and, not_or]
  constructor
  · rintro (⟨-, ⟨e, ⟨h1, h2⟩, h3⟩⟩ | ⟨e, ⟨h1, h2⟩, h3⟩)
    · exact ⟨e, Or.inl ⟨h1, h2 h1⟩, h3.imp Eq.symm Eq.symm⟩
    · exact ⟨e, Or.inr ⟨h1, fun h => h2 h h1⟩, h3⟩
  · rintro ⟨e, (⟨h1, h2⟩ | ⟨h1, h2⟩), h3⟩
    · refine Or.inl ⟨?_, e, ⟨h1, fun _ => h2⟩, h3.imp Eq.symm Eq.symm⟩
      rcases h3 with rfl | rfl
      · exact (hp.ends _ _ h1).1
      · exact (hp.ends _ _ h1).2
    · exact Or.inr ⟨e, ⟨h1, fun h => absurd h h2⟩, h3⟩

/-- C157.  What the test asserts: the union and the tool have a common node, the edges of the union off the tool are
those of the difference, and no edge at the tool is kept. -/
theorem C157_asserted {md c0 c1 : DiGraph N} (hp : Proper md)
    (hn : ∀ n, n ∈ c0.nodes ↔ ∃ e ∈ c0.edges, n = e.1 ∨ n = e.2) : Asserted md c0 c1 ↔
      (∃ n, n ∈ md.nodes ∧ n ∈ c1.nodes) ∧
      (∀ e ∈ md.edges, e.1 ∉ c1.nodes → e.2 ∉ c1.nodes → e ∈ c0.edges) ∧
      ∀ e ∈ md.edges, e ∈ c0.edges → e.1 ∉ c1.nodes ∧ e.2 ∉ c1.nodes := by
  have h1 : (∃ n, (intersection md c1).nodes.head? = some n ∧ n ∈ c1.nodes) ↔ ∃ n, n ∈ md.nodes ∧ n ∈ c1.nodes := by
    constructor
    · rintro ⟨n, h1, h2⟩
      have := List.mem_of_head? h1
      simp only [intersection, List.mem_filter] at this
      exact ⟨n, this.1, h2⟩
    · rintro ⟨n, h1, h2⟩
      have hm : n ∈ (intersection md c1).nodes := by
        simp only [intersection, List.mem_filter, decide_eq_true_eq]
        exact ⟨h1, h2⟩
      cases h : (intersection md c1).nodes with
      | nil =>
        rw [h] at hm
        exact absurd hm List.not_mem_nil
      | cons a t =>
        have ha : a ∈ (intersection md c1).nodes := by rw [h]; exact List.mem_cons_self
        simp only [intersection, List.mem_filter, decide_eq_true_eq] at ha
        exact ⟨a, rfl, ha.2⟩
  have h2 : (∀ e, e ∈ c0.edges ↔ e ∈ (reconstruct md c0 c1).edges) ↔
      (∀ e ∈ md.edges, e.1 ∉ c1.nodes → e.2 ∉ c1.nodes → e ∈ c0.edges) ∧
      ∀ e ∈ md.edges, e ∈ c0.edges → e.1 ∉ c1.nodes ∧ e.2 ∉ c1.nodes := by
    simp only [C157_rebuilt_edges]
    constructor
    · intro h
      refine ⟨fun e a b c => (h e).2 (Or.inl ⟨a, b, c⟩), fun e a b => ?_⟩
      rcases (h e).1 b with h | h
      · exact h.2
      · exact absurd a h.2
    · rintro ⟨a, b⟩ e
      constructor
      · intro h
        by_cases hm : e ∈ md.edges
        · exact Or.inl ⟨hm, b e hm h⟩
        · exact Or.inr ⟨h, hm⟩
      · rintro (h | h)
        · exact a e h.1 h.2.1 h.2.2
        · exact h.1
  unfold Asserted
  rw [h1, h2]
  refine and_congr_right fun _ => ⟨And.right, fun h => ⟨fun n => ?_, h⟩⟩
  rw [hn, C157_rebuilt_nodes hp]
  have := h2.2 h
  simp only [this]

/-- The edges 6 and 7 of a line cut at the vertex 2: with the vertex in the union, with new vertices 3 and 4 in the
difference. -/
def exUnion : DiGraph Nat := DiGraph.ofEdges [(6, 0), (6, 2), (7, 2), (7, 1)]
def exDifference : DiGraph Nat := DiGraph.ofEdges [(6, 0), (6, 3), (7, 4), (7, 1)]
def exTool : DiGraph Nat := ⟨[2], []⟩

theorem exUnion_proper : Proper exUnion := by
  refine ⟨by decide, by decide, fun u v h => ?_⟩
  have : ∀ e ∈ exUnion.edges, e.1 ∈ exUnion.nodes ∧ e.2 ∈ exUnion.nodes := by decide
  exact this _ h

example : Graded exUnion := by
  refine ⟨fun n => if n < 6 then 1 else 0, fun u v h => ?_⟩
  have : ∀ e ∈ exUnion.edges, (if e.1 < 6 then (1 : Int) else 0) < if e.2 < 6 then 1 else 0 := by decide
  exact this _ h

/-- On the line the assertions of the test hold. -/
example : Asserted exUnion exDifference exTool := by
  refine (C157_asserted exUnion_proper fun n => ?_).2 ⟨⟨2, by decide⟩, by decide, by decide⟩
  have h1 : ∀ n ∈ exDifference.nodes, ∃ e ∈ exDifference.edges, n = e.1 ∨ n = e.2 := by decide
  have h2 : ∀ e ∈ exDifference.edges, e.1 ∈ exDifference.nodes ∧ e.2 ∈ exDifference.nodes := by decide
  refine ⟨h1 n, ?_⟩
  rintro ⟨e, he, rfl | rfl⟩
  · exact (h2 e he).1
  · exact (h2 e he).2

/-- They do not if the difference keeps the vertex of the tool. -/
theorem C157_kept : ¬ Asserted exUnion exUnion exTool := by
  intro h
  have h2 : ∀ n, n ∈ exUnion.nodes ↔ ∃ e ∈ exUnion.edges, n = e.1 ∨ n = e.2 := by
    intro n
    have h1 : ∀ n ∈ exUnion.nodes, ∃ e ∈ exUnion.edges, n = e.1 ∨ n = e.2 := by decide
    refine ⟨h1 n, ?_⟩
    rintro ⟨e, he, rfl | rfl⟩
    · exact (exUnion_proper.ends _ _ he).1
    · exact (exUnion_proper.ends _ _ he).2
  have := ((C157_asserted exUnion_proper h2).1 h).2.2 (6, 2) (by decide) (by decide)
  exact absurd this (by decide)

#print axioms C157_counts

#print axioms C157_euler
#print axioms C157_right_iff_partial
#print axioms C157_betti_violated
#print axioms C157_domain
#print axioms C157_vertices
#print axioms C157_edge_violated
#print axioms C157_rebuilt_edges
#print axioms C157_rebuilt_nodes
#print axioms C157_asserted
#print axioms C157_kept

end Verif.Betti
