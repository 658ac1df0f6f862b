/- Helper lemmas on `uniq` and `DiGraph`. -/
import Verif.Lemmas.Prelude

namespace Verif

section uniq
variable {α β : Type} [DecidableEq α] [DecidableEq β]

theorem mem_addNew {l : List α} {x y : α} : y ∈ addNew l x ↔ y ∈ l ∨ y = x := by
  unfold addNew; split
  · rename_i h
    constructor
    · exact Or.inl
    · rintro (h' | rfl) <;> assumption
  · simp

theorem nodup_addNew {l : List α} {x : α} (h : l.Nodup) : (addNew l x).Nodup := by
  unfold addNew; split
  · exact h
  · rename_i hx
    refine List.nodup_append.2 ⟨h, by simp, ?_⟩
    intro a ha b hb
    simp at hb; subst hb; rintro rfl; exact hx ha

theorem mem_foldl_addNew (l : List α) : ∀ (a : List α) (y : α),
    y ∈ l.foldl addNew a ↔ y ∈ a ∨ y ∈ l := by
  induction l with
  | nil => simp
  | cons x l ih =>
    intro a y
    rw [List.foldl_cons, ih, mem_addNew, List.mem_cons, or_assoc]

theorem nodup_foldl_addNew (l : List α) : ∀ (a : List α), a.Nodup → (l.foldl addNew a).Nodup := by
  induction l with
  | nil => simp
  | cons x l ih => intro a h; exact ih _ (nodup_addNew h)

@[simp] theorem mem_uniq {l : List α} {y : α} : y ∈ uniq l ↔ y ∈ l := by
  simp [uniq, mem_foldl_addNew]

theorem nodup_uniq (l : List α) : (uniq l).Nodup := nodup_foldl_addNew l _ List.nodup_nil

theorem foldl_addNew_nodup (l : List α) : ∀ (a : List α), (a ++ l).Nodup →
    l.foldl addNew a = a ++ l := by
  induction l with
  | nil => simp
  | cons x l ih =>
    intro a h
    have hx : x ∉ a := by
      intro hx
      rw [List.nodup_append] at h
      exact h.2.2 x hx x (by simp) rfl
    rw [List.foldl_cons]
    have : addNew a x = a ++ [x] := by simp [addNew, hx]
    rw [this, ih _ (by simpa using h)]
    simp

theorem uniq_of_nodup {l : List α} (h : l.Nodup) : uniq l = l := by
  simpa [uniq] using foldl_addNew_nodup l [] (by simpa using h)

theorem filter_foldl_addNew (p : α → Bool) (l : List α) : ∀ a : List α,
    (l.foldl addNew a).filter p = (l.filter p).foldl addNew (a.filter p) := by
  induction l with
  | nil => simp
  | cons x l ih =>
    intro a
    rw [List.foldl_cons, ih]
    by_cases hp : p x
    · rw [List.filter_cons_of_pos hp, List.foldl_cons]
      congr 1
      unfold addNew
      by_cases hx : x ∈ a
      · simp [hx, hp]
      · simp [hx, hp]
    · rw [List.filter_cons_of_neg hp]
      congr 1
      unfold addNew
      by_cases hx : x ∈ a
      · simp [hx]
      · simp [hx, hp]

theorem filter_uniq (p : α → Bool) (l : List α) : (uniq l).filter p = uniq (l.filter p) := by
  simpa [uniq] using filter_foldl_addNew p l []

theorem map_foldl_addNew (f : α → β) (l : List α) : ∀ a : List α,
    (∀ x ∈ a ++ l, ∀ y ∈ a ++ l, f x = f y → x = y) →
    (l.foldl addNew a).map f = (l.map f).foldl addNew (a.map f) := by
  induction l with
  | nil => simp
  | cons x l ih =>
    intro a hinj
    rw [List.foldl_cons, List.map_cons, List.foldl_cons, ih]
    · congr 1
      unfold addNew
      by_cases hx : x ∈ a
      · have : f x ∈ a.map f := List.mem_map_of_mem hx
        simp [hx, this]
      · have : f x ∉ a.map f := by
          intro h
          obtain ⟨y, hy, hfy⟩ := List.mem_map.1 h
          have := hinj y (by simp [hy]) x (by simp) hfy
          subst this; exact hx hy
        simp [hx, this]
    · intro u hu v hv
      apply hinj
      · rw [List.mem_append, mem_addNew] at hu
        rw [List.mem_append, List.mem_cons]; tauto
      · rw [List.mem_append, mem_addNew] at hv
        rw [List.mem_append, List.mem_cons]; tauto

theorem map_uniq (f : α → β) (l : List α) (hinj : ∀ x ∈ l, ∀ y ∈ l, f x = f y → x = y) :
    (uniq l).map f = uniq (l.map f) := by
  simpa [uniq] using map_foldl_addNew f l [] (by simpa using hinj)

end uniq

namespace DiGraph
variable {N : Type} [DecidableEq N]

theorem ofEdges_edges (l : List (N × N)) : (ofEdges l).edges = uniq l := by
  have : ∀ (l : List (N × N)) (g : DiGraph N),
      (l.foldl addEdge g).edges = l.foldl addNew g.edges := by
    intro l
    induction l with
    | nil => intro g; rfl
    | cons e l ih => intro g; rw [List.foldl_cons, ih]; rfl
  exact this l empty

theorem ofEdges_nodes (l : List (N × N)) :
    (ofEdges l).nodes = uniq (l.flatMap fun e => [e.1, e.2]) := by
  have : ∀ (l : List (N × N)) (g : DiGraph N),
      (l.foldl addEdge g).nodes = (l.flatMap fun e => [e.1, e.2]).foldl addNew g.nodes := by
    intro l
    induction l with
    | nil => intro g; rfl
    | cons e l ih =>
      intro g
      rw [List.foldl_cons, ih, List.flatMap_cons, List.foldl_append]
      rfl
  exact this l empty

theorem mem_ofEdges_edges {l : List (N × N)} {e : N × N} : e ∈ (ofEdges l).edges ↔ e ∈ l := by
  rw [ofEdges_edges, mem_uniq]

theorem mem_ofEdges_nodes {l : List (N × N)} {n : N} :
    n ∈ (ofEdges l).nodes ↔ ∃ e ∈ l, n = e.1 ∨ n = e.2 := by
  rw [ofEdges_nodes, mem_uniq, List.mem_flatMap]
  simp

theorem ofEdges_successors {l : List (N × N)} {u : N} (hu : ∃ e ∈ l, u = e.1 ∨ u = e.2) :
    (ofEdges l).successors u = .ok (uniq ((l.filter fun e => e.1 = u).map Prod.snd)) := by
  unfold successors
  rw [if_pos (mem_ofEdges_nodes.2 hu), ofEdges_edges, filter_uniq, map_uniq]
  intro x hx y hy hxy
  have h1 : x.1 = u := by simpa using (List.mem_filter.1 hx).2
  have h2 : y.1 = u := by simpa using (List.mem_filter.1 hy).2
  exact Prod.ext (h1.trans h2.symm) hxy

theorem ofEdges_predecessors {l : List (N × N)} {u : N} (hu : ∃ e ∈ l, u = e.1 ∨ u = e.2) :
    (ofEdges l).predecessors u = .ok (uniq ((l.filter fun e => e.2 = u).map Prod.fst)) := by
  unfold predecessors
  rw [if_pos (mem_ofEdges_nodes.2 hu), ofEdges_edges, filter_uniq, map_uniq]
  intro x hx y hy hxy
  have h1 : x.2 = u := by simpa using (List.mem_filter.1 hx).2
  have h2 : y.2 = u := by simpa using (List.mem_filter.1 hy).2
  exact Prod.ext hxy (h1.trans h2.symm)

end DiGraph

end Verif
