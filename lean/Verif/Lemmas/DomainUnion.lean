/-
Helper lemmas for C68 and C69.
-/
import Verif.Lemmas.DomainOps
import Verif.Lemmas.Graph
import Verif.Lemmas.MeshOps
import Verif.Lemmas.Trace
import Verif.Lemmas.Topology

namespace Verif.DomainOps
open MeshBuild MeshGraph Trace MeshMetrics Geometry VertexOps
open scoped Classical

/-! ### Dictionaries of shapes -/

theorem get_store {α κ : Type} [DecidableEq κ] {k : α → κ} {a : α} : ∀ {d : Dict κ α} (l : List α),
    (∀ b ∈ l, k b = k a → b = a) → (d.get? (k a) = some a ∨ a ∈ l) →
    (store k d l).get? (k a) = some a := by
  intro d l
  induction l generalizing d with
  | nil => intro _ h; simpa [store] using h
  | cons b l ih =>
    intro hu h
    refine ih (d := d.set (k b) b) (fun c hc => hu c (by simp [hc])) ?_
    rw [Dict.get?_set]
    by_cases hb : k a = k b
    · rw [if_pos hb, hu b (by simp) hb.symm]
      exact Or.inl rfl
    · rw [if_neg hb]
      rcases h with h | h
      · exact Or.inl h
      · rw [List.mem_cons] at h
        rcases h with rfl | h
        · exact absurd rfl hb
        · exact Or.inr h

/-! ### The vertex a vertex is replaced with -/

theorem merge_nil (P : Params) (w : Vtx) : merge P [] w = w := rfl

theorem merge_cases (P : Params) (l : List Vtx) (w : Vtx) :
    (merge P l w ∈ l ∧ SameGeometry w (merge P l w) P.incidence) ∨
    (merge P l w = w ∧ ∀ v ∈ l, ¬ SameGeometry w v P.incidence) := by
  unfold merge
  cases h : l.find? fun v => SameGeometry w v P.incidence with
  | none =>
    right
    refine ⟨rfl, fun v hv => ?_⟩
    simpa using List.find?_eq_none.1 h v hv
  | some v =>
    left
    exact ⟨List.mem_of_find?_eq_some h, by simpa using List.find?_some h⟩

theorem merge_eq_of_none {P : Params} {l : List Vtx} {w : Vtx}
    (h : ∀ v ∈ l, ¬ SameGeometry w v P.incidence) : merge P l w = w := by
  rcases merge_cases P l w with ⟨h1, h2⟩ | ⟨h1, -⟩
  · exact absurd h2 (h _ h1)
  · exact h1

theorem merge_concat (P : Params) (l : List Vtx) (v w : Vtx) :
    merge P (l ++ [v]) w = if ∃ x ∈ l, SameGeometry w x P.incidence then merge P l w
      else if SameGeometry w v P.incidence then v else w := by
  unfold merge
  rw [List.find?_append]
  by_cases h : ∃ x ∈ l, SameGeometry w x P.incidence
  · rw [if_pos h]
    cases hf : l.find? fun v => SameGeometry w v P.incidence with
    | none =>
      obtain ⟨x, hx, hs⟩ := h
      exact absurd hs (by simpa using List.find?_eq_none.1 hf x hx)
    | some y => simp
  · rw [if_neg h]
    have hf : l.find? (fun v => SameGeometry w v P.incidence) = none := by
      rw [List.find?_eq_none]
      intro x hx
      simpa using fun hs => h ⟨x, hx, hs⟩
    rw [hf]
    by_cases hv : SameGeometry w v P.incidence
    · simp [hv]
    · simp [hv]

/-! ### Removing nodes -/

section
variable {N : Type} [DecidableEq N]

theorem removeNodes_nodes (l : List N) (g : DiGraph N) :
    (l.foldl DiGraph.removeNode g).nodes = g.nodes.filter fun n => n ∉ l := by
  induction l generalizing g with
  | nil => simp
  | cons a l ih =>
    rw [List.foldl_cons, ih]
    simp only [DiGraph.removeNode, List.filter_filter]
    refine List.filter_congr fun n _ => ?_
    simp only [List.mem_cons, not_or, ne_eq, Bool.decide_and, decide_not]
    rw [Bool.and_comm]

theorem removeNodes_edges (l : List N) (g : DiGraph N) :
    (l.foldl DiGraph.removeNode g).edges = g.edges.filter fun e => e.1 ∉ l ∧ e.2 ∉ l := by
  induction l generalizing g with
  | nil => simp
  | cons a l ih =>
    rw [List.foldl_cons, ih]
    simp only [DiGraph.removeNode, List.filter_filter]
    refine List.filter_congr fun n _ => ?_
    rw [← Bool.decide_and]
    refine decide_eq_decide.2 ?_
    simp only [List.mem_cons, not_or, ne_eq]
    tauto

end

/-! ### The loop over the tools -/

/-- State of the loop after the tools `done`. -/
structure Inv (P : Params) (c0 : Dom) (done : List Vtx) (g : DiGraph Idx) : Prop where
  edges : ∀ x y, (x, y) ∈ g.edges ↔ ∃ e ∈ c0.edges, x = (0, e.tag) ∧
    ∃ u, Edg.Ends e u ∧ y = (1, (merge P done u).tag)
  edgesNodup : g.edges.Nodup
  nodesNodup : g.nodes.Nodup
  zero : g.nodes.filter (fun i => i.1 = 0) = c0.edges.map fun e => (0, e.tag)
  one : ∀ t, ((1, t) : Idx) ∈ g.nodes ↔ ∃ x, (x, ((1, t) : Idx)) ∈ g.edges

theorem nodup_foldl_addNew {α : Type} [DecidableEq α] (l : List α) {acc : List α}
    (h : acc.Nodup) : (l.foldl addNew acc).Nodup := by
  induction l generalizing acc with
  | nil => exact h
  | cons a l ih =>
    refine ih ?_
    unfold addNew
    split
    · exact h
    · rename_i hn
      exact List.nodup_append.2 ⟨h, by simp, fun x hx y hy e => hn (by
        rw [List.mem_singleton] at hy
        rw [← hy, ← e]
        exact hx)⟩

theorem filter_foldl_addNew {α : Type} [DecidableEq α] (p : α → Bool) (l : List α) (acc : List α) :
    (l.foldl addNew acc).filter p = (l.filter p).foldl addNew (acc.filter p) := by
  induction l generalizing acc with
  | nil => rfl
  | cons a l ih =>
    rw [List.foldl_cons, ih, List.filter_cons]
    by_cases ha : p a
    · simp only [ha, if_true, List.foldl_cons]
      congr 1
      unfold addNew
      by_cases hm : a ∈ acc
      · rw [if_pos hm, if_pos (List.mem_filter.2 ⟨hm, ha⟩)]
      · rw [if_neg hm, if_neg fun h => hm (List.mem_filter.1 h).1, List.filter_append]
        simp [ha]
    · simp only [ha, Bool.false_eq_true, if_false]
      congr 1
      unfold addNew
      by_cases hm : a ∈ acc
      · rw [if_pos hm]
      · rw [if_neg hm, List.filter_append]
        simp [ha]

theorem foldl_addNew_of_mem {α : Type} [DecidableEq α] (l : List α) {acc : List α}
    (h : ∀ a ∈ l, a ∈ acc) : l.foldl addNew acc = acc := by
  induction l with
  | nil => rfl
  | cons a l ih =>
    rw [List.foldl_cons, addNew, if_pos (h a (by simp))]
    exact ih fun b hb => h b (by simp [hb])

theorem twice_addNew {α : Type} [DecidableEq α] (l : List α) {acc : List α}
    (h : (acc ++ l).Nodup) : (l.flatMap fun a => [a, a]).foldl addNew acc = acc ++ l := by
  induction l generalizing acc with
  | nil => simp
  | cons a l ih =>
    have ha : a ∉ acc := by
      rw [List.nodup_append] at h
      exact fun hm => h.2.2 a hm a (by simp) rfl
    rw [List.flatMap_cons]
    simp only [List.cons_append, List.nil_append, List.foldl_cons]
    rw [show addNew (addNew acc a) a = acc ++ [a] by
      unfold addNew
      rw [if_neg ha, if_pos (by simp)]]
    rw [ih (by simpa using h)]
    simp

theorem inv_nil {P : Params} {c0 : Dom} (hc : IsClosed c0) : Inv P c0 [] (edgeGraph c0.edges) := by
  have he : ∀ x y, (x, y) ∈ (edgeGraph c0.edges).edges ↔ ∃ e ∈ c0.edges, x = (0, e.tag) ∧
      ∃ u, Edg.Ends e u ∧ y = (1, (merge P [] u).tag) := by
    intro x y
    unfold edgeGraph
    rw [DiGraph.mem_ofEdges_edges, List.mem_flatMap]
    constructor
    · rintro ⟨e, he, h⟩
      simp only [List.mem_cons, Prod.mk.injEq, List.not_mem_nil, or_false] at h
      rcases h with ⟨rfl, rfl⟩ | ⟨rfl, rfl⟩
      · exact ⟨e, he, rfl, e.first, Or.inl rfl, rfl⟩
      · exact ⟨e, he, rfl, e.second, Or.inr rfl, rfl⟩
    · rintro ⟨e, he, rfl, u, rfl | rfl, rfl⟩
      · exact ⟨e, he, by simp [merge_nil]⟩
      · exact ⟨e, he, by simp [merge_nil]⟩
  refine ⟨he, ?_, ?_, ?_, ?_⟩
  · unfold edgeGraph
    rw [DiGraph.ofEdges_edges]
    exact nodup_foldl_addNew _ (by simp)
  · unfold edgeGraph
    rw [DiGraph.ofEdges_nodes]
    exact nodup_foldl_addNew _ (by simp)
  · unfold edgeGraph
    rw [DiGraph.ofEdges_nodes, uniq, filter_foldl_addNew]
    have : ((c0.edges.flatMap fun e => [(((0, e.tag) : Idx), ((1, e.first.tag) : Idx)),
        ((0, e.tag), (1, e.second.tag))]).flatMap fun e => [e.1, e.2]).filter (fun i => i.1 = 0)
        = (c0.edges.map fun e => ((0, e.tag) : Idx)).flatMap fun a => [a, a] := by
      induction c0.edges with
      | nil => rfl
      | cons e l ih =>
        rw [List.flatMap_cons, List.flatMap_append, List.filter_append, ih]
        simp
    rw [this, List.filter_nil, twice_addNew _ (by
      rw [List.nil_append]
      have := hc.edgeTags
      rw [show (c0.edges.map fun e => ((0, e.tag) : Idx)) = (c0.edges.map Edg.tag).map fun t => (0, t)
        by simp]
      exact this.map fun a b h => by simpa using h)]
    simp
  · intro t
    have h1 : ((1, t) : Idx) ∈ (edgeGraph c0.edges).nodes ↔ _ := DiGraph.mem_ofEdges_nodes
    rw [h1]
    constructor
    · rintro ⟨e, he', h⟩
      obtain ⟨x, hx, h'⟩ := List.mem_flatMap.1 he'
      simp only [List.mem_cons, List.not_mem_nil, or_false] at h'
      refine ⟨e.1, ?_⟩
      have : ((1, t) : Idx) = e.2 := by
        rcases h with h | h
        · rcases h' with rfl | rfl <;> simp at h
        · exact h
      rw [this]
      unfold edgeGraph
      rw [DiGraph.mem_ofEdges_edges]
      exact he'
    · rintro ⟨x, hx⟩
      unfold edgeGraph at hx
      rw [DiGraph.mem_ofEdges_edges] at hx
      exact ⟨_, hx, Or.inr rfl⟩

/-- One pass of the loop. -/
theorem unionStep_inv {P : Params} {c0 c1 : Dom} (hm : Mergeable P c0 c1) {done rest : List Vtx}
    {v : Vtx} (hsplit : c1.vertices = done ++ v :: rest) {g : DiGraph Idx} (hg : Inv P c0 done g) :
    ∃ g', unionStep P c0 g v = .ok g' ∧ Inv P c0 (done ++ [v]) g' := by
  have hvm : v ∈ c1.vertices := by rw [hsplit]; simp
  have hdm : ∀ x ∈ done, x ∈ c1.vertices := fun x hx => by rw [hsplit]; simp [hx]
  have hvd : v ∉ done := by
    intro hv
    have := hm.tools
    rw [hsplit, List.map_append, List.nodup_append] at this
    exact this.2.2 v.tag (List.mem_map_of_mem hv) v.tag (by simp) rfl
  have hEnd : ∀ e ∈ c0.edges, ∀ u, Edg.Ends e u → u ∈ c0.vertices := fun e he u hu =>
    (hm.closed.ends u).2 ⟨e, he, hu⟩
  -- the merged vertex before and after
  have hnear : ∀ w ∈ c0.vertices, SameGeometry w v P.incidence → ∀ x ∈ done,
      ¬ SameGeometry w x P.incidence := by
    intro w hw h x hx hs
    have := hm.one w hw v hvm x (hdm x hx) h hs
    exact hvd (this ▸ hx)
  have hbefore : ∀ w ∈ c0.vertices, SameGeometry w v P.incidence → merge P done w = w :=
    fun w hw h => merge_eq_of_none (hnear w hw h)
  have hafter : ∀ w ∈ c0.vertices, merge P (done ++ [v]) w =
      if SameGeometry w v P.incidence then v else merge P done w := by
    intro w hw
    rw [merge_concat]
    by_cases h : SameGeometry w v P.incidence
    · rw [if_neg (fun ⟨x, hx, hs⟩ => hnear w hw h x hx hs), if_pos h, if_pos h]
    · rw [if_neg h, if_neg h]
      split
      · rfl
      · rename_i hn
        exact (merge_eq_of_none fun x hx hs => hn ⟨x, hx, hs⟩).symm
  have hself : ∀ x ∈ done, ∀ w ∈ c0.vertices, w.tag = x.tag → ¬ SameGeometry w v P.incidence := by
    intro x hx w hw ht hs
    have : w = x := hm.tag w x (Or.inl hw) (Or.inr (hdm x hx)) ht
    subst this
    have := hm.one w hw v hvm w (hdm w hx) hs (hm.self w hw (hdm w hx))
    exact hvd (this ▸ hx)
  -- the chunk
  set chunk : List Idx := ((c0.vertices.filter fun w => SameGeometry w v P.incidence).map fun w =>
    ((1, w.tag) : Idx)).filter fun i => i ≠ (1, v.tag) with hchunk
  have hmemc : ∀ i, i ∈ chunk ↔ ∃ w ∈ c0.vertices, SameGeometry w v P.incidence ∧ w.tag ≠ v.tag ∧
      i = (1, w.tag) := by
    intro i
    simp only [hchunk, List.mem_filter, List.mem_map, decide_eq_true_eq]
    constructor
    · rintro ⟨⟨w, ⟨hw, hs⟩, rfl⟩, hne⟩
      exact ⟨w, hw, hs, by simpa using hne, rfl⟩
    · rintro ⟨w, hw, hs, hne, rfl⟩
      exact ⟨⟨w, ⟨hw, hs⟩, rfl⟩, by simpa using hne⟩
  have hrep : ∀ w ∈ c0.vertices, SameGeometry w v P.incidence → w.tag ≠ v.tag →
      merge P c1.vertices w ≠ w := by
    intro w hw hs hne he
    rcases merge_cases P c1.vertices w with ⟨h1, h2⟩ | ⟨-, h2⟩
    · rw [he] at h1
      exact hne (by rw [hm.one w hw v hvm w h1 hs (hm.self w hw h1)])
    · exact h2 v hvm hs
  -- the predecessor
  have hpred : ∀ i ∈ chunk, ∃ p, firstPredecessor g i = .ok p ∧ (p, i) ∈ g.edges := by
    intro i hi
    obtain ⟨w, hw, hs, hne, rfl⟩ := (hmemc i).1 hi
    obtain ⟨e, he, heu⟩ := (hm.closed.ends w).1 hw
    have hed : (((0, e.tag) : Idx), ((1, w.tag) : Idx)) ∈ g.edges :=
      (hg.edges _ _).2 ⟨e, he, rfl, w, heu, by rw [hbefore w hw hs]⟩
    have hnode : ((1, w.tag) : Idx) ∈ g.nodes := (hg.one _).2 ⟨_, hed⟩
    unfold firstPredecessor DiGraph.predecessors
    rw [if_pos hnode, Res.bind_ok]
    have hmem : ((0, e.tag) : Idx) ∈ (g.edges.filter fun x => x.2 = ((1, w.tag) : Idx)).map Prod.fst :=
      List.mem_map.2 ⟨_, List.mem_filter.2 ⟨hed, by simp⟩, rfl⟩
    cases hl : (g.edges.filter fun x => x.2 = ((1, w.tag) : Idx)).map Prod.fst with
    | nil => rw [hl] at hmem; simp at hmem
    | cons p l =>
      refine ⟨p, rfl, ?_⟩
      have : p ∈ (g.edges.filter fun x => x.2 = ((1, w.tag) : Idx)).map Prod.fst := by rw [hl]; simp
      obtain ⟨⟨a, b⟩, hq, rfl⟩ := List.mem_map.1 this
      obtain ⟨hq1, hq2⟩ := List.mem_filter.1 hq
      have : b = ((1, w.tag) : Idx) := by simpa using hq2
      subst this
      exact hq1
  have howner : ∀ w ∈ c0.vertices, SameGeometry w v P.incidence → ∀ p,
      (p, ((1, w.tag) : Idx)) ∈ g.edges → ∃ e ∈ c0.edges, Edg.Ends e w ∧ p = (0, e.tag) := by
    intro w hw hs p hp
    obtain ⟨e, he, rfl, u, hu, ht⟩ := (hg.edges _ _).1 hp
    have ht : w.tag = (merge P done u).tag := by simpa using ht
    rcases merge_cases P done u with ⟨h1, -⟩ | ⟨h1, -⟩
    · exact absurd hs (hself _ h1 w hw ht)
    · rw [h1] at ht
      have : w = u := hm.tag w u (Or.inl hw) (Or.inl (hEnd e he u hu)) ht
      subst this
      exact ⟨e, he, hu, rfl⟩
  choose! pf hpf1 hpf2 using hpred
  have hpreds := mapRes_ok chunk hpf1
  set new : List (Idx × Idx) := (chunk.map pf).map fun p => (p, ((1, v.tag) : Idx)) with hnew
  have hadd : (chunk.map pf).foldl (fun g p => g.addEdge (p, ((1, v.tag) : Idx))) g
      = g.addEdges new := by
    simp only [hnew, DiGraph.addEdges, List.foldl_map]
  have hmemnew : ∀ x y, (x, y) ∈ new ↔ y = ((1, v.tag) : Idx) ∧ ∃ i ∈ chunk, x = pf i := by
    intro x y
    simp only [hnew, List.mem_map, Prod.mk.injEq]
    constructor
    · rintro ⟨p, ⟨i, hi, rfl⟩, rfl, rfl⟩
      exact ⟨rfl, i, hi, rfl⟩
    · rintro ⟨rfl, i, hi, rfl⟩
      exact ⟨_, ⟨i, hi, rfl⟩, rfl, rfl⟩
  refine ⟨chunk.foldl DiGraph.removeNode (g.addEdges new), ?_, ?_⟩
  · unfold unionStep
    simp only [← hchunk, hpreds, Res.bind_ok, hadd, Res.pure_eq]
  have hvc : ((1, v.tag) : Idx) ∉ chunk := by
    intro h
    obtain ⟨w, -, -, hne, he⟩ := (hmemc _).1 h
    simp only [Prod.mk.injEq, true_and] at he
    exact hne he.symm
  have hzc : ∀ t, ((0, t) : Idx) ∉ chunk := by
    intro t h
    obtain ⟨w, -, -, -, he⟩ := (hmemc _).1 h
    simp at he
  have hpf0 : ∀ i ∈ chunk, ∃ w ∈ c0.vertices, SameGeometry w v P.incidence ∧ w.tag ≠ v.tag ∧
      i = (1, w.tag) ∧ ∃ e ∈ c0.edges, Edg.Ends e w ∧ pf i = (0, e.tag) := by
    intro i hi
    obtain ⟨w, hw, hs, hne, rfl⟩ := (hmemc i).1 hi
    exact ⟨w, hw, hs, hne, rfl, howner w hw hs _ (hpf2 _ hi)⟩
  have hold : ∀ x y, (x, y) ∈ (chunk.foldl DiGraph.removeNode (g.addEdges new)).edges ↔
      ((x, y) ∈ g.edges ∨ (x, y) ∈ new) ∧ x ∉ chunk ∧ y ∉ chunk := by
    intro x y
    rw [removeNodes_edges, List.mem_filter, DiGraph.mem_addEdges_edges]
    simp
  refine ⟨?_, ?_, ?_, ?_, ?_⟩
  · intro x y
    rw [hold, hmemnew]
    constructor
    · rintro ⟨h | ⟨rfl, i, hi, rfl⟩, hx, hy⟩
      · obtain ⟨e, he, rfl, u, hu, rfl⟩ := (hg.edges _ _).1 h
        have huc := hEnd e he u hu
        refine ⟨e, he, rfl, u, hu, ?_⟩
        rw [hafter u huc]
        by_cases hs : SameGeometry u v P.incidence
        · rw [if_pos hs]
          rw [hbefore u huc hs] at hy ⊢
          by_contra hne
          exact hy ((hmemc _).2 ⟨u, huc, hs, by simpa using hne, rfl⟩)
        · rw [if_neg hs]
      · obtain ⟨w, hw, hs, hne, rfl, e, he, heu, hp⟩ := hpf0 i hi
        exact ⟨e, he, hp, w, heu, by rw [hafter w hw, if_pos hs]⟩
    · rintro ⟨e, he, rfl, u, hu, rfl⟩
      have huc := hEnd e he u hu
      rw [hafter u huc]
      by_cases hs : SameGeometry u v P.incidence
      · rw [if_pos hs]
        refine ⟨?_, hzc _, hvc⟩
        by_cases hne : u.tag = v.tag
        · left
          exact (hg.edges _ _).2 ⟨e, he, rfl, u, hu, by rw [hbefore u huc hs, hne]⟩
        · right
          have hi : ((1, u.tag) : Idx) ∈ chunk := (hmemc _).2 ⟨u, huc, hs, hne, rfl⟩
          refine ⟨rfl, _, hi, ?_⟩
          obtain ⟨e', he', heu', hp⟩ := howner u huc hs _ (hpf2 _ hi)
          rw [hp, hm.hanging u huc (hrep u huc hs hne) e he e' he' hu heu']
      · rw [if_neg hs]
        refine ⟨Or.inl ((hg.edges _ _).2 ⟨e, he, rfl, u, hu, rfl⟩), hzc _, ?_⟩
        intro hc
        obtain ⟨w, hw, hsw, -, ht⟩ := (hmemc _).1 hc
        have ht : (merge P done u).tag = w.tag := by simpa using ht
        rcases merge_cases P done u with ⟨h1, -⟩ | ⟨h1, -⟩
        · exact hself _ h1 w hw ht.symm hsw
        · rw [h1] at ht
          have : u = w := hm.tag u w (Or.inl huc) (Or.inl hw) ht
          subst this
          exact hs hsw
  · rw [removeNodes_edges, DiGraph.addEdges_edges]
    exact (nodup_foldl_addNew _ hg.edgesNodup).filter _
  · rw [removeNodes_nodes, DiGraph.addEdges_nodes]
    exact (nodup_foldl_addNew _ hg.nodesNodup).filter _
  · rw [removeNodes_nodes, DiGraph.addEdges_nodes, List.filter_comm, filter_foldl_addNew,
      foldl_addNew_of_mem, hg.zero, List.filter_eq_self]
    · intro i hi
      obtain ⟨e, he, rfl⟩ := List.mem_map.1 hi
      simpa using hzc e.tag
    · intro i hi
      obtain ⟨hi, h0⟩ := List.mem_filter.1 hi
      obtain ⟨⟨x, y⟩, hxy, hi⟩ := List.mem_flatMap.1 hi
      obtain ⟨rfl, j, hj, rfl⟩ := (hmemnew _ _).1 hxy
      obtain ⟨w, hw, hs, hne, rfl, e, he, heu, hp⟩ := hpf0 j hj
      simp only [List.mem_cons, List.not_mem_nil, or_false] at hi
      rcases hi with rfl | rfl
      · rw [hg.zero, hp]
        exact List.mem_map_of_mem he
      · simp at h0
  · intro t
    rw [removeNodes_nodes, List.mem_filter, DiGraph.mem_addEdges_nodes]
    simp only [hold, decide_eq_true_eq]
    constructor
    · rintro ⟨h | ⟨⟨x, y⟩, hxy, h⟩, hc⟩
      · obtain ⟨x, hx⟩ := (hg.one t).1 h
        obtain ⟨e, -, rfl, -⟩ := (hg.edges _ _).1 hx
        exact ⟨_, Or.inl hx, hzc _, hc⟩
      · obtain ⟨rfl, j, hj, rfl⟩ := (hmemnew _ _).1 hxy
        obtain ⟨w, hw, hs, hne, rfl, e, he, heu, hp⟩ := hpf0 j hj
        rcases h with h | h
        · rw [hp] at h
          simp at h
        · simp only at h
          rw [h]
          exact ⟨_, Or.inr hxy, by rw [hp]; exact hzc _, hvc⟩
    · rintro ⟨x, h | h, -, hc⟩
      · exact ⟨Or.inl ((hg.one t).2 ⟨x, h⟩), hc⟩
      · exact ⟨Or.inr ⟨_, h, Or.inr rfl⟩, hc⟩

/-- The loop. -/
theorem union_loop {P : Params} {c0 c1 : Dom} (hm : Mergeable P c0 c1) :
    ∃ g, c1.vertices.foldlM (unionStep P c0) (edgeGraph c0.edges) = .ok g ∧
      Inv P c0 c1.vertices g := by
  have : ∀ (rest done : List Vtx) (g : DiGraph Idx), c1.vertices = done ++ rest → Inv P c0 done g →
      ∃ g', rest.foldlM (unionStep P c0) g = .ok g' ∧ Inv P c0 c1.vertices g' := by
    intro rest
    induction rest with
    | nil =>
      intro done g hs hg
      rw [List.append_nil] at hs
      exact ⟨g, rfl, by rw [hs]; exact hg⟩
    | cons v rest ih =>
      intro done g hs hg
      obtain ⟨g', h1, h2⟩ := unionStep_inv hm hs hg
      obtain ⟨g'', h3, h4⟩ := ih (done ++ [v]) g' (by simpa using hs) h2
      exact ⟨g'', by rw [List.foldlM_cons, h1]; exact h3, h4⟩
  exact this _ [] _ rfl (inv_nil hm.closed)

/-- Two lists of vertices with the same members and no tag twice are equal once sorted. -/
theorem sortByTag_eq {l l' : List Vtx} (h : l.Perm l') (hn : (l.map Vtx.tag).Nodup) :
    sortByTag l = sortByTag l' := by
  have hp : (sortByTag l).Perm (sortByTag l') :=
    (List.perm_insertionSort _ _).trans (h.trans (List.perm_insertionSort _ _).symm)
  haveI : Std.Total (fun v w : Vtx => v.tag ≤ w.tag) := ⟨fun a b => Int.le_total _ _⟩
  haveI : IsTrans Vtx (fun v w : Vtx => v.tag ≤ w.tag) := ⟨fun a b c h1 h2 => Int.le_trans h1 h2⟩
  have s1 := List.pairwise_insertionSort (fun v w : Vtx => v.tag ≤ w.tag) l
  have s2 := List.pairwise_insertionSort (fun v w : Vtx => v.tag ≤ w.tag) l'
  refine List.Perm.eq_of_pairwise ?_ s1 s2 hp
  intro a b ha hb h1 h2
  have ha' : a ∈ l := (List.mem_insertionSort _).1 ha
  have hb' : b ∈ l' := (List.mem_insertionSort _).1 hb
  exact List.inj_on_of_nodup_map hn ha' (h.mem_iff.2 hb') (Int.le_antisymm h1 h2)

/-- A list without repetition with two members. -/
theorem perm_pair {α : Type} {l : List α} {a b : α} (hn : l.Nodup) (hab : a ≠ b)
    (h : ∀ x, x ∈ l ↔ x = a ∨ x = b) : l.Perm [a, b] :=
  (List.perm_ext_iff_of_nodup hn (by simp [hab])).2 fun x => by simp [h]

/-! ### What remains of the edges -/

/-- The tags of what remains of the edges. -/
theorem parts_tags {tools : List Vtx} {tag : Int} : ∀ {edges : List Edg}
    {out : List (Edg × List Edg × List Vtx)}, List.Forall₂ (IsResult tools) edges out →
    (∀ e ∈ edges, e.first.point ≠ e.second.point) →
    (edges.map Edg.tag).Nodup → (∀ e ∈ edges, e.tag < tag) → (out.flatMap newTags).Nodup →
    (∀ t ∈ out.flatMap newTags, tag ≤ t) →
    ((out.flatMap parts).map Edg.tag).Nodup ∧ ∀ e ∈ out.flatMap parts,
      e ∈ edges ∨ e.tag ∈ out.flatMap newTags := by
  intro edges out h
  induction h with
  | nil => intros; simp
  | @cons e r edges out hr h ih =>
    intro hne hn hlt hnew hge
    rw [List.flatMap_cons, List.nodup_append] at hnew
    rw [List.map_cons, List.nodup_cons] at hn
    have hrest := ih (fun e he => hne e (by simp [he])) hn.2 (fun e he => hlt e (by simp [he])) hnew.2.1
      (fun t ht => hge t (by rw [List.flatMap_cons]; exact List.mem_append_right _ ht))
    have hgeR : ∀ t ∈ newTags r, tag ≤ t := fun t ht =>
      hge t (by rw [List.flatMap_cons]; exact List.mem_append_left _ ht)
    obtain ⟨rfl, hr⟩ := hr
    have hparts : ((parts r).map Edg.tag).Nodup ∧ ∀ e ∈ parts r, e = r.1 ∨ e.tag ∈ newTags r := by
      rcases hr with ⟨-, h1, h2⟩ | ⟨-, start, chain, hc, hsp⟩
      · simp [parts, h1, h2]
      · have hpos := splitting_pos hc hsp (hne r.1 (by simp))
        have : parts r = r.2.1 := by
          simp [parts, Nat.ne_of_gt hpos]
        rw [this]
        refine ⟨?_, fun e he => Or.inr ?_⟩
        · have := hnew.1
          rw [newTags, List.nodup_append] at this
          exact this.2.1
        · exact List.mem_append_right _ (List.mem_map_of_mem he)
    constructor
    · rw [List.flatMap_cons, List.map_append, List.nodup_append]
      refine ⟨hparts.1, hrest.1, ?_⟩
      intro t ht t' ht' he
      obtain ⟨e1, he1, rfl⟩ := List.mem_map.1 ht
      obtain ⟨e2, he2, rfl⟩ := List.mem_map.1 ht'
      rcases hparts.2 e1 he1 with rfl | k1 <;> rcases hrest.2 e2 he2 with k2 | k2
      · exact hn.1 (by rw [he]; exact List.mem_map_of_mem k2)
      · have := hlt r.1 (by simp)
        have := hge e2.tag (by rw [List.flatMap_cons]; exact List.mem_append_right _ k2)
        omega
      · have := hlt e2 (by simp [k2])
        have := hgeR _ k1
        omega
      · exact hnew.2.2 _ k1 _ k2 he
    · intro x hx
      rw [List.flatMap_cons] at hx ⊢
      rcases List.mem_append.1 hx with hx | hx
      · rcases hparts.2 x hx with rfl | k
        · exact Or.inl (by simp)
        · exact Or.inr (List.mem_append_left _ k)
      · rcases hrest.2 x hx with k | k
        · exact Or.inl (by simp [k])
        · exact Or.inr (List.mem_append_right _ k)

/-- The stored vertices are ends of what remains. -/
theorem stored_ends {tools : List Vtx} {edge : Edg} {r : Edg × List Edg × List Vtx}
    (hne : edge.first.point ≠ edge.second.point) (h : IsResult tools edge r) (v : Vtx) :
    v ∈ stored r ↔ ∃ e ∈ parts r, Edg.Ends e v := by
  obtain ⟨rfl, ⟨-, h1, h2⟩ | ⟨-, start, chain, hc, hs⟩⟩ := h
  · simp [stored, parts, h1, h2, Edg.Ends]
  · have hpos := splitting_pos hc hs hne
    have e1 : parts r = r.2.1 := by simp [parts, Nat.ne_of_gt hpos]
    have e2 : stored r = r.2.2 := by simp [stored, Nat.ne_of_gt hpos]
    rw [e1, e2]
    exact splitting_ends hs v

/-- A stored vertex existed before or was created. -/
theorem stored_old_or_created {tools : List Vtx} {edge : Edg} {r : Edg × List Edg × List Vtx}
    (hne : edge.first.point ≠ edge.second.point) (h : IsResult tools edge r) {v : Vtx}
    (hv : v ∈ stored r) : Old [edge] tools v ∨ v ∈ created r.2.2 := by
  obtain ⟨rfl, ⟨-, h1, h2⟩ | ⟨-, start, chain, hc, hs⟩⟩ := h
  · left
    right
    refine ⟨r.1, by simp, ?_⟩
    simpa [stored, h1, h2, Edg.Ends] using hv
  · have hpos := splitting_pos hc hs hne
    have e2 : stored r = r.2.2 := by simp [stored, Nat.ne_of_gt hpos]
    rw [e2] at hv
    obtain ⟨a, ha, ha'⟩ := hs.startV
    obtain ⟨b, hb, hb'⟩ := hs.endV
    have hold : ∀ (o w : Vtx), IsEnd tools o w → w ∈ tools ∨ w = o := by
      intro o w hw
      have := hw.2
      split at this
      · exact Or.inl this
      · exact Or.inr this
    rcases (mem_vertices (by rw [hs.size]; omega) ha hb).1 hv with rfl | hv | rfl
    · rcases hold _ _ ha' with k | k
      · exact Or.inl (Or.inl k)
      · exact Or.inl (Or.inr ⟨r.1, by simp, Or.inl k⟩)
    · exact Or.inr hv
    · rcases hold _ _ hb' with k | k
      · exact Or.inl (Or.inl k)
      · exact Or.inl (Or.inr ⟨r.1, by simp, Or.inr k⟩)

theorem merge_mem {P : Params} {c0 c1 : Dom} {w : Vtx} (hw : w ∈ c0.vertices) :
    merge P c1.vertices w ∈ c0.vertices ∨ merge P c1.vertices w ∈ c1.vertices := by
  rcases merge_cases P c1.vertices w with ⟨h, -⟩ | ⟨h, -⟩
  · exact Or.inr h
  · rw [h]; exact Or.inl hw

/-- An end of what remains of an edge: an old vertex, a tool if there is one at its point, or a
created vertex at a point of an old one. -/
theorem end_cases {tools : List Vtx} {edge : Edg} {r : Edg × List Edg × List Vtx}
    (hne : edge.first.point ≠ edge.second.point) (h : IsResult tools edge r) {e : Edg}
    (he : e ∈ parts r) {w : Vtx} (hw : Edg.Ends e w) :
    (Old [edge] tools w ∧ ((∃ v ∈ tools, v.point = w.point) → w ∈ tools)) ∨
    (w ∈ created r.2.2 ∧ (∃ u, Old [edge] tools u ∧ u.point = w.point)) := by
  obtain ⟨rfl, ⟨hno, h1, h2⟩ | ⟨-, start, chain, hc, hs⟩⟩ := h
  · have e1 : parts r = [r.1] := by simp [parts, h1, h2]
    rw [e1, List.mem_singleton] at he
    subst he
    refine Or.inl ⟨Or.inr ⟨r.1, by simp, hw⟩, ?_⟩
    rintro ⟨v, hv, hp⟩
    refine absurd ⟨v, hv, ?_⟩ hno
    rw [hp]
    rcases hw with rfl | rfl
    · exact left_mem_segment ℝ _ _
    · exact right_mem_segment ℝ _ _
  · have hpos := splitting_pos hc hs hne
    have e1 : parts r = r.2.1 := by simp [parts, Nat.ne_of_gt hpos]
    rw [e1] at he
    have hv := (splitting_ends hs w).2 ⟨e, he, hw⟩
    obtain ⟨a, ha, ha'⟩ := hs.startV
    obtain ⟨b, hb, hb'⟩ := hs.endV
    have hold : ∀ (o w : Vtx), Edg.Ends r.1 o → IsEnd tools o w →
        Old [r.1] tools w ∧ ((∃ v ∈ tools, v.point = w.point) → w ∈ tools) := by
      intro o w ho hw
      obtain ⟨h1, h2⟩ := hw
      rw [h1]
      split at h2
      · exact ⟨Or.inl h2, fun _ => h2⟩
      · rename_i hn
        exact ⟨Or.inr ⟨r.1, by simp, h2 ▸ ho⟩, fun h => absurd h hn⟩
    rcases (mem_vertices (by rw [hs.size]; omega) ha hb).1 hv with rfl | hv | rfl
    · exact Or.inl (hold _ _ (Or.inl rfl) ha')
    · refine Or.inr ⟨hv, ?_⟩
      obtain ⟨i, hi⟩ := List.mem_iff_getElem?.1 he
      obtain ⟨-, x, y, -, -, h3, h4, h5⟩ := hs.joined i e hi
      have : w.point ∈ chain := by
        rcases h5 with ⟨k1, k2⟩ | ⟨k1, k2⟩ <;> rcases hw with rfl | rfl
        · rw [k1]; exact List.mem_of_getElem? h3
        · rw [k2]; exact List.mem_of_getElem? h4
        · rw [k1]; exact List.mem_of_getElem? h4
        · rw [k2]; exact List.mem_of_getElem? h3
      rcases (hc.mem _).1 this with k | k | ⟨v, hv, k⟩
      · exact ⟨r.1.first, Or.inr ⟨r.1, by simp, Or.inl rfl⟩, k.symm⟩
      · exact ⟨r.1.second, Or.inr ⟨r.1, by simp, Or.inr rfl⟩, k.symm⟩
      · exact ⟨v, Or.inl hv.1, k⟩
    · exact Or.inl (hold _ _ (Or.inr rfl) hb')

/-- The parts of an edge have different end points. -/
theorem parts_ne {tools : List Vtx} {edge : Edg} {r : Edg × List Edg × List Vtx}
    (hne : edge.first.point ≠ edge.second.point) (h : IsResult tools edge r) {e : Edg}
    (he : e ∈ parts r) : e.first.point ≠ e.second.point := by
  obtain ⟨rfl, ⟨hno, h1, h2⟩ | ⟨-, start, chain, hc, hs⟩⟩ := h
  · have e1 : parts r = [r.1] := by simp [parts, h1, h2]
    rw [e1, List.mem_singleton] at he
    rw [he]
    exact hne
  · have hpos := splitting_pos hc hs hne
    have e1 : parts r = r.2.1 := by simp [parts, Nat.ne_of_gt hpos]
    rw [e1] at he
    obtain ⟨i, hi⟩ := List.mem_iff_getElem?.1 he
    obtain ⟨-, x, y, -, -, h3, h4, h5⟩ := hs.joined i e hi
    have hlt : x.point ≠ y.point := by
      intro hxy
      obtain ⟨k1, l1⟩ := List.getElem?_eq_some_iff.1 h3
      obtain ⟨k2, l2⟩ := List.getElem?_eq_some_iff.1 h4
      have := List.pairwise_iff_getElem.1 hc.ordered i (i + 1) k1 k2 (Nat.lt_succ_self i)
      rw [l1, l2, hxy] at this
      exact lt_irrefl _ this
    rcases h5 with ⟨k1, k2⟩ | ⟨k1, k2⟩
    · rw [k1, k2]; exact hlt
    · rw [k1, k2]; exact hlt.symm

/-- A created vertex is the end of one part only. -/
theorem created_once {tools : List Vtx} {tag : Int} {edge : Edg} {r : Edg × List Edg × List Vtx}
    (hne : edge.first.point ≠ edge.second.point) (h : IsResult tools edge r)
    (hv : ∀ v, Old [edge] tools v → v.tag < tag) (hn : (newTags r).Nodup)
    (hge : ∀ t ∈ newTags r, tag ≤ t) {w : Vtx} (hw : w ∈ created r.2.2) {e e' : Edg}
    (he : e ∈ parts r) (he' : e' ∈ parts r) (h1 : Edg.Ends e w) (h2 : Edg.Ends e' w) : e = e' := by
  obtain ⟨rfl, ⟨hno, k1, k2⟩ | ⟨-, start, chain, hc, hs⟩⟩ := h
  · rw [k2] at hw
    simp [created] at hw
  · have hpos := splitting_pos hc hs hne
    have e1 : parts r = r.2.1 := by simp [parts, Nat.ne_of_gt hpos]
    rw [e1] at he he'
    obtain ⟨a, ha, ha'⟩ := hs.startV
    obtain ⟨b, hb, hb'⟩ := hs.endV
    have hold : ∀ (o w : Vtx), Edg.Ends r.1 o → IsEnd tools o w → w.tag < tag := by
      intro o w ho hw
      refine hv w ?_
      have := hw.2
      split at this
      · exact Or.inl this
      · exact Or.inr ⟨r.1, by simp, this ▸ ho⟩
    have hwt : tag ≤ w.tag := hge _ (List.mem_append_left _ (List.mem_map_of_mem hw))
    -- the position of `w` is unique
    have hpos' : ∀ (i j : Nat), r.2.2[i]? = some w → r.2.2[j]? = some w → i = j := by
      intro i j hi hj
      have key : ∀ i : Nat, r.2.2[i]? = some w → ∃ k, i = k + 1 ∧ (created r.2.2)[k]? = some w := by
        intro i hi
        have hlt := (List.getElem?_eq_some_iff.1 hi).1
        cases i with
        | zero =>
          rw [← List.head?_eq_getElem?, ha] at hi
          cases hi
          have := hold _ _ (Or.inl rfl) ha'
          omega
        | succ k =>
          refine ⟨k, rfl, ?_⟩
          have hk : k ≠ r.2.2.length - 2 := by
            intro hk
            have hlast : r.2.2[r.2.2.length - 1]? = some b := by
              rw [← List.getLast?_eq_getElem?]
              exact hb
            have : k + 1 = r.2.2.length - 1 := by omega
            rw [this, hlast] at hi
            cases hi
            have := hold _ _ (Or.inr rfl) hb'
            omega
          unfold created
          rw [List.getElem?_dropLast, if_pos (by rw [List.length_tail]; omega), List.getElem?_tail]
          exact hi
      obtain ⟨i', rfl, hi'⟩ := key i hi
      obtain ⟨j', rfl, hj'⟩ := key j hj
      have hnd : (created r.2.2).Nodup := by
        rw [newTags, List.nodup_append] at hn
        exact List.Nodup.of_map _ hn.1
      have hlt := (List.getElem?_eq_some_iff.1 hi').1
      rw [(List.getElem?_inj hlt hnd).1 (hi'.trans hj'.symm)]
    have hat : ∀ e ∈ r.2.1, Edg.Ends e w → ∃ i : Nat, r.2.1[i]? = some e ∧
        (r.2.2[2 * i]? = some w ∨ r.2.2[2 * i + 1]? = some w) := by
      intro e he hew
      obtain ⟨i, hi⟩ := List.mem_iff_getElem?.1 he
      obtain ⟨-, x, y, h3, h4, -, -, h5⟩ := hs.joined i e hi
      refine ⟨i, hi, ?_⟩
      rcases h5 with ⟨k1, k2⟩ | ⟨k1, k2⟩ <;> rcases hew with rfl | rfl
      · rw [k1]; exact Or.inl h3
      · rw [k2]; exact Or.inr h4
      · rw [k1]; exact Or.inr h4
      · rw [k2]; exact Or.inl h3
    obtain ⟨i, hi, hi'⟩ := hat e he h1
    obtain ⟨j, hj, hj'⟩ := hat e' he' h2
    have : i = j := by
      rcases hi' with hi' | hi' <;> rcases hj' with hj' | hj' <;>
        · have := hpos' _ _ hi' hj'
          omega
    subst this
    rw [hi] at hj
    exact Option.some.inj hj

/-- Results with disjoint new tags: a created vertex of one is not created by another. -/
theorem created_owner {out : List (Edg × List Edg × List Vtx)} (hn : (out.flatMap newTags).Nodup)
    {r r' : Edg × List Edg × List Vtx} (hr : r ∈ out) (hr' : r' ∈ out) {w : Vtx}
    (hw : w ∈ created r.2.2) (hw' : w ∈ created r'.2.2) : r = r' := by
  have h1 : w.tag ∈ newTags r := List.mem_append_left _ (List.mem_map_of_mem hw)
  have h2 : w.tag ∈ newTags r' := List.mem_append_left _ (List.mem_map_of_mem hw')
  clear hw hw'
  induction out with
  | nil => simp at hr
  | cons x out ih =>
    rw [List.flatMap_cons, List.nodup_append] at hn
    rcases List.mem_cons.1 hr with rfl | k <;> rcases List.mem_cons.1 hr' with rfl | k'
    · rfl
    · exact absurd rfl (hn.2.2 _ h1 _ (List.mem_flatMap.2 ⟨_, k', h2⟩))
    · exact absurd rfl (hn.2.2 _ h2 _ (List.mem_flatMap.2 ⟨_, k, h1⟩))
    · exact ih hn.2.1 k k'

end Verif.DomainOps
