/-
C41 appending shapes, C43 the graph of a domain, C44 `create_domain`.
-/
import Verif.Lemmas.Domain
import Mathlib.Data.Fin.VecNotation

namespace Verif.Topology
open Shape
variable {P : Type}

/-! ### C41 -/

/-- C41.  A batch of shapes of one dimension is appended to the list of that dimension, and the
other lists are kept. -/
theorem C41_append {d : Domain P} (hg : Grouped d) {shapes : List (Shape P)} {k : Nat}
    (h : ∀ s ∈ shapes, s.dimension = k) (hk : k ≤ d.dimension) :
    ∃ d', d.append shapes = .ok d' ∧ d'.dimension = d.dimension ∧ Grouped d' ∧
      (∀ l, d.shapes[k]? = some l → d'.shapes[k]? = some (l ++ shapes)) ∧
      ∀ j, j ≠ k → d'.shapes[j]? = d.shapes[j]? := by
  have hlt : k < d.shapes.length := by rw [hg.length]; omega
  by_cases hne : shapes = []
  · subst hne
    exact ⟨d, rfl, rfl, hg, fun l hl => by simpa using hl, fun j _ => rfl⟩
  · rw [append_same hne h, List.getElem?_eq_getElem hlt]
    refine ⟨_, rfl, rfl, ⟨by simpa using hg.length, ?_⟩, ?_, ?_⟩
    · intro j l hl s hs
      simp only [List.getElem?_set] at hl
      split at hl
      · rename_i e
        subst e
        simp only [Option.some.injEq] at hl
        subst hl
        rcases List.mem_append.1 hs with hs | hs
        · exact hg.dim _ _ (List.getElem?_eq_getElem hlt) s hs
        · exact h s hs
      · exact hg.dim j l hl s hs
    · intro l hl
      simp only [Option.some.injEq] at hl
      subst hl
      simp [hlt]
    · intro j hj
      simp only [List.getElem?_set]
      rw [if_neg (Ne.symm hj)]

/-- C41.  A batch with shapes of different dimensions raises `AssertionError`, shapes of a
dimension the domain does not have raise `IndexError`; an empty batch changes nothing. -/
theorem C41_rejects (d : Domain P) (hg : Grouped d) (shapes : List (Shape P)) :
    ((∃ s ∈ shapes, ∃ t ∈ shapes, s.dimension ≠ t.dimension) →
      d.append shapes = .error .assertionError) ∧
    (shapes ≠ [] → ∀ k, (∀ s ∈ shapes, s.dimension = k) → d.dimension < k →
      d.append shapes = .error .indexError) ∧
    d.append [] = .ok d := by
  refine ⟨?_, ?_, rfl⟩
  · rintro ⟨s, hs, t, ht, h⟩
    exact append_mixed hs ht h
  · intro hne k h hk
    rw [append_same hne h, List.getElem?_eq_none (by rw [hg.length]; omega)]

/-- C41.  After any sequence of accepted batches the lists are grouped by dimension, and the
stored shapes are exactly the given ones. -/
theorem C41_history {D : Nat} : ∀ {batches : List (List (Shape P))} {d d' : Domain P},
    Grouped d → d.dimension = D → batches.foldlM Domain.append d = .ok d' →
    Grouped d' ∧ d'.dimension = D ∧ d'.all.Perm (d.all ++ batches.flatten)
  | [], d, d', hg, hd, h => by
    simp only [List.foldlM_nil, pure, Except.pure, Except.ok.injEq] at h
    subst h
    exact ⟨hg, hd, by simp⟩
  | b :: bs, d, d', hg, hd, h => by
    rw [List.foldlM_cons] at h
    obtain ⟨d1, h1, h2⟩ := Res.bind_eq_ok.1 h
    have step : Grouped d1 ∧ d1.dimension = D ∧ d1.all.Perm (d.all ++ b) := by
      rcases append_ok h1 with ⟨rfl, rfl⟩ | ⟨k, old, hne, hk, hold, rfl⟩
      · exact ⟨hg, hd, by simp⟩
      · have hlt : k < d.shapes.length := (List.getElem?_eq_some_iff.1 hold).1
        have hk' : k ≤ d.dimension := by rw [hg.length] at hlt; omega
        obtain ⟨d2, e2, e3, e4, -⟩ := C41_append hg hk hk'
        rw [e2] at h1
        simp only [Except.ok.injEq] at h1
        subst h1
        refine ⟨e4, e3.trans hd, ?_⟩
        unfold Domain.all
        have e5 : d.shapes = d.shapes.take k ++ old :: d.shapes.drop (k + 1) := by
          have := (List.getElem?_eq_some_iff.1 hold).2
          conv_lhs => rw [← List.take_append_drop k d.shapes]
          rw [List.drop_eq_getElem_cons hlt, this]
        have e6 : d.shapes.set k (old ++ b) =
            d.shapes.take k ++ (old ++ b) :: d.shapes.drop (k + 1) := by
          rw [List.set_eq_take_append_cons_drop, if_pos hlt]
        simp only [e6]
        conv_rhs => rw [e5]
        simp only [List.flatten_append, List.flatten_cons, List.append_assoc]
        refine List.Perm.append_left _ (List.Perm.append_left _ ?_)
        exact List.perm_append_comm
    obtain ⟨g1, g2, g3⟩ := step
    obtain ⟨g4, g5, g6⟩ := C41_history g1 g2 h2
    refine ⟨g4, g5, g6.trans ?_⟩
    rw [List.flatten_cons, ← List.append_assoc]
    exact g3.append_right _

/-- C41.  `max_tag` is the largest tag of all stored shapes; it raises `ValueError` exactly for an
empty domain. -/
theorem C41_max_tag (d : Domain P) :
    (∀ m, d.maxTag = .ok m ↔ (∃ s ∈ d.all, s.tag = m) ∧ ∀ s ∈ d.all, s.tag ≤ m) ∧
    (d.maxTag = .error .valueError ↔ d.all = []) := by
  constructor
  · intro m
    unfold Domain.maxTag
    rw [intMax_spec]
    simp
  · unfold Domain.maxTag
    cases h : d.all with
    | nil => simp [intMax]
    | cons => simp [intMax]

/-- C41.  `max_physical_tag` is the largest physical tag, `shapes_with_physical_tag` finds exactly
the shapes having a tag. -/
theorem C41_physical_tags (d : Domain P) :
    (∀ m, d.maxPhysicalTag = .ok m ↔ (∃ s ∈ d.all, s.physicalTag = some m) ∧
      ∀ s ∈ d.all, ∀ t, s.physicalTag = some t → t ≤ m) ∧
    ∀ t s, s ∈ d.withPhysicalTag t ↔ s ∈ d.all ∧ s.physicalTag = t := by
  constructor
  · intro m
    unfold Domain.maxPhysicalTag
    rw [intMax_spec]
    simp only [List.mem_filterMap]
    constructor
    · rintro ⟨h1, h2⟩
      exact ⟨h1, fun s hs t ht => h2 t ⟨s, hs, ht⟩⟩
    · rintro ⟨h1, h2⟩
      exact ⟨h1, fun t ⟨s, hs, ht⟩ => h2 s hs t ht⟩
  · intro t s
    simp [Domain.withPhysicalTag]

theorem new_grouped (D : Nat) : Grouped (Domain.new D : Domain P) := by
  refine ⟨by simp [Domain.new], ?_⟩
  intro k l hl s hs
  simp only [Domain.new, List.getElem?_replicate] at hl
  split at hl
  · simp only [Option.some.injEq] at hl
    subst hl
    simp at hs
  · simp at hl

/-- A vertex without geometry. -/
def plainVertex (t : Int) : Shape Unit := .vertex t none ()

/-- An edge without geometry. -/
def plainEdge (t a b : Int) : Shape Unit := .composed .edge t none [plainVertex a, plainVertex b] []

example : ∃ d, (Domain.new 1 : Domain Unit).append [plainVertex 4, plainVertex 2] = .ok d ∧
    d.shapes = [[plainVertex 4, plainVertex 2], []] ∧ d.maxTag = .ok 4 := ⟨_, rfl, rfl, rfl⟩

example : (Domain.new 1 : Domain Unit).append [plainVertex 4, plainEdge 0 4 5] =
    .error .assertionError := rfl

/-! ### C43 -/

/-- C43.  The graph has an edge from `x` to `y` exactly if `x` is the index of a shape reached
from a shape of the given dimension and `y` the index of one of its boundary or immersed shapes;
its nodes are the end points of these edges, and in dimension 0 the vertices of the domain. -/
theorem C43_graph {d : Domain P} (hg : Grouped d) {k : Nat} (hk : k ≤ d.dimension) :
    ∃ g l, d.shapes[k]? = some l ∧ d.buildGraph k = .ok g ∧
      (∀ x y, (x, y) ∈ g.edges ↔ ∃ s ∈ l, ∃ a c, Below s.view a ∧ Child a c ∧
        x = a.index d.dimension ∧ y = c.index d.dimension) ∧
      (k ≠ 0 → ∀ x, x ∈ g.nodes ↔ ∃ y, (x, y) ∈ g.edges ∨ (y, x) ∈ g.edges) ∧
      (k = 0 → g.edges = [] ∧ ∀ x, x ∈ g.nodes ↔ ∃ s ∈ l, x = s.index d.dimension) ∧
      g.nodes.Nodup ∧ g.edges.Nodup := by
  have hlt : k < d.shapes.length := by rw [hg.length]; omega
  obtain ⟨l, hl⟩ : ∃ l, d.shapes[k]? = some l := ⟨_, List.getElem?_eq_getElem hlt⟩
  have hi : getIdx d.shapes k = .ok l := by simp only [getIdx, hl]
  have hedges : ∀ x y, (x, y) ∈ (DiGraph.ofEdges
      ((l.map view).flatMap (gatherEdges d.dimension))).edges ↔ ∃ s ∈ l, ∃ a c, Below s.view a ∧
        Child a c ∧ x = a.index d.dimension ∧ y = c.index d.dimension := by
    intro x y
    rw [DiGraph.ofEdges_edges, mem_uniq, List.mem_flatMap]
    simp only [List.mem_map, exists_exists_and_eq_and, mem_gatherEdges, Prod.mk.injEq]
  have hnodes : ∀ x, x ∈ (DiGraph.ofEdges
      ((l.map view).flatMap (gatherEdges d.dimension))).nodes ↔ ∃ y,
      (x, y) ∈ (DiGraph.ofEdges ((l.map view).flatMap (gatherEdges d.dimension))).edges ∨
      (y, x) ∈ (DiGraph.ofEdges ((l.map view).flatMap (gatherEdges d.dimension))).edges := by
    intro x
    rw [DiGraph.ofEdges_nodes, DiGraph.ofEdges_edges, mem_uniq]
    simp only [mem_uniq]
    generalize (l.map view).flatMap (gatherEdges d.dimension) = es
    rw [List.mem_flatMap]
    constructor
    · rintro ⟨⟨a, b⟩, he, hx⟩
      simp only [List.mem_cons, List.not_mem_nil, or_false] at hx
      rcases hx with rfl | rfl
      · exact ⟨b, Or.inl he⟩
      · exact ⟨a, Or.inr he⟩
    · rintro ⟨y, h | h⟩
      · exact ⟨_, h, by simp⟩
      · exact ⟨_, h, by simp⟩
  have nd1 : (DiGraph.ofEdges ((l.map view).flatMap (gatherEdges d.dimension))).nodes.Nodup := by
    rw [DiGraph.ofEdges_nodes]; exact nodup_uniq _
  have nd2 : (DiGraph.ofEdges ((l.map view).flatMap (gatherEdges d.dimension))).edges.Nodup := by
    rw [DiGraph.ofEdges_edges]; exact nodup_uniq _
  by_cases h0 : k = 0
  · subst h0
    have hnone : (l.map view).flatMap (gatherEdges d.dimension) = [] := by
      rw [List.flatMap_eq_nil_iff]
      intro s hs
      obtain ⟨s, hs', rfl⟩ := List.mem_map.1 hs
      obtain ⟨t, p, x, rfl⟩ := vertex_cases (hg.dim 0 l hl s hs')
      rfl
    rw [hnone] at hedges hnodes nd1 nd2
    refine ⟨⟨uniq ((l.map view).map (index d.dimension)), []⟩, l, hl, ?_, ?_, by simp, ?_,
      nodup_uniq _, List.nodup_nil⟩
    · simp only [Domain.buildGraph, hi, Res.bind_ok, hnone]
      rfl
    · intro x y
      rw [← hedges x y]
      rfl
    · intro _
      refine ⟨rfl, fun x => ?_⟩
      rw [mem_uniq]
      simp only [List.mem_map, exists_exists_and_eq_and]
      refine exists_congr fun s => and_congr Iff.rfl ?_
      simp only [index, view_dimension, view_tag]
      exact eq_comm
  · refine ⟨_, l, hl, ?_, hedges, fun _ => hnodes, fun h => absurd h h0, nd1, nd2⟩
    simp only [Domain.buildGraph, hi, Res.bind_ok, if_neg h0]
    rfl

/-- C43.  A dimension the domain does not have raises `IndexError`. -/
theorem C43_rejects {d : Domain P} (hg : Grouped d) {k : Nat} (hk : d.dimension < k) :
    d.buildGraph k = .error .indexError := by
  have : d.shapes[k]? = none := List.getElem?_eq_none (by rw [hg.length]; omega)
  simp [Domain.buildGraph, getIdx, this, bind, Except.bind]

example : (Domain.buildGraph ⟨1, [[plainVertex 0, plainVertex 1], [plainEdge 2 0 1]]⟩ 1 :
    Res (DiGraph (Int × Int))) =
    .ok ⟨[(0, 2), (1, 0), (1, 1)], [((0, 2), (1, 0)), ((0, 2), (1, 1))]⟩ := rfl

example : Grouped ⟨1, [[plainVertex 0, plainVertex 1], [plainEdge 2 0 1]]⟩ := by
  refine ⟨rfl, ?_⟩
  intro k l hl s hs
  match k with
  | 0 =>
    simp only [List.getElem?_cons_zero, Option.some.injEq] at hl
    subst hl
    simp only [List.mem_cons, List.not_mem_nil, or_false] at hs
    rcases hs with rfl | rfl <;> rfl
  | 1 =>
    simp only [List.getElem?_cons_zero, List.getElem?_cons_succ, Option.some.injEq] at hl
    subst hl
    simp only [List.mem_cons, List.not_mem_nil, or_false] at hs
    subst hs
    rfl
  | k + 2 => simp at hl

/-! ### C44 -/

/-- C44, partial: if the hashes of the given shapes differ whenever their identities differ, and
no shape has a larger dimension than the domain, then the list of each dimension holds exactly the
shapes that are the last of their identity, in the order in which the identities first occur. -/
theorem C44_create_partial {combine : Int → Int → Int} {D : Nat} {shapes : List (Shape P)}
    (hh : ∀ s ∈ shapes, ∀ t ∈ shapes, s.hash combine = t.hash combine → s.identity = t.identity)
    (hd : ∀ s ∈ shapes, s.dimension ≤ D) :
    ∃ d, createDomain combine D shapes = .ok d ∧ d.dimension = D ∧ Grouped d ∧
      ∀ k l, d.shapes[k]? = some l → (∀ s, s ∈ l ↔ s.dimension = k ∧ IsLast shapes s) ∧
        l.map identity = uniq ((shapes.filter fun s => s.dimension = k).map identity) := by
  obtain ⟨ds, h1, h2, h3⟩ := classify_spec combine D shapes (List.replicate (D + 1) []) (by simp) hd
  have h3' : ∀ i, i < D + 1 → ds[i]? =
      some (setAll (Shape.hash combine) [] (shapes.filter fun s => D - s.dimension = i)) := by
    intro i hi
    rw [h3 i, List.getElem?_replicate, if_pos hi]
    rfl
  have hmem : ∀ i c, ds[i]? = some c → ∀ s ∈ Dict.values c,
      s ∈ shapes ∧ D - s.dimension = i := by
    intro i c hc s hs
    have hi : i < D + 1 := by rw [← h2]; exact (List.getElem?_eq_some_iff.1 hc).1
    rw [h3' i hi, Option.some.injEq] at hc
    subst hc
    obtain ⟨⟨k, s'⟩, hp, rfl⟩ := List.mem_map.1 hs
    obtain ⟨-, b, a, he, -⟩ := (mem_setAll _ _).1 hp
    have : s' ∈ shapes.filter fun s => D - s.dimension = i := by rw [he]; simp
    simpa using List.mem_filter.1 this
  obtain ⟨d, h4, h5, h6, h7⟩ := appendAll_spec ds (Domain.new D) D (by omega)
    (by simp [Domain.new]) (by
      intro i c hc s hs
      obtain ⟨m1, m2⟩ := hmem i c hc s hs
      have := hd s m1
      have hi : i < D + 1 := by rw [← h2]; exact (List.getElem?_eq_some_iff.1 hc).1
      omega)
  -- the list of dimension `k`
  have hlist : ∀ k l, d.shapes[k]? = some l → k ≤ D ∧
      l = Dict.values (setAll (Shape.hash combine) [] (shapes.filter fun s => s.dimension = k)) := by
    intro k l hl
    have hk : k < D + 1 := by rw [← h6]; exact (List.getElem?_eq_some_iff.1 hl).1
    rw [h7 k] at hl
    simp only [Domain.new, List.getElem?_replicate, if_pos hk, Option.map_some, List.nil_append,
      h2, Option.some.injEq] at hl
    have hf : (shapes.filter fun s => decide (D - s.dimension = D + 1 - 1 - k)) =
        shapes.filter fun s => decide (s.dimension = k) := by
      refine List.filter_congr fun s hs => ?_
      have := hd s hs
      exact decide_eq_decide.2 (by omega)
    rw [h3' _ (by omega : D + 1 - 1 - k < D + 1), hf] at hl
    refine ⟨by omega, ?_⟩
    rw [← hl]
    simp [hk]
  refine ⟨d, ?_, h5, ⟨by rw [h6, h5]; rfl, ?_⟩, ?_⟩
  · simp [createDomain, h1, h4, bind, Except.bind]
  · intro k l hl s hs
    obtain ⟨-, rfl⟩ := hlist k l hl
    obtain ⟨⟨h, s'⟩, hp, rfl⟩ := List.mem_map.1 hs
    obtain ⟨-, b, a, he, -⟩ := (mem_setAll _ _).1 hp
    have : s' ∈ shapes.filter fun s => s.dimension = k := by rw [he]; simp
    simpa using (List.mem_filter.1 this).2
  · intro k l hl
    obtain ⟨hk, rfl⟩ := hlist k l hl
    constructor
    · intro s
      unfold Dict.values
      constructor
      · intro hs
        obtain ⟨⟨h, s'⟩, hp, rfl⟩ := List.mem_map.1 hs
        obtain ⟨-, b, a, he, ha⟩ := (mem_setAll _ _).1 hp
        have hs' : s' ∈ shapes.filter fun s => s.dimension = k := by rw [he]; simp
        have hdim : s'.dimension = k := by simpa using (List.mem_filter.1 hs').2
        refine ⟨hdim, ?_⟩
        obtain ⟨b', a', e1, rfl, e2⟩ := List.filter_eq_append_iff.1 he
        obtain ⟨b₂, a₂, rfl, e3, -, rfl⟩ := List.filter_eq_cons_iff.1 e2
        refine ⟨b' ++ b₂, a₂, by simp [e1], ?_⟩
        intro t ht hid
        have htd : t.dimension = k := by
          rw [← hdim]; exact congrArg Prod.fst hid
        refine ha t (List.mem_filter.2 ⟨ht, by simpa using htd⟩) ?_
        unfold Shape.hash
        have h1 : t.dimension = s'.dimension := congrArg Prod.fst hid
        have h2 : t.tag = s'.tag := congrArg Prod.snd hid
        rw [h1, h2]
      · rintro ⟨hdim, b, a, rfl, ha⟩
        refine List.mem_map.2 ⟨(s.hash combine, s), (mem_setAll _ _).2 ⟨rfl, ?_⟩, rfl⟩
        refine ⟨b.filter fun s => s.dimension = k, a.filter fun s => s.dimension = k, ?_, ?_⟩
        · rw [List.filter_append, List.filter_cons_of_pos (by simpa using hdim)]
        · intro t ht hhash
          have ht' := (List.mem_filter.1 ht).1
          exact ha t ht' (hh t (by simp [ht']) s (by simp) hhash)
    · have key := values_key (Shape.hash combine) (shapes.filter fun s => s.dimension = k)
      have hf : ∀ s : Shape P, s.hash combine =
          (fun p : Nat × Int => combine (pyHashInt p.1) (pyHashInt p.2)) s.identity :=
        fun s => rfl
      have hcomp : ∀ l : List (Shape P), l.map (Shape.hash combine) = (l.map identity).map
          (fun p : Nat × Int => combine (pyHashInt p.1) (pyHashInt p.2)) := by
        intro l
        rw [List.map_map]
        rfl
      have hinj : ∀ x ∈ (shapes.filter fun s => s.dimension = k).map identity,
          ∀ y ∈ (shapes.filter fun s => s.dimension = k).map identity,
          combine (pyHashInt x.1) (pyHashInt x.2) = combine (pyHashInt y.1) (pyHashInt y.2) →
          x = y := by
        intro x hx y hy h
        obtain ⟨s, hs, rfl⟩ := List.mem_map.1 hx
        obtain ⟨t, ht, rfl⟩ := List.mem_map.1 hy
        exact hh s (List.mem_filter.1 hs).1 t (List.mem_filter.1 ht).1 h
      rw [hcomp, hcomp, ← map_uniq _ _ hinj] at key
      have hsub : ∀ x ∈ (Dict.values (setAll (Shape.hash combine) []
          (shapes.filter fun s => s.dimension = k))).map identity,
          x ∈ (shapes.filter fun s => s.dimension = k).map identity := by
        intro x hx
        obtain ⟨s, hs, rfl⟩ := List.mem_map.1 hx
        obtain ⟨⟨h, s'⟩, hp, rfl⟩ := List.mem_map.1 hs
        obtain ⟨-, b, a, he, -⟩ := (mem_setAll _ _).1 hp
        refine List.mem_map_of_mem ?_
        rw [he]
        simp
      exact map_inj_on (fun x hx y hy => hinj x (hsub x hx) y (mem_uniq.1 hy)) key

/-- C44.  The only integers with the same hash are -1 and -2. -/
theorem C44_hash (m n : Int) :
    pyHashInt m = pyHashInt n ↔ m = n ∨ (m = -1 ∧ n = -2) ∨ (m = -2 ∧ n = -1) := by
  unfold pyHashInt
  split <;> split <;> omega

/-- C44.  If no tag is -1, it suffices that the combination of the two hashes has no collision. -/
theorem C44_no_minus_one {combine : Int → Int → Int} {shapes : List (Shape P)}
    (hc : ∀ a b a' b' : Int, combine a b = combine a' b' → a = a' ∧ b = b')
    (ht : ∀ s ∈ shapes, s.tag ≠ -1) :
    ∀ s ∈ shapes, ∀ t ∈ shapes, s.hash combine = t.hash combine → s.identity = t.identity := by
  intro s hs t ht' h
  obtain ⟨h1, h2⟩ := hc _ _ _ _ h
  have p1 := ht s hs
  have p2 := ht t ht'
  rw [C44_hash] at h1 h2
  simp only [identity, Prod.mk.injEq]
  exact ⟨by omega, by omega⟩

/-- C44.  If the tags are not negative, it suffices that the combination of the two hashes has no
collision. -/
theorem C44_nonnegative_tags {combine : Int → Int → Int} {shapes : List (Shape P)}
    (hc : ∀ a b a' b' : Int, combine a b = combine a' b' → a = a' ∧ b = b')
    (ht : ∀ s ∈ shapes, 0 ≤ s.tag) :
    ∀ s ∈ shapes, ∀ t ∈ shapes, s.hash combine = t.hash combine → s.identity = t.identity := by
  intro s hs t ht' h
  obtain ⟨h1, h2⟩ := hc _ _ _ _ h
  have p1 := ht s hs
  have p2 := ht t ht'
  unfold pyHashInt at h1 h2
  rw [if_neg (by omega), if_neg (by omega)] at h1 h2
  simp only [identity, Prod.mk.injEq]
  exact ⟨by omega, h2⟩

/-- C44 does not hold in general: `hash(-1) == hash(-2)`, so of two shapes with the tags -1 and -2
only the second is kept, however CPython combines hashes. -/
theorem C44_shape_lost (combine : Int → Int → Int) :
    ∃ d, createDomain combine 0 [plainVertex (-1), plainVertex (-2)] = .ok d ∧
      d.shapes = [[plainVertex (-2)]] ∧
      IsLast [plainVertex (-1), plainVertex (-2)] (plainVertex (-1)) := by
  refine ⟨⟨0, [[plainVertex (-2)]]⟩, ?_, rfl, [], [plainVertex (-2)], rfl, ?_⟩
  · have : Shape.hash combine (plainVertex (-1)) = Shape.hash combine (plainVertex (-2)) := rfl
    simp [createDomain, classify, pyPosition, plainVertex, Shape.dimension, appendAll, Dict.set,
      Domain.append, Domain.new, Dict.values, bind, Except.bind, Shape.hash, pyHashInt, tag]
  · intro t ht
    rw [List.mem_singleton] at ht
    subst ht
    simp [identity, plainVertex, tag, Shape.dimension]

/-- C44.  A shape of a larger dimension than the domain is an error. -/
theorem C44_rejects {combine : Int → Int → Int} {D : Nat} {shapes : List (Shape P)}
    (hh : ∀ s ∈ shapes, ∀ t ∈ shapes, s.hash combine = t.hash combine → s.identity = t.identity)
    (hd : ∃ s ∈ shapes, D < s.dimension) : ∃ e, createDomain combine D shapes = .error e := by
  unfold createDomain
  rcases hc : classify combine D (List.replicate (D + 1) []) shapes with e | ds
  · exact ⟨e, rfl⟩
  · obtain ⟨i, c, k, s, h1, h2, h3⟩ := classify_big hh shapes hc (fun s hs => hs) (by
      intro i c hi
      rw [List.getElem?_replicate] at hi
      split at hi
      · rw [Option.some.injEq] at hi
        subst hi
        exact ⟨List.nodup_nil, fun k s h => by simp at h⟩
      · simp at hi) (Or.inl hd)
    exact appendAll_big ds _ (by simp [Domain.new])
      ⟨i, c, s, h1, List.mem_map.2 ⟨(k, s), h2, rfl⟩, h3⟩

example : ∃ d, createDomain (fun a b => 10 * a + b) 1
    [plainVertex 1, plainEdge 3 1 2, plainVertex 2, plainVertex 1] = .ok d ∧
    d.shapes = [[plainVertex 1, plainVertex 2], [plainEdge 3 1 2]] := ⟨_, rfl, rfl⟩

example : createDomain (fun a b => 10 * a + b) 0 [plainVertex 1, plainEdge 3 1 2] =
    .error .assertionError := rfl

#print axioms C41_append
#print axioms C41_rejects
#print axioms C41_history
#print axioms C41_max_tag
#print axioms C41_physical_tags
#print axioms C43_graph
#print axioms C43_rejects
#print axioms C44_create_partial
#print axioms C44_nonnegative_tags
#print axioms C44_shape_lost
#print axioms C44_rejects

#print axioms C44_hash
#print axioms C44_no_minus_one

end Verif.Topology
