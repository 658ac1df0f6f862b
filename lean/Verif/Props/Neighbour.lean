/-
Property theorem C91: the element of a neighbour of higher dimension, as it is searched for by the
boundary forms and by the traces (src/basis/basis_trace.py:31-70).
-/
import Verif.Model.BasisTrace
import Verif.Props.Space
import Verif.Lemmas.Trace
import Verif.Lemmas.MeshWF

namespace Verif.BasisTrace
open MeshBuild MeshGraph Dof Space Trace Orient Basis Mapping

theorem keyed_id (d : Dict Nat Nat) (i : Nat) : (keyed d).get? (.id i) = d.get? i := by
  unfold keyed
  induction d with
  | nil => rfl
  | cons p d ih =>
    simp only [List.map_cons, Dict.get?] at ih ⊢
    by_cases h : p.1 = i
    · simp [h]
    · simpa [h] using ih

theorem keyed_index (d : Dict Nat Nat) (n : Node) : (keyed d).get? (.index n) = none := by
  unfold keyed
  induction d with
  | nil => rfl
  | cons p d ih => simpa [Dict.get?] using ih

section
variable {basix : Basix} {tags bTags : List (Option Int)} {s : Space}

/-- The neighbours of a cell, in the order in which they are found. -/
theorem neighbours_ok (gb : GoodBasix basix) (hb : IsBuilt basix tags bTags s)
    (hw : WellFormed s.mesh.cells) {j : Nat} {c1 : Cell} (hj : Stored s.mesh.cells j c1)
    (hex : ∃ i, Tagged s.mesh.cells tags s.dimension i ∧ SubEntity s.mesh.cells i c1.dimension j) :
    ∃ ids : List Nat, ids.Nodup ∧ ids ≠ [] ∧
      (∀ i, i ∈ ids ↔ Tagged s.mesh.cells tags s.dimension i ∧
        SubEntity s.mesh.cells i c1.dimension j) ∧
      ∀ k, (∀ i, ids[k]? = some i → neighbour s c1 k = .ok (s.dimension, i)) ∧
        (ids.length ≤ k → neighbour s c1 k = .error .indexError) := by
  obtain ⟨D, t, sel, ned, h⟩ := build_facts_space gb hb hw
  have hcid := hw.ids j c1 hj
  have key : ∀ i, (Tagged s.mesh.cells tags s.dimension i ∧
      SubEntity s.mesh.cells i c1.dimension j) ↔ ∃ c' ∈ sel, c'.id = i ∧ j ∈ subD c' c1.dimension := by
    intro i
    constructor
    · rintro ⟨⟨c', hc', hcd, hmat⟩, hs⟩
      have hi := hw.ids i c' hc'
      subst hi
      exact ⟨c', (h.sel_iff c').2 ⟨hc', hcd, hmat⟩, rfl, (subEntity_iff hc').1 hs⟩
    · rintro ⟨c', hc', rfl, hj⟩
      have hs := (h.sel_iff c').1 hc'
      exact ⟨⟨c', hs⟩, (subEntity_iff hs.1).2 hj⟩
  obtain ⟨i0, hi0⟩ := hex
  obtain ⟨c0, hc0, hi0', hj0⟩ := (key i0).1 hi0
  have hle : c1.dimension ≤ t.dimension := by
    have hs := (h.sel_iff c0).1 hc0
    have hl := hw.subLen _ _ hs.1
    rw [hs.2.1] at hl
    rw [h.tdim]
    by_contra hcon
    rw [subD, List.getElem?_eq_none (by omega)] at hj0
    simp at hj0
  obtain ⟨g, hg, hinc⟩ := h.topo.incidence hle
  obtain ⟨ns, h1, h2, h3⟩ := hinc.predecessors ⟨c0, hc0, hj0⟩
  have hfst : ∀ n ∈ ns, n.1 = s.dimension := by
    intro n hn
    obtain ⟨c, -, rfl, -⟩ := (h3 n).1 hn
    exact h.tdim
  have hne : ns ≠ [] := by
    intro h0
    have := (h3 (t.dimension, c0.id)).2 ⟨c0, hc0, rfl, hj0⟩
    rw [h0] at this
    cases this
  have hn : ∀ k, neighbour s c1 k = getIdx ns k := by
    intro k
    unfold neighbour findHigherNeighs
    rw [h.getDofMap, Res.bind_ok, h.dof.topology, hg, Res.bind_ok, hcid, h1, Res.bind_ok,
      if_neg (by rw [List.length_eq_zero_iff]; exact hne)]
  refine ⟨ns.map Prod.snd, ?_, by simpa using hne, fun i => ?_, fun k => ⟨fun i hi => ?_, fun hk => ?_⟩⟩
  · refine h2.map_on fun a ha b hb hab => Prod.ext ?_ hab
    rw [hfst a ha, hfst b hb]
  · rw [key, List.mem_map]
    constructor
    · rintro ⟨n, hn, rfl⟩
      obtain ⟨c, hc, rfl, hjc⟩ := (h3 n).1 hn
      exact ⟨c, hc, rfl, hjc⟩
    · rintro ⟨c, hc, rfl, hjc⟩
      exact ⟨(t.dimension, c.id), (h3 _).2 ⟨c, hc, rfl, hjc⟩, rfl⟩
  · rw [hn]
    rw [List.getElem?_map, Option.map_eq_some_iff] at hi
    obtain ⟨n, hn', rfl⟩ := hi
    rw [getIdx_of hn', ← hfst n (List.mem_of_getElem? hn')]
  · rw [hn, getIdx, List.getElem?_eq_none (by simpa using hk)]

/-- C91: with the id of the neighbour, the search finds the elements of exactly the cells of the space that
have the given cell among their sub-entities, one after the other. -/
theorem C91_by_id_partial (gb : GoodBasix basix) (hb : IsBuilt basix tags bTags s)
    (hw : WellFormed s.mesh.cells) {j : Nat} {c1 : Cell} (hj : Stored s.mesh.cells j c1)
    (hex : ∃ i, Tagged s.mesh.cells tags s.dimension i ∧ SubEntity s.mesh.cells i c1.dimension j) :
    ∃ ids : List Nat, ids.Nodup ∧ ids ≠ [] ∧
      (∀ i, i ∈ ids ↔ Tagged s.mesh.cells tags s.dimension i ∧
        SubEntity s.mesh.cells i c1.dimension j) ∧
      ∀ k, (∀ i, ids[k]? = some i → ∃ el, elementById s c1 k = .ok el ∧ el ∈ s.elements ∧
          el.cell.id = i) ∧
        (ids.length ≤ k → elementById s c1 k = .error .indexError) := by
  obtain ⟨ids, h1, h2, h3, h4⟩ := neighbours_ok gb hb hw hj hex
  refine ⟨ids, h1, h2, h3, fun k => ⟨fun i hi => ?_, fun hk => ?_⟩⟩
  · obtain ⟨e1, -, e3, -, e5⟩ := C19_elements gb hb hw
    have hm := (e3 i).2 ((h3 i).1 (List.mem_of_getElem? hi)).1
    rw [← e1] at hm
    obtain ⟨n, hn⟩ := List.mem_iff_getElem?.1 hm
    have hget := (e5 i n).2 hn
    rw [List.getElem?_map, Option.map_eq_some_iff] at hn
    obtain ⟨el, hel, hid⟩ := hn
    refine ⟨el, ?_, List.mem_of_getElem? hel, hid⟩
    unfold elementById elementAt
    rw [(h4 k).1 i hi, Res.bind_ok, Dict.getItem, keyed_id, hget]
    exact getIdx_of hel
  · unfold elementById
    rw [(h4 k).2 hk]
    rfl

/-- C91: a cell that is no sub-entity of a cell of the space is refused in both ways. -/
theorem C91_rejects (gb : GoodBasix basix) (hb : IsBuilt basix tags bTags s)
    (hw : WellFormed s.mesh.cells) {j : Nat} {c1 : Cell} (hj : Stored s.mesh.cells j c1)
    (hle : c1.dimension ≤ s.dimension)
    (hno : ¬ ∃ i, Tagged s.mesh.cells tags s.dimension i ∧ SubEntity s.mesh.cells i c1.dimension j)
    (k : Nat) : elementById s c1 k = .error .networkXError ∧
      elementByIndex s c1 k = .error .networkXError := by
  obtain ⟨D, t, sel, ned, h⟩ := build_facts_space gb hb hw
  have hcid := hw.ids j c1 hj
  obtain ⟨g, hg, hinc⟩ := h.topo.incidence (d := c1.dimension) (by rw [h.tdim]; exact hle)
  have hg' : g.predecessors (c1.dimension, c1.id) = .error .networkXError := by
    have hn : (c1.dimension, c1.id) ∉ g.nodes := by
      intro hm
      obtain ⟨e, he, hne⟩ := hinc.mem_nodes.1 hm
      obtain ⟨c', hc', h1, h2, h3⟩ := hinc.mem_edges.1 he
      have hs := (h.sel_iff c').1 hc'
      refine hno ⟨c'.id, ⟨c', hs⟩, (subEntity_iff hs.1).2 ?_⟩
      rcases hne with hne | hne
      · rw [h1] at hne
        have e1 : c1.dimension = t.dimension := congrArg Prod.fst hne
        have e2 : c1.id = c'.id := congrArg Prod.snd hne
        have hself := hw.self _ c' hs.1
        rw [hs.2.1, ← h.tdim, ← e1, ← e2, hcid] at hself
        simp [subD, hself]
      · rw [← hne, hcid] at h3
        exact h3
    unfold DiGraph.predecessors
    rw [if_neg hn]
  have hn : neighbour s c1 k = .error .networkXError := by
    unfold neighbour findHigherNeighs
    rw [h.getDofMap, Res.bind_ok, h.dof.topology, hg, Res.bind_ok, hg']
    rfl
  unfold elementById elementByIndex
  rw [hn]
  exact ⟨rfl, rfl⟩

/-- C91 violated: with the pair of dimension and id, which is what the list of neighbours holds, no element is ever found. -/
theorem C91_by_index_violated (gb : GoodBasix basix) (hb : IsBuilt basix tags bTags s)
    (hw : WellFormed s.mesh.cells) {j : Nat} {c1 : Cell} (hj : Stored s.mesh.cells j c1)
    (hex : ∃ i, Tagged s.mesh.cells tags s.dimension i ∧ SubEntity s.mesh.cells i c1.dimension j) :
    elementByIndex s c1 0 = .error .keyError ∧
    ∀ k, elementByIndex s c1 k = .error .keyError ∨ elementByIndex s c1 k = .error .indexError := by
  obtain ⟨ids, h1, h2, h3, h4⟩ := neighbours_ok gb hb hw hj hex
  have hk : ∀ k i, ids[k]? = some i → elementByIndex s c1 k = .error .keyError := by
    intro k i hi
    unfold elementByIndex elementAt
    rw [(h4 k).1 i hi, Res.bind_ok, Dict.getItem, keyed_index]
    rfl
  constructor
  · obtain ⟨i, l, rfl⟩ := List.exists_cons_of_ne_nil h2
    exact hk 0 i rfl
  · intro k
    cases hi : ids[k]? with
    | some i => exact .inl (hk k i hi)
    | none =>
      right
      unfold elementByIndex
      rw [(h4 k).2 (List.getElem?_eq_none_iff.1 hi)]
      rfl

variable {K : Type} [Field K] [LinearOrder K]

/-- C91 violated: the trace of a space is never computed. -/
theorem C91_trace_violated (gb : GoodBasix basix) (hb : IsBuilt basix tags bTags s)
    (hw : WellFormed s.mesh.cells) {j : Nat} {c1 : Cell} (hj : Stored s.mesh.cells j c1)
    (hex : ∃ i, Tagged s.mesh.cells tags s.dimension i ∧ SubEntity s.mesh.cells i c1.dimension j)
    (qr : ∀ d, Matrix (Fin 3) (Fin d) K → Matrix (Fin 3) (Fin d) K × Matrix (Fin d) (Fin d) K)
    (pts : Points K) (kind : Kind K) (points : List (List K)) (all : Bool) :
    traceSpace qr pts kind s points c1 all 0 = .error .keyError ∧
    ∀ k t, traceSpace qr pts kind s points c1 all k ≠ .ok t := by
  obtain ⟨h0, hk⟩ := C91_by_index_violated gb hb hw hj hex
  unfold traceSpace
  refine ⟨by rw [h0]; rfl, fun k t => ?_⟩
  rcases hk k with h | h <;> rw [h] <;> simp [Res.bind_error]

/-- C91 violated: the traces of a product are never computed when they are asked for a field whose space has
a cell with the given one among its sub-entities. -/
theorem C91_product_violated (gb : GoodBasix basix) (hb : IsBuilt basix tags bTags s)
    (hw : WellFormed s.mesh.cells) {j : Nat} {c1 : Cell} (hj : Stored s.mesh.cells j c1)
    (hex : ∃ i, Tagged s.mesh.cells tags s.dimension i ∧ SubEntity s.mesh.cells i c1.dimension j)
    (qr : ∀ d, Matrix (Fin 3) (Fin d) K → Matrix (Fin 3) (Fin d) K × Matrix (Fin d) (Fin d) K)
    (pts : Points K) (kind : String → Kind K) (p : Product) (fields : List String) {f : String}
    (hf : f ∈ fields) (hs : p.spaces.get? f = some s) (points : List (List K)) (all : Bool) (k : Nat)
    (r : Dict String (Table K)) :
    traceProduct qr pts kind fields p points c1 all k ≠ .ok r := by
  intro h
  unfold traceProduct at h
  cases h1 : mapRes (fun f => do
    let s ← p.spaces.getItem f
    pure (f, s)) fields with
  | error e => rw [h1] at h; cases h
  | ok subs =>
    rw [h1, Res.bind_ok] at h
    have hall := mapRes_iff.1 h1
    have hsub : ∀ q ∈ subs, p.spaces.get? q.1 = some q.2 := by
      intro q hq
      obtain ⟨g, -, hg⟩ := forall₂_right hall hq
      unfold Dict.getItem at hg
      cases hget : p.spaces.get? g with
      | none => rw [hget] at hg; cases hg
      | some s' =>
        rw [hget] at hg
        cases hg
        exact hget
    have hmem : (f, s) ∈ Dict.ofList subs := by
      have hk : f ∈ subs.map Prod.fst := by
        obtain ⟨q, hq, hfq⟩ := forall₂_left hall hf
        unfold Dict.getItem at hfq
        rw [hs] at hfq
        cases hfq
        exact List.mem_map.2 ⟨_, hq, rfl⟩
      obtain ⟨v, hv⟩ := (Dict.ofList_get? subs f).2 hk
      have hm := hsub _ ((Dict.ofList_get? subs f).1 v hv)
      rw [hs] at hm
      cases hm
      exact Dict.mem_of_get? hv
    cases h2 : mapRes (fun q : String × Space => do
      let t ← traceSpace qr pts (kind q.1) q.2 points c1 all k
      pure (q.1, t)) (Dict.ofList subs) with
    | error e => rw [h2] at h; cases h
    | ok out =>
      obtain ⟨q, -, hq⟩ := forall₂_left (mapRes_iff.1 h2) hmem
      cases ht : traceSpace qr pts (kind f) s points c1 all k with
      | ok t => exact (C91_trace_violated gb hb hw hj hex qr pts (kind f) points all).2 k t ht
      | error e => simp only [ht] at hq; cases hq

/-! ### The hypotheses are satisfiable: P1 on the triangle with id 6, whose edge has id 5 -/

end

example : ∃ s, IsBuilt exampleBasix [some 1] [some 2] s ∧ WellFormed s.mesh.cells ∧
    Stored s.mesh.cells 5 ⟨1, 5, some 2, [1, 0], [[1, 0], [5]]⟩ ∧
    Tagged s.mesh.cells [some 1] s.dimension 6 ∧ SubEntity s.mesh.cells 6 1 5 ∧
    (elementById s ⟨1, 5, some 2, [1, 0], [[1, 0], [5]]⟩ 0).toOption.map (·.cell.id) = some 6 ∧
    elementById s ⟨1, 5, some 2, [1, 0], [[1, 0], [5]]⟩ 1 = .error .indexError ∧
    elementByIndex s ⟨1, 5, some 2, [1, 0], [[1, 0], [5]]⟩ 0 = .error .keyError :=
  ⟨_, ⟨⟨⟨2, exampleCells⟩, ⟨⟨2, exampleCells⟩, 2, [], []⟩, 2, 1, .P, 1, false, none, [], [], [], [],
      [], []⟩, _, ⟨rfl, rfl⟩, rfl, rfl, rfl, rfl, rfl⟩, exampleCells_wf.1, rfl,
    ⟨_, rfl, rfl, by decide⟩, ⟨_, rfl, _, rfl, by decide⟩, rfl, rfl, rfl⟩

/-- the space of no cells: the edge with id 5 has no neighbour -/
example : ∃ s, IsBuilt exampleBasix [some 7] [] s ∧ WellFormed s.mesh.cells ∧
    Stored s.mesh.cells 5 ⟨1, 5, some 2, [1, 0], [[1, 0], [5]]⟩ ∧ 1 ≤ s.dimension ∧
    (¬ ∃ i, Tagged s.mesh.cells [some 7] s.dimension i ∧ SubEntity s.mesh.cells i 1 5) ∧
    elementById s ⟨1, 5, some 2, [1, 0], [[1, 0], [5]]⟩ 0 = .error .networkXError := by
  refine ⟨_, ⟨⟨⟨2, exampleCells⟩, ⟨⟨2, exampleCells⟩, 2, [], []⟩, 2, 1, .P, 1, false, none, [], [], [], [],
      [], []⟩, _, ⟨rfl, rfl⟩, rfl, rfl, rfl, rfl, rfl⟩, exampleCells_wf.1, rfl, by decide, ?_, rfl⟩
  rintro ⟨i, ⟨c, hc, -, hm⟩, -⟩
  have : ∀ c ∈ exampleCells, ∀ c', c = some c' → c'.material ∉ [some (7 : Int)] := by decide
  exact this _ (List.mem_of_getElem? hc) c rfl hm

#print axioms C91_by_id_partial
#print axioms C91_rejects
#print axioms C91_by_index_violated
#print axioms C91_trace_violated
#print axioms C91_product_violated

end Verif.BasisTrace
