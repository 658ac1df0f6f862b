/-
Lemmas about the cells of `GeometryBuilder` and their graph.
-/
import Verif.Spec.Builder
import Verif.Lemmas.Mesher
import Verif.Lemmas.VertexOps
import Verif.Lemmas.Graph
import Verif.Lemmas.Space
import Verif.Lemmas.DomainMarket

namespace Verif.Builder
open MeshGraph Mesher Trace
variable {P : Type}

theorem fancy_ok_of_lt {α : Type} {l : List α} : ∀ {idx : List Nat}, (∀ i ∈ idx, i < l.length) →
    ∃ r, fancy l idx = .ok r
  | [], _ => ⟨[], rfl⟩
  | i :: idx, h => by
    obtain ⟨r, hr⟩ := fancy_ok_of_lt (idx := idx) fun j hj => h j (List.mem_cons_of_mem _ hj)
    refine ⟨l[i]'(h i List.mem_cons_self) :: r, ?_⟩
    unfold fancy at hr ⊢
    rw [mapRes, getIdx_of (List.getElem?_eq_getElem (h i List.mem_cons_self)), Res.bind_ok, hr]
    rfl

theorem addCell_ok {cells : List GCell} {dimension id : Nat} {physical : Option Int}
    {boundary : List Nat} {loop : List Int} (h : ∀ i ∈ boundary, i < cells.length) :
    addCell cells dimension id physical boundary loop =
      .ok (cells ++ [⟨dimension, id, physical, none, boundary, loop, []⟩]) := by
  obtain ⟨r, hr⟩ := fancy_ok_of_lt h
  unfold addCell
  rw [hr, Res.bind_ok]; rfl

theorem foldlM_add {α : Type} {step : List GCell → α → Res (List GCell)} {g : α → GCell} {k : Nat} :
    ∀ (l : List α) (cells : List GCell), k ≤ cells.length →
      (∀ p ∈ l, ∀ c : List GCell, k ≤ c.length → step c p = .ok (c ++ [g p])) →
      l.foldlM step cells = .ok (cells ++ l.map g)
  | [], cells, _, _ => by simp
  | p :: l, cells, hk, h => by
    rw [List.foldlM_cons, h p List.mem_cons_self cells hk, Res.bind_ok,
      foldlM_add l _ (by simp; omega) fun q hq => h q (List.mem_cons_of_mem _ hq)]
    simp

/-- Ids are positions, references go to cells of lower rank, vertices refer to nothing. -/
structure Layered (rank : Nat → Nat) (cells : List GCell) : Prop where
  ids : ∀ (i : Nat) c, cells[i]? = some c → c.id = i
  refs : ∀ (i : Nat) c, cells[i]? = some c → ∀ j ∈ c.refs, j < cells.length ∧ rank j < rank i
  vertex : ∀ (i : Nat) c, cells[i]? = some c → c.dimension = 0 → c.refs = []
  low : ∀ i < cells.length, rank i < 1000

theorem gather_ok {rank : Nat → Nat} {cells : List GCell} (h : Layered rank cells) :
    ∀ (fuel i : Nat) (c : GCell), cells[i]? = some c → rank i < fuel →
      ∃ r, gather cells fuel c = .ok r ∧
        (∀ p ∈ r, ∃ d, cells[p.1]? = some d ∧ p.2 ∈ d.refs) ∧ ∀ j ∈ c.refs, (i, j) ∈ r
  | 0, _, _, _, hr => by omega
  | fuel + 1, i, c, hc, hr => by
    have key : ∀ l : List Nat, (∀ j ∈ l, j ∈ c.refs) → ∃ r, mapRes (fun i => do
        let d ← getIdx cells i
        if d.dimension = 0 then pure [(c.id, d.id)]
        else do
          let rest ← gather cells fuel d
          pure ((c.id, d.id) :: rest)) l = .ok r ∧
        (∀ p ∈ r.flatten, ∃ d, cells[p.1]? = some d ∧ p.2 ∈ d.refs) ∧
        ∀ j ∈ l, (i, j) ∈ r.flatten := by
      intro l hl
      induction l with
      | nil => exact ⟨[], rfl, by simp, by simp⟩
      | cons j l ih =>
        obtain ⟨r, e1, e2, e3⟩ := ih fun k hk => hl k (List.mem_cons_of_mem _ hk)
        have hj := hl j List.mem_cons_self
        obtain ⟨hlt, hrank⟩ := h.refs i c hc j hj
        have hd := List.getElem?_eq_getElem hlt
        rw [mapRes, getIdx_of hd, Res.bind_ok, h.ids i c hc, h.ids j _ hd]
        rw [h.ids i c hc] at e1
        by_cases h0 : (cells[j]).dimension = 0
        · rw [if_pos h0, e1]
          refine ⟨[(i, j)] :: r, rfl, ?_, ?_⟩
          · intro p hp
            simp only [List.flatten_cons, List.mem_append, List.mem_singleton] at hp
            rcases hp with rfl | hp
            · exact ⟨c, hc, hj⟩
            · exact e2 p hp
          · intro k hk
            rcases List.mem_cons.1 hk with rfl | hk
            · simp
            · simp only [List.flatten_cons, List.mem_append]
              exact .inr (e3 k hk)
        · obtain ⟨s, f1, f2, -⟩ := gather_ok h fuel j _ hd (by omega)
          rw [if_neg h0, f1, Res.bind_ok, e1]
          refine ⟨((i, j) :: s) :: r, rfl, ?_, ?_⟩
          · intro p hp
            simp only [List.flatten_cons, List.mem_append, List.mem_cons] at hp
            rcases hp with (rfl | hp) | hp
            · exact ⟨c, hc, hj⟩
            · exact f2 p hp
            · exact e2 p hp
          · intro k hk
            rcases List.mem_cons.1 hk with rfl | hk
            · simp
            · simp only [List.flatten_cons, List.mem_append]
              exact .inr (e3 k hk)
    obtain ⟨r, e1, e2, e3⟩ := key c.refs fun _ h => h
    refine ⟨r.flatten, ?_, e2, e3⟩
    unfold gather
    rw [show c.boundary ++ c.immersed = c.refs from rfl, e1]; rfl

/-- The graph of all cells, or of enough of them. -/
theorem graphOf_ok {rank : Nat → Nat} {cells selected : List GCell} (h : Layered rank cells)
    (hs : ∀ c ∈ selected, c ∈ cells) (hall : ∀ c ∈ cells, c ∉ selected → c.refs = [])
    (hin : ∀ i < cells.length, ∃ j c, cells[j]? = some c ∧ (i ∈ c.refs ∨ j = i ∧ c.refs ≠ [])) :
    ∃ g, graphOf cells selected = .ok g ∧ IsGraph cells g := by
  have key : ∃ r, mapRes (gather cells recursionLimit) selected = .ok r ∧
      (∀ p ∈ r.flatten, ∃ d, cells[p.1]? = some d ∧ p.2 ∈ d.refs) ∧
      ∀ c ∈ selected, ∀ j ∈ c.refs, (c.id, j) ∈ r.flatten := by
    clear hall
    induction selected with
    | nil => exact ⟨[], rfl, by simp, by simp⟩
    | cons c l ih =>
      obtain ⟨r, e1, e2, e3⟩ := ih fun d hd => hs d (List.mem_cons_of_mem _ hd)
      obtain ⟨i, hi⟩ := List.getElem?_of_mem (hs c List.mem_cons_self)
      obtain ⟨s, f1, f2, f3⟩ := gather_ok h recursionLimit i c hi
        (h.low i (List.getElem?_eq_some_iff.1 hi).1)
      rw [mapRes, f1, Res.bind_ok, e1]
      refine ⟨s :: r, rfl, ?_, ?_⟩
      · intro p hp
        rw [List.flatten_cons, List.mem_append] at hp
        exact hp.elim (f2 p) (e2 p)
      · intro d hd j hj
        rw [List.flatten_cons, List.mem_append]
        rcases List.mem_cons.1 hd with rfl | hd
        · rw [h.ids i d hi]
          exact .inl (f3 j hj)
        · exact .inr (e3 d hd j hj)
  obtain ⟨r, e1, e2, e3⟩ := key
  have hedges : ∀ u v, (u, v) ∈ r.flatten ↔ ∃ c, cells[u]? = some c ∧ v ∈ c.refs := by
    intro u v
    refine ⟨e2 (u, v), ?_⟩
    rintro ⟨c, hc, hv⟩
    have hmem : c ∈ selected := by
      by_contra hn
      rw [hall c (List.mem_of_getElem? hc) hn] at hv
      simp at hv
    have := e3 c hmem v hv
    rwa [h.ids u c hc] at this
  refine ⟨DiGraph.ofEdges r.flatten, ?_, ?_, ?_⟩
  · unfold graphOf
    rw [e1]; rfl
  · refine (List.perm_ext_iff_of_nodup (by rw [DiGraph.ofEdges_nodes]; exact nodup_uniq _)
      List.nodup_range).2 fun i => ?_
    rw [DiGraph.mem_ofEdges_nodes, List.mem_range]
    constructor
    · rintro ⟨⟨u, v⟩, hp, hi⟩
      obtain ⟨c, hc, hv⟩ := e2 _ hp
      rcases hi with rfl | rfl
      · exact (List.getElem?_eq_some_iff.1 hc).1
      · exact (h.refs u c hc _ hv).1
    · intro hi
      obtain ⟨j, c, hc, hj | ⟨rfl, hj⟩⟩ := hin i hi
      · exact ⟨(j, i), (hedges j i).2 ⟨c, hc, hj⟩, .inr rfl⟩
      · obtain ⟨v, hv⟩ := List.exists_mem_of_ne_nil _ hj
        exact ⟨(j, v), (hedges j v).2 ⟨c, hc, hv⟩, .inl rfl⟩
  · intro u v
    rw [DiGraph.mem_ofEdges_edges, hedges]

/-- The cells of the graph are all cells. -/
theorem geo_perm {cells : List GCell} {g : DiGraph Nat} (h : IsGraph cells g) :
    ∃ geo, fancy cells g.nodes = .ok geo ∧ geo.Perm cells := by
  obtain ⟨geo, hg⟩ := fancy_ok_of_lt (l := cells) (idx := g.nodes) fun i hi =>
    List.mem_range.1 (h.nodes.mem_iff.1 hi)
  refine ⟨geo, hg, ?_⟩
  have h1 := fancy_iff.1 hg
  have h2 : geo = g.nodes.filterMap fun i => cells[i]? := by
    clear hg
    generalize g.nodes = l at h1
    induction h1 with
    | nil => rfl
    | cons h0 _ ih => rw [List.filterMap_cons, h0, ← ih]
  rw [h2]
  refine (h.nodes.filterMap _).trans (List.Perm.of_eq ?_)
  clear h h1 h2 hg geo
  induction cells using List.reverseRecOn with
  | nil => rfl
  | append_singleton l a ih =>
    rw [List.length_append, List.length_singleton, List.range_succ, List.filterMap_append]
    congr 1
    · conv_rhs => rw [← ih]
      refine List.filterMap_congr fun i hi => ?_
      rw [List.getElem?_append_left (List.mem_range.1 hi)]
    · simp

/-! ### Calls -/

theorem wf_of_refs : ∀ (cs : List (Call P)) {made : List Ent},
    (∀ c ∈ cs, ∀ r ∈ c.refs, r ∈ made) → WellFormed made cs
  | [], _, _ => trivial
  | c :: cs, made, h => ⟨h c List.mem_cons_self, wf_of_refs cs fun d hd r hr =>
      List.mem_append_left _ (h d (List.mem_cons_of_mem _ hd) r hr)⟩

theorem created_append (l l' : List (Call P)) : created (l ++ l') = created l ++ created l' := by
  simp [created]

theorem created_points (points : List P) :
    created (pointCalls points) = (List.range points.length).map fun i => .dim 0 ((i : Int) + 1) := by
  unfold created pointCalls
  rw [List.flatMap_map]
  simp only [Call.creates]
  rw [← List.map_eq_flatMap]
  refine List.ext_getElem (by simp) fun i h1 h2 => by simp

theorem created_nil {cs : List (Call P)} (h : ∀ c ∈ cs, c.creates = []) : created cs = [] := by
  unfold created
  exact List.flatMap_eq_nil_iff.2 h

/-- Errors of the same kind. -/
theorem mapRes_error {α β : Type} {f : α → Res β} {e : Err} : ∀ {l : List α},
    (∀ a ∈ l, (∃ b, f a = .ok b) ∨ f a = .error e) → (∃ a ∈ l, f a = .error e) →
    mapRes f l = .error e
  | [], _, h => by simp at h
  | a :: l, h, h' => by
    rw [mapRes]
    rcases h a List.mem_cons_self with ⟨b, hb⟩ | hb
    · rw [hb, Res.bind_ok, mapRes_error (fun c hc => h c (List.mem_cons_of_mem _ hc))]
      · rfl
      · obtain ⟨c, hc, he⟩ := h'
        rcases List.mem_cons.1 hc with rfl | hc
        · rw [hb] at he; cases he
        · exact ⟨c, hc, he⟩
    · rw [hb]; rfl

theorem ofDim_perm {k : Nat} {l l' : List GCell} (h : l.Perm l') : (ofDim k l).Perm (ofDim k l') :=
  h.filter _

end Verif.Builder
