/-
Helper lemmas for C96: the parts of an edge after the difference and the union.
-/
import Verif.Spec.MdBox
import Verif.Lemmas.DomainUnion
import Verif.Lemmas.DomainOps
import Verif.Lemmas.DomainMarket

namespace Verif.MdBox
open MeshBuild MeshGraph Trace MeshMetrics Geometry VertexOps DomainOps Topology
open scoped Classical

/-- The vertex that replaces a vertex: the tool at its point if there is one. -/
def Replaced (tools : List Vtx) (w w' : Vtx) : Prop :=
  (w' ∈ tools ∧ w'.point = w.point) ∨ (w' = w ∧ ∀ t ∈ tools, t.point ≠ w.point)

theorem chain_index {tools : List Vtx} {e : Edg} {chain : List (Pt ℝ)}
    (hc : VertexOps.IsChain tools e chain) {i j : Nat} {x : Pt ℝ} (hi : chain[i]? = some x)
    (hj : chain[j]? = some x) : i = j := by
  obtain ⟨hi', rfl⟩ := List.getElem?_eq_some_iff.1 hi
  obtain ⟨hj', hij⟩ := List.getElem?_eq_some_iff.1 hj
  have hp := List.pairwise_iff_getElem.1 hc.ordered
  rcases Nat.lt_trichotomy i j with h | h | h
  · have := hp i j hi' hj' h
    rw [hij] at this
    exact absurd this (lt_irrefl _)
  · exact h
  · have := hp j i hj' hi' h
    rw [hij] at this
    exact absurd this (lt_irrefl _)

theorem finalAt_tool {tools : List Vtx} {e : Edg} {w : Vtx}
    (hone : ∀ v ∈ tools, ∀ w ∈ tools, v.point = w.point → v = w) (hw : w ∈ tools) :
    finalAt tools e w.point = w := by
  unfold finalAt
  cases h : tools.find? fun t => t.point = w.point with
  | none => simpa using List.find?_eq_none.1 h w hw
  | some t =>
    exact hone t (List.mem_of_find?_eq_some h) w hw (by simpa using List.find?_some h)

theorem finalAt_old {tools : List Vtx} {e : Edg} {x : Pt ℝ} (h : ∀ t ∈ tools, t.point ≠ x) :
    finalAt tools e x = if x = e.first.point then e.first else e.second := by
  unfold finalAt
  rw [List.find?_eq_none.2 (by simpa using h)]
  rfl

theorem finalAt_first (tools : List Vtx) (e : Edg) :
    finalAt tools e e.first.point = final tools e.first := by simp [finalAt, final]

theorem finalAt_second (tools : List Vtx) {e : Edg} (hne : e.first.point ≠ e.second.point) :
    finalAt tools e e.second.point = final tools e.second := by
  simp [finalAt, final, Ne.symm hne]

theorem final_point (tools : List Vtx) (v : Vtx) : (final tools v).point = v.point := by
  unfold final
  cases h : tools.find? fun t => t.point = v.point with
  | none => rfl
  | some t => simpa using List.find?_some h

theorem final_old {tools : List Vtx} {v : Vtx} (h : ∀ t ∈ tools, t.point ≠ v.point) :
    final tools v = v := by
  unfold final
  rw [List.find?_eq_none.2 (by simpa using h)]
  rfl

theorem final_mem (tools : List Vtx) (v : Vtx) : final tools v ∈ tools ∨ final tools v = v := by
  unfold final
  cases h : tools.find? fun t => t.point = v.point with
  | none => exact Or.inr rfl
  | some t => exact Or.inl (List.mem_of_find?_eq_some h)

theorem finalAt_mem {tools : List Vtx} {e : Edg} (x : Pt ℝ) :
    finalAt tools e x ∈ tools ∨ finalAt tools e x = e.first ∨ finalAt tools e x = e.second := by
  unfold finalAt
  cases h : tools.find? fun t => t.point = x with
  | none => right; simp only [Option.getD_none]; split <;> simp
  | some t => exact Or.inl (List.mem_of_find?_eq_some h)

theorem finalAt_point {tools : List Vtx} {e : Edg} {chain : List (Pt ℝ)}
    (hc : VertexOps.IsChain tools e chain) {x : Pt ℝ} (hx : x ∈ chain) :
    (finalAt tools e x).point = x := by
  unfold finalAt
  cases h : tools.find? fun t => t.point = x with
  | none =>
    have hno : ∀ t ∈ tools, t.point ≠ x := by simpa using h
    simp only [Option.getD_none]
    rcases (hc.mem x).1 hx with rfl | rfl | ⟨v, hv, rfl⟩
    · simp
    · split
      · rename_i h; exact h.symm
      · rfl
    · exact absurd rfl (hno v hv.1)
  | some t => simpa using List.find?_some h

theorem sortByTag_two (v w : Vtx) : sortByTag [v, w] = [v, w] ∨ sortByTag [v, w] = [w, v] := by
  simp only [sortByTag, List.insertionSort, List.foldr, List.orderedInsert]
  split <;> simp

theorem sortByTag_pair {v w : Vtx} (h : v.tag < w.tag) :
    sortByTag [v, w] = [v, w] ∧ sortByTag [w, v] = [v, w] := by
  simp only [sortByTag, List.insertionSort, List.foldr, List.orderedInsert]
  constructor
  · rw [if_pos h.le]
  · rw [if_neg (by omega)]

/-- An edge without tools on it is a chain of two points. -/
theorem chain_whole {tools : List Vtx} {e : Edg} (hne : e.first.point ≠ e.second.point)
    (hno : ¬ ∃ v, OnEdge tools e v) :
    VertexOps.IsChain tools e [e.first.point, e.second.point] := by
  refine ⟨rfl, rfl, ?_, ?_⟩
  · intro x
    constructor
    · intro h
      simp only [List.mem_cons, List.not_mem_nil, or_false] at h
      tauto
    · rintro (rfl | rfl | ⟨v, hv, rfl⟩)
      · simp
      · simp
      · exact absurd ⟨v, hv⟩ hno
  · simp only [List.pairwise_cons, List.mem_singleton, forall_eq, List.not_mem_nil, false_imp_iff,
      implies_true, List.Pairwise.nil, and_true]
    rw [sub_self, show norm3 (0 : Pt ℝ) = 0 from norm3_eq_zero.2 rfl]
    refine lt_of_le_of_ne (norm3_nonneg _) fun h => ?_
    exact hne (sub_eq_zero.1 (norm3_eq_zero.1 h.symm)).symm

/-- The parts of an edge with their ends replaced, in order along the edge. -/
theorem parts_chain {tools : List Vtx} {e : Edg} {r : Edg × List Edg × List Vtx} {M : Vtx → Vtx}
    (hr : IsResult tools e r) (hne : e.first.point ≠ e.second.point)
    (hone : ∀ v ∈ tools, ∀ w ∈ tools, v.point = w.point → v = w)
    (hM : ∀ p ∈ parts r, ∀ w, Edg.Ends p w → Replaced tools w (M w)) :
    ∃ chain, VertexOps.IsChain tools e chain ∧ (parts r).length + 1 = chain.length ∧
      ∀ (i : Nat) p, (parts r)[i]? = some p → p.physical = e.physical ∧
        ∃ x y, chain[i]? = some x ∧ chain[i + 1]? = some y ∧
          ((M p.first = finalAt tools e x ∧ M p.second = finalAt tools e y) ∨
            (M p.first = finalAt tools e y ∧ M p.second = finalAt tools e x)) := by
  obtain ⟨rfl, ⟨hno, h1, h2⟩ | ⟨-, start, chain, hc, hs⟩⟩ := hr
  · have ep : parts r = [r.1] := by simp [parts, h1, h2]
    rw [ep] at hM ⊢
    refine ⟨_, chain_whole hne hno, rfl, ?_⟩
    intro i p hp
    have h0 : i = 0 := by
      have := (List.getElem?_eq_some_iff.1 hp).1
      simp at this
      exact this
    subst h0
    simp only [List.getElem?_cons_zero, Option.some.injEq] at hp
    subst hp
    refine ⟨rfl, _, _, rfl, rfl, Or.inl ⟨?_, ?_⟩⟩
    · rcases hM r.1 (by simp) _ (Or.inl rfl) with ⟨a, b⟩ | ⟨a, b⟩
      · rw [← b, finalAt_tool hone a]
      · rw [a, finalAt_old b, if_pos rfl]
    · rcases hM r.1 (by simp) _ (Or.inr rfl) with ⟨a, b⟩ | ⟨a, b⟩
      · rw [← b, finalAt_tool hone a]
      · rw [a, finalAt_old b, if_neg (Ne.symm hne)]
  · have hpos := splitting_pos hc hs hne
    have ep : parts r = r.2.1 := by simp [parts, Nat.ne_of_gt hpos]
    rw [ep] at hM ⊢
    refine ⟨chain, hc, hs.count, ?_⟩
    intro i p hp
    obtain ⟨hph, v, w, hv, hw, hx, hy, hvw⟩ := hs.joined i p hp
    have hil : i < r.2.1.length := (List.getElem?_eq_some_iff.1 hp).1
    have hfirst : chain[0]? = some r.1.first.point := by
      rw [← List.head?_eq_getElem?]; exact hc.first
    have hlast : chain[r.2.1.length]? = some r.1.second.point := by
      rw [← hc.last, List.getLast?_eq_getElem?, ← hs.count]; rfl
    obtain ⟨v0, hv0, hv0'⟩ := hs.startV
    obtain ⟨v1, hv1, hv1'⟩ := hs.endV
    rw [List.head?_eq_getElem?] at hv0
    rw [List.getLast?_eq_getElem?, hs.size] at hv1
    have key1 : (∀ t ∈ tools, t.point ≠ v.point) →
        v = if v.point = r.1.first.point then r.1.first else r.1.second := by
      intro hno
      rcases (hc.mem v.point).1 (List.mem_of_getElem? hx) with h | h | ⟨t, ht, h⟩
      · rw [if_pos h]
        rw [h] at hx
        have h0 := chain_index hc hx hfirst
        subst h0
        rw [Nat.mul_zero, hv0, Option.some.injEq] at hv
        rw [IsEnd, if_neg (by rintro ⟨t, ht, h'⟩; exact hno t ht (h'.trans h.symm))] at hv0'
        rw [← hv, hv0'.2]
      · rw [h] at hx
        have h0 := chain_index hc hx hlast
        omega
      · exact absurd h (hno t ht.1)
    have key2 : (∀ t ∈ tools, t.point ≠ w.point) →
        w = if w.point = r.1.first.point then r.1.first else r.1.second := by
      intro hno
      rcases (hc.mem w.point).1 (List.mem_of_getElem? hy) with h | h | ⟨t, ht, h⟩
      · rw [h] at hy
        have h0 := chain_index hc hy hfirst
        omega
      · rw [if_neg (by rw [h]; exact Ne.symm hne)]
        rw [h] at hy
        have h0 := chain_index hc hy hlast
        rw [show 2 * r.2.1.length - 1 = 2 * i + 1 by omega, hw, Option.some.injEq] at hv1
        rw [IsEnd, if_neg (by rintro ⟨t, ht, h'⟩; exact hno t ht (h'.trans h.symm))] at hv1'
        rw [hv1, hv1'.2]
      · exact absurd h (hno t ht.1)
    have fv : ∀ z, Edg.Ends p z → z = v → M z = finalAt tools r.1 v.point := by
      rintro z hz rfl
      rcases hM p (List.mem_of_getElem? hp) z hz with ⟨a, b⟩ | ⟨a, b⟩
      · rw [← b, finalAt_tool hone a]
      · rw [a, finalAt_old b]; exact key1 b
    have fw : ∀ z, Edg.Ends p z → z = w → M z = finalAt tools r.1 w.point := by
      rintro z hz rfl
      rcases hM p (List.mem_of_getElem? hp) z hz with ⟨a, b⟩ | ⟨a, b⟩
      · rw [← b, finalAt_tool hone a]
      · rw [a, finalAt_old b]; exact key2 b
    refine ⟨hph, _, _, hx, hy, ?_⟩
    rcases hvw with ⟨a, b⟩ | ⟨a, b⟩
    · exact Or.inl ⟨fv _ (Or.inl rfl) a, fw _ (Or.inr rfl) b⟩
    · exact Or.inr ⟨fw _ (Or.inl rfl) a, fv _ (Or.inr rfl) b⟩

/-- The parts of an edge after the union, in order along the edge. -/
structure IsParts (tools : List Vtx) (e : Edg) (chain : List (Pt ℝ)) (us : List UEdge) : Prop where
  isChain : VertexOps.IsChain tools e chain
  length : us.length + 1 = chain.length
  part : ∀ (i : Nat) u, us[i]? = some u → u.physical = e.physical ∧
    (u.boundary.map Vtx.tag).Pairwise (· ≤ ·) ∧ ∃ x y, chain[i]? = some x ∧
      chain[i + 1]? = some y ∧ (u.boundary = [finalAt tools e x, finalAt tools e y] ∨
        u.boundary = [finalAt tools e y, finalAt tools e x])

theorem sortByTag_sorted (l : List Vtx) : ((sortByTag l).map Vtx.tag).Pairwise (· ≤ ·) := by
  rw [List.pairwise_map]
  unfold sortByTag
  have : Std.Total fun v w : Vtx => v.tag ≤ w.tag := ⟨fun a b => le_total _ _⟩
  have : IsTrans Vtx fun v w : Vtx => v.tag ≤ w.tag := ⟨fun a b c h h' => le_trans h h'⟩
  exact List.pairwise_insertionSort _ _

theorem parts_of_union {tools : List Vtx} {e : Edg} {r : Edg × List Edg × List Vtx} {M : Vtx → Vtx}
    (hr : IsResult tools e r) (hne : e.first.point ≠ e.second.point)
    (hone : ∀ v ∈ tools, ∀ w ∈ tools, v.point = w.point → v = w)
    (hM : ∀ p ∈ parts r, ∀ w, Edg.Ends p w → Replaced tools w (M w)) {us : List UEdge}
    (hu : List.Forall₂ (fun e u => u.tag = e.tag ∧ u.physical = e.physical ∧
      u.boundary = sortByTag [M e.first, M e.second]) (parts r) us) :
    ∃ chain, IsParts tools e chain us := by
  obtain ⟨chain, hc, hl, hp⟩ := parts_chain hr hne hone hM
  refine ⟨chain, hc, by rw [← hu.length_eq]; exact hl, ?_⟩
  intro i u hi
  have hi' : i < us.length := (List.getElem?_eq_some_iff.1 hi).1
  have hi'' : i < (parts r).length := by rw [hu.length_eq]; exact hi'
  have h1 := List.Forall₂.get hu hi'' hi'
  simp only [List.get_eq_getElem] at h1
  rw [List.getElem?_eq_getElem hi', Option.some.injEq] at hi
  rw [hi] at h1
  obtain ⟨-, h2, h3⟩ := h1
  obtain ⟨h4, x, y, hx, hy, h5⟩ := hp i _ (List.getElem?_eq_getElem hi'')
  refine ⟨h2.trans h4, by rw [h3]; exact sortByTag_sorted _, x, y, hx, hy, ?_⟩
  rw [h3]
  rcases h5 with ⟨a, b⟩ | ⟨a, b⟩ <;> rw [a, b]
  · exact sortByTag_two _ _
  · exact (sortByTag_two _ _).symm

/-- Increasing values are in order already. -/
theorem argsort_sorted {argsort : List ℝ → List Nat} (hs : Fracture.IsArgsort argsort) {l : List ℝ}
    (h : l.Pairwise (· < ·)) : argsort l = List.range l.length := by
  obtain ⟨h1, h2⟩ := hs l
  have hp := List.pairwise_iff_getElem.1 h
  refine h1.eq_of_pairwise (le := (· ≤ ·)) (fun a b _ _ h h' => Nat.le_antisymm h h') ?_
    (List.pairwise_le_range (n := l.length))
  have hm : ∀ i ∈ argsort l, i < l.length := fun i hi => List.mem_range.1 (h1.subset hi)
  refine (List.pairwise_iff_forall_sublist.2 fun {i j} hij => ?_)
  have hi := hm i (hij.subset (by simp))
  have hj := hm j (hij.subset (by simp))
  have := List.pairwise_iff_forall_sublist.1 h2 hij _ _ (List.getElem?_eq_getElem hi)
    (List.getElem?_eq_getElem hj)
  by_contra hlt
  exact absurd (hp j i hj hi (by omega)) (not_lt.2 this)

theorem fancy_range {α : Type} (l : List α) : fancy l (List.range l.length) = .ok l := by
  rw [fancy_iff, List.forall₂_iff_get]
  refine ⟨by simp, fun i h1 h2 => ?_⟩
  simp only [List.get_eq_getElem, List.getElem_range]
  exact List.getElem?_eq_getElem h2

theorem parts_middle {tools : List Vtx} {e : Edg} {chain : List (Pt ℝ)} {us : List UEdge}
    (h : IsParts tools e chain us) {i : Nat} {u : UEdge} (hu : us[i]? = some u) :
    ∃ x y, chain[i]? = some x ∧ chain[i + 1]? = some y ∧
      middle u = .ok ((1 / 2 : ℝ) • (x + y)) := by
  obtain ⟨-, -, x, y, hx, hy, hb⟩ := h.part i u hu
  refine ⟨x, y, hx, hy, ?_⟩
  have px := finalAt_point h.isChain (List.mem_of_getElem? hx)
  have py := finalAt_point h.isChain (List.mem_of_getElem? hy)
  unfold middle
  rcases hb with hb | hb <;> rw [hb] <;> simp [px, py, Res.pure_eq, add_comm]

theorem middle_on {tools : List Vtx} {e : Edg} {chain : List (Pt ℝ)} {us : List UEdge}
    (hne : e.first.point ≠ e.second.point) (h : IsParts tools e chain us) {u : UEdge}
    (hu : u ∈ us) : ∃ m, middle u = .ok m ∧ m ∈ DomainOps.points e := by
  obtain ⟨i, hi⟩ := List.mem_iff_getElem?.1 hu
  obtain ⟨x, y, hx, hy, hm⟩ := parts_middle h hi
  refine ⟨_, hm, ?_⟩
  have mx := mem_chain_points h.isChain (List.mem_of_getElem? hx)
  have my := mem_chain_points h.isChain (List.mem_of_getElem? hy)
  have := (convex_segment (𝕜 := ℝ) e.first.point e.second.point) mx my
    (a := 1 / 2) (b := 1 / 2) (by norm_num) (by norm_num) (by norm_num)
  rwa [smul_add]

/-- The distances of the middles from the first end increase. -/
theorem middle_lt {tools : List Vtx} {e : Edg} {chain : List (Pt ℝ)} {us : List UEdge}
    (hne : e.first.point ≠ e.second.point) (h : IsParts tools e chain us) {i j : Nat} {u u' : UEdge}
    (hu : us[i]? = some u) (hu' : us[j]? = some u') (hij : i < j) {m m' : Pt ℝ}
    (hm : middle u = .ok m) (hm' : middle u' = .ok m') :
    norm3 (m - e.first.point) < norm3 (m' - e.first.point) := by
  obtain ⟨x, y, hx, hy, e1⟩ := parts_middle h hu
  obtain ⟨x', y', hx', hy', e2⟩ := parts_middle h hu'
  rw [e1] at hm
  rw [e2] at hm'
  cases hm
  cases hm'
  have hd : 0 < norm3 (e.second.point - e.first.point) := by
    refine lt_of_le_of_ne (norm3_nonneg _) fun h => ?_
    exact hne (sub_eq_zero.1 (norm3_eq_zero.1 h.symm)).symm
  have key : ∀ {x y : Pt ℝ}, x ∈ chain → y ∈ chain →
      norm3 ((1 / 2 : ℝ) • (x + y) - e.first.point) =
        (param e x + param e y) / 2 * norm3 (e.second.point - e.first.point) := by
    intro x y hx hy
    obtain ⟨x0, -, ex⟩ := param_spec hne (mem_chain_points h.isChain hx)
    obtain ⟨y0, -, ey⟩ := param_spec hne (mem_chain_points h.isChain hy)
    refine dist_on (by linarith) ?_
    generalize param e x = s at *
    generalize param e y = t at *
    rw [ex, ey]
    module
  rw [key (List.mem_of_getElem? hx) (List.mem_of_getElem? hy),
    key (List.mem_of_getElem? hx') (List.mem_of_getElem? hy')]
  refine mul_lt_mul_of_pos_right ?_ hd
  have h1 := param_lt hne h.isChain hx hx' hij
  have h2 := param_lt hne h.isChain hy hy' (by omega : i + 1 < j + 1)
  linarith

/-- Sorting the parts of a side along the side keeps them in order. -/
theorem sideEdges_parts {E : Env} {tools : List Vtx} {e : Edg} {chain : List (Pt ℝ)}
    {edges us : List UEdge} (hs : Fracture.IsArgsort E.P.argsort)
    (hne : e.first.point ≠ e.second.point) (h : IsParts tools e chain us)
    (hf : (edges.filter fun u => u.physical = e.physical) = us) (hus : us ≠ []) :
    sideEdges E edges e = .ok us := by
  have hm : ∀ u ∈ us, ∃ m, middle u = .ok m := fun u hu => by
    obtain ⟨m, hm, -⟩ := middle_on hne h hu
    exact ⟨m, hm⟩
  obtain ⟨ms, hms⟩ : ∃ ms, mapRes middle us = .ok ms := by
    choose! g hg using hm
    exact ⟨_, mapRes_ok_of hg⟩
  have hf2 := (mapRes_iff).1 hms
  have hlen := hf2.length_eq
  unfold sideEdges
  simp only [hf, hms, Res.bind_ok, hus, if_false]
  rw [argsort_sorted hs, List.length_map, ← hlen, fancy_range]
  rw [List.pairwise_map, List.pairwise_iff_getElem]
  intro i j hi hj hij
  have gi := List.Forall₂.get hf2 (by omega : i < us.length) hi
  have gj := List.Forall₂.get hf2 (by omega : j < us.length) hj
  exact middle_lt hne h (List.getElem?_eq_getElem (by omega)) (List.getElem?_eq_getElem (by omega))
    hij gi gj

end Verif.MdBox
