/-
Lemmas for C100: the intersection of edges.
-/
import Verif.Spec.IntersectEdges
import Verif.Props.EmbedVertex
import Verif.Props.TriangleTest

namespace Verif.VertexOps
open MeshBuild MeshGraph Trace MeshMetrics Geometry
open scoped Classical

/-! ### The crossings -/

theorem tested_spec {pos : Fin 3 × Fin 3} {n : Pt ℝ} (hn : Keeps pos n) {h : ℝ} {e f : LEdge}
    (he : dot n e.first.point = h ∧ dot n e.second.point = h)
    (hf : dot n f.first.point = h ∧ dot n f.second.point = h) (ht : Tested pos e f) :
    (∀ x, x ∈ e.span → x ∈ f.span →
      lineLineTest (1 / 10 ^ 12) pos e.first.point e.second.point f.first.point f.second.point = some (x, none)) ∧
    ((∀ x, ¬ (x ∈ e.span ∧ x ∈ f.span)) →
      lineLineTest (1 / 10 ^ 12) pos e.first.point e.second.point f.first.point f.second.point = none) := by
  rcases ht with hd | ⟨h0, h1, h2⟩
  · exact C52_test_exact (by positivity) hn he.1 he.2 hf.1 hf.2 hd
  · have hnone : lineLineTest (1 / 10 ^ 12) pos e.first.point e.second.point f.first.point f.second.point = none := by
      unfold lineLineTest
      simp only
      rw [if_pos (by rw [h0, abs_zero]; positivity), if_pos ⟨not_lt.2 h1, not_lt.2 h2⟩]
    refine ⟨fun x hx hx' => ?_, fun _ => hnone⟩
    exfalso
    obtain ⟨t, -, -, et⟩ := mem_segment_iff.1 hx
    obtain ⟨s, -, -, es⟩ := mem_segment_iff.1 hx'
    have e1 := congrFun (et.symm.trans es) pos.1
    have e2 := congrFun (et.symm.trans es) pos.2
    have : colinearTest pos e.first.point e.second.point f.first.point = 0 := by
      unfold colinearTest
      have : det2 (proj pos (e.first.point - f.first.point)) (proj pos (e.second.point - f.first.point)) = 0 := by
        simp only [det2, proj, Pi.sub_apply, Prod.fst_sub, Prod.snd_sub, Pi.add_apply, Pi.smul_apply,
          smul_eq_mul] at *
        linear_combination -s * h0 + (e.second.point pos.2 - e.first.point pos.2) * e1 -
          (e.second.point pos.1 - e.first.point pos.1) * e2
      simp [this]
    rw [this, abs_zero] at h1
    norm_num at h1

theorem linked_symm {e f : LEdge} {z : Pt ℝ} (h : Linked e f z) : Linked f e z := by
  obtain ⟨v, hv, w, hw, h1, h2, h3⟩ := h
  exact ⟨w, hw, v, hv, h2, h1, h3.symm⟩

theorem endAt_iff {e : LEdge} {z : Pt ℝ} (h : Separated [⟨0, none, z⟩] e.first.point e.second.point) {v : Vtx} :
    endAt z e = some v ↔ v ∈ [e.first, e.second] ∧ v.point = z := by
  unfold endAt
  have c1 := h.first ⟨0, none, z⟩ (by simp)
  have c2 := h.second ⟨0, none, z⟩ (by simp)
  simp only at c1 c2
  by_cases h1 : z = e.first.point
  · rw [if_pos (by rw [h1]; exact close_self _)]
    constructor
    · intro e
      obtain rfl := Option.some.inj e
      exact ⟨by simp, h1.symm⟩
    · rintro ⟨hv, hz⟩
      simp only [List.mem_cons, List.not_mem_nil, or_false] at hv
      rcases hv with rfl | rfl
      · rfl
      · exact absurd (h1.symm.trans hz.symm) h.ne
  · rw [if_neg (c1 h1)]
    by_cases h2 : z = e.second.point
    · rw [if_pos (by rw [h2]; exact close_self _)]
      constructor
      · intro e
        obtain rfl := Option.some.inj e
        exact ⟨by simp, h2.symm⟩
      · rintro ⟨hv, hz⟩
        simp only [List.mem_cons, List.not_mem_nil, or_false] at hv
        rcases hv with rfl | rfl
        · exact absurd hz.symm h1
        · rfl
    · rw [if_neg (c2 h2)]
      refine ⟨fun e => (by simp at e), ?_⟩
      rintro ⟨hv, hz⟩
      simp only [List.mem_cons, List.not_mem_nil, or_false] at hv
      rcases hv with rfl | rfl
      · exact absurd hz.symm h1
      · exact absurd hz.symm h2

theorem mem_numbered {items : List Item} {i : Nat} {e : LEdge} :
    (i, e) ∈ numbered items ↔ items[i]? = some (some e) := by
  unfold numbered
  rw [List.mem_filterMap]
  constructor
  · rintro ⟨⟨x, k⟩, hx, h⟩
    have hx := List.mk_mem_zipIdx_iff_getElem?.1 hx
    cases x with
    | none => simp at h
    | some f =>
      simp only [Option.map_some, Option.some.injEq, Prod.mk.injEq] at h
      rw [← h.1, ← h.2]
      exact hx
  · intro h
    exact ⟨(some e, i), List.mk_mem_zipIdx_iff_getElem?.2 h, rfl⟩

theorem mem_edgePairs {items : List Item} {x : (Nat × LEdge) × (Nat × LEdge)} :
    x ∈ edgePairs items ↔ items[x.1.1]? = some (some x.1.2) ∧ items[x.2.1]? = some (some x.2.2) ∧ x.1.1 < x.2.1 := by
  obtain ⟨⟨i, e⟩, ⟨j, f⟩⟩ := x
  unfold edgePairs
  rw [List.mem_flatMap]
  constructor
  · rintro ⟨y, hy, h⟩
    obtain ⟨w, hw, h⟩ := List.mem_map.1 h
    have hlt := (List.mem_filter.1 hw).2
    have hw := (List.mem_filter.1 hw).1
    obtain ⟨h1, h2⟩ := Prod.mk.inj h
    rw [h1] at hy hlt
    rw [h2] at hw hlt
    exact ⟨mem_numbered.1 hy, mem_numbered.1 hw, of_decide_eq_true hlt⟩
  · rintro ⟨h1, h2, h3⟩
    exact ⟨(i, e), mem_numbered.2 h1, List.mem_map.2 ⟨(j, f), List.mem_filter.2 ⟨mem_numbered.2 h2,
      decide_eq_true h3⟩, rfl⟩⟩

section
variable {pos : Fin 3 × Fin 3} {items : List Item} (hD : Drawing pos items)
include hD

theorem crossing_iff {x : (Nat × LEdge) × (Nat × LEdge)} (hx : x ∈ edgePairs items) {p : Pt ℝ} :
    crossing pos x = some p ↔ p ∈ x.1.2.span ∧ p ∈ x.2.2.span ∧ ¬ Linked x.1.2 x.2.2 p := by
  obtain ⟨h1, h2, h3⟩ := mem_edgePairs.1 hx
  obtain ⟨⟨i, e⟩, ⟨j, f⟩⟩ := x
  simp only at h1 h2 h3 ⊢
  obtain ⟨n, h, hn, hpl⟩ := hD.plane
  obtain ⟨t1, t2⟩ := tested_spec hn (hpl e (List.mem_of_getElem? h1)) (hpl f (List.mem_of_getElem? h2))
    (hD.tested i j e f h3 h1 h2)
  by_cases hc : ∃ z, z ∈ e.span ∧ z ∈ f.span
  · obtain ⟨z, hz1, hz2⟩ := hc
    have ht := t1 z hz1 hz2
    have uniq : ∀ p, p ∈ e.span → p ∈ f.span → p = z := by
      intro p hp1 hp2
      have := t1 p hp1 hp2
      rw [ht] at this
      exact (Prod.mk.inj (Option.some.inj this)).1.symm
    have s1 := hD.clear i e z h1 ⟨e, j, f, h1, h2, h3.ne', hz1, hz2⟩
    have s2 := hD.clear j f z h2 ⟨f, i, e, h2, h1, h3.ne, hz2, hz1⟩
    have key : crossing pos ((i, e), (j, f)) = if Linked e f z then none else some z := by
      unfold crossing
      simp only
      rw [ht]
      simp only
      cases hv : endAt z e with
      | none =>
        simp only
        rw [if_neg]
        rintro ⟨v, hv', w, hw', p1, p2, -⟩
        rw [(endAt_iff s1).2 ⟨hv', p1⟩] at hv
        simp at hv
      | some v =>
        cases hw : endAt z f with
        | none =>
          simp only
          rw [if_neg]
          rintro ⟨v, hv', w, hw', p1, p2, -⟩
          rw [(endAt_iff s2).2 ⟨hw', p2⟩] at hw
          simp at hw
        | some w =>
          simp only
          have a1 := (endAt_iff s1).1 hv
          have a2 := (endAt_iff s2).1 hw
          by_cases hl : Linked e f z
          · rw [if_pos hl, if_pos]
            obtain ⟨v', hv', w', hw', p1, p2, p3⟩ := hl
            have b1 := (endAt_iff s1).2 ⟨hv', p1⟩
            have b2 := (endAt_iff s2).2 ⟨hw', p2⟩
            rw [hv] at b1
            rw [hw] at b2
            obtain rfl := Option.some.inj b1
            obtain rfl := Option.some.inj b2
            exact ⟨p3, by rw [p1, p2]; exact close_self _⟩
          · rw [if_neg hl, if_neg]
            rintro ⟨q, -⟩
            exact hl ⟨v, a1.1, w, a2.1, a1.2, a2.2, q⟩
    rw [key]
    constructor
    · intro h
      split_ifs at h with hl
      obtain rfl := Option.some.inj h
      exact ⟨hz1, hz2, hl⟩
    · rintro ⟨p1, p2, p3⟩
      obtain rfl := uniq p p1 p2
      rw [if_neg p3]
  · have ht := t2 fun z hz => hc ⟨z, hz⟩
    have : crossing pos ((i, e), (j, f)) = none := by
      unfold crossing
      simp only
      rw [ht]
    rw [this]
    refine ⟨fun h => (by simp at h), fun h => absurd ⟨p, h.1, h.2.1⟩ hc⟩

/-- The rows are the crossings. -/
theorem rows_eq : ∀ (todo : List ((Nat × LEdge) × (Nat × LEdge))) (rows : List Row),
    (∀ x ∈ todo, x ∈ edgePairs items) → (∀ r ∈ rows, ∃ i, CutAt items i r.1) →
    todo.foldl (rowStep pos) rows = rows ++ todo.filterMap fun x => (crossing pos x).map fun p => (p, (x.1.1, x.2.1))
  | [], rows, _, _ => by simp
  | x :: todo, rows, h1, h2 => by
    rw [List.foldl_cons]
    have hx := h1 x (by simp)
    obtain ⟨m1, m2, m3⟩ := mem_edgePairs.1 hx
    cases hc : crossing pos x with
    | none =>
      rw [List.filterMap_cons, hc, show rowStep pos rows x = rows by unfold rowStep; rw [hc]]
      exact rows_eq todo rows (fun y hy => h1 y (by simp [hy])) h2
    | some p =>
      obtain ⟨p1, p2, p3⟩ := (crossing_iff hD hx).1 hc
      have hcut : CutAt items x.1.1 p := ⟨x.1.2, x.2.1, x.2.2, m1, m2, m3.ne', p1, p2, p3⟩
      have hstep : rowStep pos rows x = rows ++ [(p, (x.1.1, x.2.1))] := by
        unfold rowStep
        rw [hc]
        simp only
        cases hf : rows.find? fun r => decide (DefaultClose p r.1) with
        | none => rfl
        | some r =>
          have hcl : DefaultClose p r.1 := by simpa using List.find?_some hf
          obtain ⟨i, hi⟩ := h2 r (List.mem_of_find?_eq_some hf)
          simp only
          rw [hD.apart _ _ p r.1 hcut hi hcl]
      rw [hstep, rows_eq todo _ (fun y hy => h1 y (by simp [hy])), List.filterMap_cons, hc]
      · simp
      · intro r hr
        rcases List.mem_append.1 hr with hr | hr
        · exact h2 r hr
        · rw [List.mem_singleton.1 hr]
          exact ⟨_, hcut⟩

theorem mem_rows {r : Row} : r ∈ (edgePairs items).foldl (rowStep pos) [] ↔
    ∃ e f, items[r.2.1]? = some (some e) ∧ items[r.2.2]? = some (some f) ∧ r.2.1 < r.2.2 ∧ r.1 ∈ e.span ∧
      r.1 ∈ f.span ∧ ¬ Linked e f r.1 := by
  rw [rows_eq hD _ [] (fun x hx => hx) (by simp), List.nil_append, List.mem_filterMap]
  constructor
  · rintro ⟨x, hx, h⟩
    obtain ⟨m1, m2, m3⟩ := mem_edgePairs.1 hx
    obtain ⟨p, hp, rfl⟩ := Option.map_eq_some_iff.1 h
    obtain ⟨p1, p2, p3⟩ := (crossing_iff hD hx).1 hp
    exact ⟨x.1.2, x.2.2, m1, m2, m3, p1, p2, p3⟩
  · rintro ⟨e, f, m1, m2, m3, p1, p2, p3⟩
    refine ⟨((r.2.1, e), (r.2.2, f)), mem_edgePairs.2 ⟨m1, m2, m3⟩, ?_⟩
    rw [(crossing_iff hD (mem_edgePairs.2 ⟨m1, m2, m3⟩)).2 ⟨p1, p2, p3⟩]
    rfl

/-- The rows of an edge are where it is cut. -/
theorem cutAt_iff {i : Nat} {z : Pt ℝ} : CutAt items i z ↔
    ∃ r ∈ (edgePairs items).foldl (rowStep pos) [], (r.2.1 = i ∨ r.2.2 = i) ∧ r.1 = z := by
  constructor
  · rintro ⟨e, j, f, h1, h2, h3, p1, p2, p3⟩
    rcases lt_or_gt_of_ne h3 with h | h
    · exact ⟨(z, (j, i)), (mem_rows hD).2 ⟨f, e, h2, h1, h, p2, p1, fun h => p3 (linked_symm h)⟩, Or.inr rfl, rfl⟩
    · exact ⟨(z, (i, j)), (mem_rows hD).2 ⟨e, f, h1, h2, h, p1, p2, p3⟩, Or.inl rfl, rfl⟩
  · rintro ⟨r, hr, hi, rfl⟩
    obtain ⟨e, f, h1, h2, h3, p1, p2, p3⟩ := (mem_rows hD).1 hr
    rcases hi with rfl | rfl
    · exact ⟨e, _, f, h1, h2, h3.ne', p1, p2, p3⟩
    · exact ⟨f, _, e, h2, h1, h3.ne, p2, p1, fun h => p3 (linked_symm h)⟩

end

/-! ### The new vertices -/

theorem mem_uniquePoints {points : List (Pt ℝ)} {p : Pt ℝ} : p ∈ uniquePoints points ↔ p ∈ points := by
  unfold uniquePoints
  simp only [List.mem_map, mem_unique]
  constructor
  · rintro ⟨v, hv, rfl⟩
    obtain ⟨q, hq, rfl⟩ := List.mem_map.1 hv.mem
    exact hq
  · intro h
    obtain ⟨w, h1, h2⟩ := exists_first (vs := points.map fun p => (⟨0, none, p⟩ : Vtx)) (List.mem_map.2 ⟨p, h, rfl⟩)
    exact ⟨w, h1, h2⟩

theorem uniquePoints_once (points : List (Pt ℝ)) : (uniquePoints points).Pairwise fun p q => LexLe p q ∧ p ≠ q := by
  unfold uniquePoints
  rw [List.pairwise_map]
  exact unique_once _

theorem newVertices_map (vtag ptag : Int) (points : List (Pt ℝ)) :
    (newVertices vtag ptag points).map Vtx.point = points ∧
    (newVertices vtag ptag points).map Vtx.tag = consec vtag points.length ∧
    (newVertices vtag ptag points).map Vtx.physical = (consec (ptag + 1) points.length).map some := by
  refine ⟨?_, ?_, ?_⟩ <;> refine List.ext_getElem (by simp [newVertices, consec]) fun i h1 h2 => ?_
  all_goals simp [newVertices, consec]

/-! ### The loop over the edges -/

theorem mapRes_total {α β : Type} {f : α → Res β} : ∀ {l : List α}, (∀ a ∈ l, ∃ b, f a = .ok b) →
    ∃ r, mapRes f l = .ok r ∧ ∀ b, b ∈ r ↔ ∃ a ∈ l, f a = .ok b
  | [], _ => ⟨[], rfl, by simp⟩
  | a :: l, h => by
    obtain ⟨b, hb⟩ := h a (by simp)
    obtain ⟨r, hr, hm⟩ := mapRes_total (l := l) fun x hx => h x (by simp [hx])
    refine ⟨b :: r, by rw [mapRes, hb, Res.bind_ok, hr, Res.bind_ok]; rfl, fun c => ?_⟩
    rw [List.mem_cons, hm]
    constructor
    · rintro (rfl | ⟨x, hx, hc⟩)
      · exact ⟨a, by simp, hb⟩
      · exact ⟨x, by simp [hx], hc⟩
    · rintro ⟨x, hx, hc⟩
      rcases List.mem_cons.1 hx with rfl | hx
      · rw [hb] at hc
        exact Or.inl (Except.ok.inj hc).symm
      · exact Or.inr ⟨x, hx, hc⟩

/-- Vertices at different points -/
def Once (vertices : List Vtx) : Prop := vertices.Pairwise fun v w => v.point ≠ w.point

theorem Once.eq {vertices : List Vtx} (h : Once vertices) {v w : Vtx} (hv : v ∈ vertices) (hw : w ∈ vertices)
    (e : v.point = w.point) : v = w := by
  by_contra hne
  haveI : Std.Symm fun v w : Vtx => v.point ≠ w.point := ⟨fun _ _ h => h.symm⟩
  exact h.forall hv hw hne e

theorem vertexAt_iff {vertices : List Vtx} (h : Once vertices) {p : Pt ℝ} {v : Vtx} :
    vertexAt vertices p = .ok v ↔ v ∈ vertices ∧ v.point = p := by
  unfold vertexAt
  cases hf : vertices.find? fun v => decide (v.point = p) with
  | none =>
    refine ⟨fun h => (by simp at h), fun ⟨h1, h2⟩ => ?_⟩
    exact absurd (List.find?_eq_none.1 hf v h1) (by simp [h2])
  | some w =>
    have h1 := List.mem_of_find?_eq_some hf
    have h2 : w.point = p := by simpa using List.find?_some hf
    constructor
    · intro e
      obtain rfl := Except.ok.inj e
      exact ⟨h1, h2⟩
    · rintro ⟨h3, h4⟩
      rw [h.eq h1 h3 (h2.trans h4.symm)]

theorem norm_lt_of_mem {a b z : Pt ℝ} (hab : a ≠ b) (hz : z ∈ segment ℝ a b) (hne : z ≠ b) :
    norm3 (z - a) < norm3 (b - a) := by
  obtain ⟨t, t0, t1, ht⟩ := mem_segment_iff.1 hz
  rw [ht, add_sub_cancel_left, norm3_smul, abs_of_nonneg t0]
  have hpos : 0 < norm3 (b - a) :=
    lt_of_le_of_ne (norm3_nonneg _) fun e => hab (sub_eq_zero.1 (norm3_eq_zero.1 e.symm)).symm
  have : t ≠ 1 := by
    rintro rfl
    exact hne (by rw [ht]; simp)
  nlinarith [lt_of_le_of_ne t1 this]

theorem norm_pos_of_ne {a z : Pt ℝ} (hne : z ≠ a) : 0 < norm3 (z - a) :=
  lt_of_le_of_ne (norm3_nonneg _) fun e => hne (sub_eq_zero.1 (norm3_eq_zero.1 e.symm))

theorem norm_inj_of_mem {a b z w : Pt ℝ} (hab : a ≠ b) (hz : z ∈ segment ℝ a b) (hw : w ∈ segment ℝ a b)
    (e : norm3 (z - a) = norm3 (w - a)) : z = w := by
  obtain ⟨t, t0, t1, ht⟩ := mem_segment_iff.1 hz
  obtain ⟨s, s0, s1, hs⟩ := mem_segment_iff.1 hw
  rw [ht, hs, add_sub_cancel_left, add_sub_cancel_left, norm3_smul, norm3_smul, abs_of_nonneg t0,
    abs_of_nonneg s0] at e
  have := mul_right_cancel₀ (norm_pos_of_ne (a := a) (z := b) hab.symm).ne' e
  rw [ht, hs, this]

/-- An edge that is not cut -/
theorem isCut_none {vertices : List Vtx} {N : Set (Pt ℝ)} {e : LEdge} (hN : ∀ z, z ∉ N) (hp : e.parts = [])
    (hne : e.first.point ≠ e.second.point) (tag : Int) : IsCut vertices N e e tag where
  same := ⟨rfl, rfl⟩
  first := ⟨rfl, fun h => absurd h (hN _), fun _ => rfl⟩
  second := ⟨rfl, fun h => absurd h (hN _), fun _ => rfl⟩
  chain := ⟨[], by simp, fun z => by simp [hN z], by
    simp only [List.nil_append, List.cons_append, List.pairwise_cons, List.mem_singleton, forall_eq,
      List.not_mem_nil, false_implies, implies_true, List.Pairwise.nil, and_true, sub_self, norm3_zero]
    exact norm_pos_of_ne hne.symm, by rw [if_pos rfl]; exact hp⟩

/-- An edge that is cut at the points `N` -/
theorem isCut_embed {argsort : List ℝ → List Nat} (hs : Fracture.IsArgsort argsort) {vertices vs : List Vtx}
    (ho : Once vertices) {N : Set (Pt ℝ)} {e : LEdge} (hvs : ∀ v, v ∈ vs ↔ v ∈ vertices ∧ v.point ∈ N)
    (hN : ∀ z ∈ N, ∃ v ∈ vertices, v.point = z)
    (hsep : ∀ z ∈ N, Separated [⟨0, none, z⟩] e.first.point e.second.point) (hon : ∀ z ∈ N, z ∈ e.span)
    (hne : e.first.point ≠ e.second.point) (hp : e.parts = []) (tag : Int) :
    ∃ c, embedVertex argsort vs e.first e.second e.parts tag = .ok c ∧
      IsCut vertices N e ⟨e.tag, e.physical, c.first, c.second, c.parts⟩ tag := by
  have sep : Separated vs e.first.point e.second.point := by
    have h : ∀ v ∈ vs, Separated [⟨0, none, v.point⟩] e.first.point e.second.point :=
      fun v hv => hsep _ ((hvs v).1 hv).2
    have m : ∀ v : Vtx, (⟨0, none, v.point⟩ : Vtx) ∈ [(⟨0, none, v.point⟩ : Vtx)] := fun v => List.mem_singleton.2 rfl
    exact ⟨hne, fun v hv => (h v hv).first ⟨0, none, v.point⟩ (m v), fun v hv => (h v hv).second ⟨0, none, v.point⟩ (m v),
      fun v hv => (h v hv).near ⟨0, none, v.point⟩ (m v), fun v hv => (h v hv).far ⟨0, none, v.point⟩ (m v)⟩
  have isf : ∀ {v}, IsFirst vs v ↔ v ∈ vs := by
    intro v
    refine ⟨IsFirst.mem, fun hv => ?_⟩
    obtain ⟨w, hw, hwv⟩ := exists_first hv
    rwa [← ho.eq ((hvs w).1 hw.mem).1 ((hvs v).1 hv).1 hwv]
  obtain ⟨c, new, h1, h2, h3, h4, h5, h6⟩ := C99_split_partial hs sep e.parts tag
  rw [hp, List.nil_append] at h2
  have newEnd : ∀ {old new : Vtx}, IsNewEnd vs old new → NewEnd vertices (old.point ∈ N) old new := by
    rintro old new ⟨k1, k2⟩
    refine ⟨k1, fun hc => ?_, fun hc => ?_⟩
    · rcases k2 with k2 | ⟨-, k2⟩
      · exact ((hvs _).1 k2.mem).1
      · obtain ⟨v, hv, hz⟩ := hN _ hc
        exact absurd hz (k2 v ((hvs v).2 ⟨hv, by rw [hz]; exact hc⟩))
    · rcases k2 with k2 | ⟨k2, -⟩
      · exact absurd (k1 ▸ ((hvs _).1 k2.mem).2) hc
      · exact k2
  have chosen_iff : ∀ v, v ∈ c.chosen ↔ v ∈ vs ∧ v.point ≠ e.first.point ∧ v.point ≠ e.second.point := by
    intro v
    rw [h5.mem, isf]
    refine and_congr_right fun hv => and_congr_right fun _ => ⟨fun h e' => ?_, fun h => ?_⟩
    · rw [e'] at h
      exact lt_irrefl _ h
    · exact norm_lt_of_mem hne (hon _ ((hvs v).1 hv).2) h
  have npos := norm_pos_of_ne hne.symm
  refine ⟨c, h1, ⟨⟨rfl, rfl⟩, newEnd h3, newEnd h4, ?_⟩⟩
  have points : ∀ {inner : List Vtx}, inner.Perm c.chosen → ∀ z, (∃ v ∈ inner, v.point = z) ↔
      z ∈ N ∧ z ≠ e.first.point ∧ z ≠ e.second.point := by
    intro inner hperm z
    constructor
    · rintro ⟨v, hv, rfl⟩
      obtain ⟨k1, k2, k3⟩ := (chosen_iff v).1 (hperm.mem_iff.1 hv)
      exact ⟨((hvs v).1 k1).2, k2, k3⟩
    · rintro ⟨k1, k2, k3⟩
      obtain ⟨v, hv, rfl⟩ := hN z k1
      exact ⟨v, hperm.mem_iff.2 ((chosen_iff v).2 ⟨(hvs v).2 ⟨hv, k1⟩, k2, k3⟩), rfl⟩
  unfold AreParts at h6
  by_cases hc : c.chosen = []
  · rw [if_pos hc] at h6
    refine ⟨[], by simp, points (by rw [hc]), ?_, by rw [if_pos rfl]; exact h2.trans h6⟩
    simp only [List.nil_append, List.cons_append, List.pairwise_cons, List.mem_singleton, forall_eq,
      List.not_mem_nil, false_implies, implies_true, List.Pairwise.nil, and_true, h3.1, h4.1, sub_self, norm3_zero]
    exact npos
  · rw [if_neg hc] at h6
    obtain ⟨inner, k1, k2, k3⟩ := h6
    have hi : inner ≠ [] := fun h => hc (by rw [h] at k1; exact k1.symm.eq_nil)
    have mem : ∀ v ∈ inner, v ∈ vs ∧ v.point ≠ e.first.point ∧ v.point ≠ e.second.point :=
      fun v hv => (chosen_iff v).1 (k1.mem_iff.1 hv)
    refine ⟨inner, fun v hv => ((hvs v).1 (mem v hv).1).1, points k1, ?_, by
      rw [if_neg hi]
      show Joins _ tag c.parts
      rw [h2]
      exact k3⟩
    have hn : inner.Pairwise fun v w => v.point ≠ w.point :=
      (k1.pairwise_iff fun h => Ne.symm h).2 (h5.once.imp fun h => h.2)
    rw [List.cons_append, List.pairwise_cons]
    have on : ∀ v ∈ inner, v.point ∈ e.span := fun v hv => hon _ ((hvs v).1 (mem v hv).1).2
    refine ⟨fun v hv => ?_, List.pairwise_append.2 ⟨?_, by simp, fun v hv w hw => ?_⟩⟩
    · rw [show c.first.point = _ from h3.1, sub_self, norm3_zero]
      rcases List.mem_append.1 hv with hv | hv
      · exact norm_pos_of_ne (mem v hv).2.1
      · rw [List.mem_singleton.1 hv, show c.second.point = _ from h4.1]
        exact npos
    · rw [h3.1] at k2
      refine (k2.and hn).imp_of_mem fun {v w} hv hw h => lt_of_le_of_ne h.1 fun e' => ?_
      exact h.2 (norm_inj_of_mem hne (on v hv) (on w hw) e')
    · rw [List.mem_singleton.1 hw, show c.second.point = _ from h4.1]
      exact norm_lt_of_mem hne (on v hv) (mem v hv).2.2

theorem joins_tags {chain : List Vtx} {tag : Int} {parts : List Edg} (h : Joins chain tag parts) :
    parts.map Edg.tag = consec tag parts.length := by
  refine List.ext_getElem (by simp [consec]) fun i h1 h2 => ?_
  rw [List.length_map] at h1
  simp only [List.getElem_map, consec, List.getElem_range]
  exact (h.joined i _ (List.getElem?_eq_getElem h1)).1

theorem isCut_tags {vertices : List Vtx} {N : Set (Pt ℝ)} {e e' : LEdge} {tag : Int} (h : IsCut vertices N e e' tag) :
    e'.parts.map Edg.tag = consec tag e'.parts.length := by
  obtain ⟨inner, -, -, -, h⟩ := h.chain
  by_cases hi : inner = []
  · rw [if_pos hi] at h
    rw [h]
    rfl
  · rw [if_neg hi] at h
    exact joins_tags h

theorem maxTag_consec {tag : Int} {n : Nat} (h : 0 < n) : maxTag (consec tag n) = .ok (tag + n - 1) := by
  obtain ⟨t, h1, h2, h3⟩ := maxTag_spec (l := consec tag n) (by
    intro e
    have := congrArg List.length e
    simp [consec] at this
    omega)
  have := mem_consec.1 h2
  have := h3 (tag + n - 1) (mem_consec.2 (by omega))
  rw [h1, show t = tag + n - 1 by omega]

/-- What the loop does with the edges from `i` on -/
structure LoopDone (N : Nat → Set (Pt ℝ)) (vertices : List Vtx) (etag : Int) (i : Nat) (rest out : List Item)
    (edges : List Edg) : Prop where
  length : out.length = rest.length
  wires : ∀ k : Nat, rest[k]? = some none → out[k]? = some none
  cut : ∀ (k : Nat) (e : LEdge), rest[k]? = some (some e) → ∃ e', out[k]? = some (some e') ∧
    IsCut vertices (N (i + k)) e e' (etag + (newEdges (out.take k)).length)
  edges_eq : edges = newEdges out
  tags : edges.map Edg.tag = consec etag edges.length

theorem newEdges_cons (x : Item) (l : List Item) : newEdges (x :: l) = x.elim [] LEdge.parts ++ newEdges l := by
  simp [newEdges]

theorem loopDone_cons {N : Nat → Set (Pt ℝ)} {vertices : List Vtx} {etag : Int} {i : Nat} {rest out : List Item}
    {edges : List Edg} {e e' : LEdge} (h1 : IsCut vertices (N i) e e' etag)
    (h : LoopDone N vertices (etag + e'.parts.length) (i + 1) rest out edges) :
    LoopDone N vertices etag i (some e :: rest) (some e' :: out) (e'.parts ++ edges) where
  length := by simp [h.length]
  wires k hk := by
    cases k with
    | zero => simp at hk
    | succ k => exact h.wires k hk
  cut k f hk := by
    cases k with
    | zero =>
      simp only [List.getElem?_cons_zero, Option.some.injEq] at hk
      refine ⟨e', rfl, ?_⟩
      rw [← hk]
      simpa [newEdges] using h1
    | succ k =>
      obtain ⟨f', h2, h3⟩ := h.cut k f hk
      refine ⟨f', h2, ?_⟩
      rw [List.take_succ_cons, newEdges_cons]
      rw [show i + (k + 1) = i + 1 + k by omega]
      simpa [add_assoc] using h3
  edges_eq := by rw [newEdges_cons, h.edges_eq]; rfl
  tags := by rw [List.map_append, isCut_tags h1, h.tags, List.length_append, consec_append]

theorem loopDone_wire {N : Nat → Set (Pt ℝ)} {vertices : List Vtx} {etag : Int} {i : Nat} {rest out : List Item}
    {edges : List Edg} (h : LoopDone N vertices etag (i + 1) rest out edges) :
    LoopDone N vertices etag i (none :: rest) (none :: out) edges where
  length := by simp [h.length]
  wires k hk := by
    cases k with
    | zero => rfl
    | succ k => exact h.wires k hk
  cut k f hk := by
    cases k with
    | zero => simp at hk
    | succ k =>
      obtain ⟨f', h2, h3⟩ := h.cut k f hk
      refine ⟨f', h2, ?_⟩
      rw [List.take_succ_cons, newEdges_cons]
      rw [show i + (k + 1) = i + 1 + k by omega]
      simpa using h3
  edges_eq := by rw [newEdges_cons, h.edges_eq]; rfl
  tags := h.tags

theorem CutAt.meets {items : List Item} {i : Nat} {z : Pt ℝ} (h : CutAt items i z) : Meets items i z := by
  obtain ⟨e, j, f, h1, h2, h3, h4, h5, -⟩ := h
  exact ⟨e, j, f, h1, h2, h3, h4, h5⟩

theorem CutAt.mem {items : List Item} {i : Nat} {z : Pt ℝ} (h : CutAt items i z) {e : LEdge}
    (he : items[i]? = some (some e)) : z ∈ e.span := by
  obtain ⟨e', j, f, h1, h2, h3, h4, h5, -⟩ := h
  rw [he] at h1
  obtain rfl := Option.some.inj (Option.some.inj h1)
  exact h4

/-- The points at which edge `i` is cut are those of its rows. -/
structure Cuts (items : List Item) (rows : List Row) (vertices : List Vtx) (N : Nat → Set (Pt ℝ)) : Prop where
  once : Once vertices
  vertex : ∀ i z, z ∈ N i → ∃ v ∈ vertices, v.point = z
  mem : ∀ i z, z ∈ N i ↔ ∃ r ∈ rows, (r.2.1 = i ∨ r.2.2 = i) ∧ r.1 = z
  clear : ∀ (i : Nat) (e : LEdge) (z : Pt ℝ), items[i]? = some (some e) → z ∈ N i →
    Separated [⟨0, none, z⟩] e.first.point e.second.point
  on : ∀ (i : Nat) (e : LEdge) (z : Pt ℝ), items[i]? = some (some e) → z ∈ N i → z ∈ e.span
  fresh : ∀ e : LEdge, some e ∈ items → e.parts = [] ∧ e.first.point ≠ e.second.point

theorem loop_done {argsort : List ℝ → List Nat} (hs : Fracture.IsArgsort argsort) {items : List Item}
    {rows : List Row} {vertices : List Vtx} {N : Nat → Set (Pt ℝ)} (hC : Cuts items rows vertices N) :
    ∀ (rest : List Item) (i : Nat) (etag : Int), rest = items.drop i →
      ∃ out edges, cutEdges argsort rows vertices etag i rest = .ok (out, edges) ∧
        LoopDone N vertices etag i rest out edges
  | [], i, etag, _ => ⟨[], [], rfl, ⟨rfl, by simp, by simp, rfl, rfl⟩⟩
  | none :: rest, i, etag, h => by
    have hr : rest = items.drop (i + 1) := by rw [← List.tail_drop, ← h]; rfl
    obtain ⟨out, edges, h1, h2⟩ := loop_done hs hC rest (i + 1) etag hr
    exact ⟨none :: out, edges, by rw [cutEdges, h1]; rfl, loopDone_wire h2⟩
  | some e :: rest, i, etag, h => by
    have hr : rest = items.drop (i + 1) := by rw [← List.tail_drop, ← h]; rfl
    have hi : items[i]? = some (some e) := by
      have := congrArg (fun l => l[0]?) h
      simpa [List.getElem?_drop] using this.symm
    obtain ⟨hp, hne⟩ := hC.fresh e (List.mem_of_getElem? hi)
    have ho := hC.once
    rw [cutEdges]
    simp only
    set cases := rows.filter fun r => decide (r.2.1 = i ∨ r.2.2 = i) with hcases
    have hcut : ∀ z, z ∈ N i ↔ ∃ r ∈ cases, r.1 = z := by
      intro z
      rw [hC.mem, hcases]
      constructor
      · rintro ⟨r, k1, k2, k3⟩
        exact ⟨r, List.mem_filter.2 ⟨k1, decide_eq_true k2⟩, k3⟩
      · rintro ⟨r, k1, k3⟩
        exact ⟨r, (List.mem_filter.1 k1).1, of_decide_eq_true (List.mem_filter.1 k1).2, k3⟩
    by_cases hc : cases = []
    · rw [if_pos hc]
      obtain ⟨out, edges, h1, h2⟩ := loop_done hs hC rest (i + 1) etag hr
      refine ⟨some e :: out, edges, by rw [h1]; rfl, ?_⟩
      have := loopDone_cons (e := e) (e' := e) (isCut_none (N := N i) (fun z hz => by
        obtain ⟨r, hr, -⟩ := (hcut z).1 hz
        rw [hc] at hr
        simp at hr) hp hne etag) (by rw [hp]; simpa using h2)
      rwa [hp] at this
    · rw [if_neg hc]
      obtain ⟨vs, m1, m2⟩ := mapRes_total (f := fun r : Row => vertexAt vertices r.1) (l := cases) (by
        intro r hr
        obtain ⟨v, h1, h2⟩ := hC.vertex i r.1 ((hcut r.1).2 ⟨r, hr, rfl⟩)
        exact ⟨v, (vertexAt_iff ho).2 ⟨h1, h2⟩⟩)
      obtain ⟨c, c1, c2⟩ := isCut_embed hs ho (vs := vs) (N := N i) (e := e) (by
        intro v
        rw [m2]
        constructor
        · rintro ⟨r, hr, h⟩
          obtain ⟨h1, h2⟩ := (vertexAt_iff ho).1 h
          exact ⟨h1, (hcut v.point).2 ⟨r, hr, h2.symm⟩⟩
        · rintro ⟨h1, h2⟩
          obtain ⟨r, hr, h3⟩ := (hcut v.point).1 h2
          exact ⟨r, hr, (vertexAt_iff ho).2 ⟨h1, h3.symm⟩⟩)
        (hC.vertex i) (fun z hz => hC.clear i e z hi hz) (fun z hz => hC.on i e z hi hz) hne hp etag
      rw [m1, Res.bind_ok, c1, Res.bind_ok]
      by_cases hl : c.parts.length > 0
      · rw [if_pos hl, isCut_tags c2, maxTag_consec hl, Res.bind_ok]
        obtain ⟨out, edges, h1, h2⟩ := loop_done hs hC rest (i + 1) (etag + c.parts.length - 1 + 1) hr
        refine ⟨_, _, by rw [h1]; rfl, loopDone_cons c2 ?_⟩
        simpa using h2
      · rw [if_neg hl]
        obtain ⟨out, edges, h1, h2⟩ := loop_done hs hC rest (i + 1) etag hr
        have h0 : c.parts = [] := by
          rw [← List.length_eq_zero_iff]
          omega
        refine ⟨_, _, by rw [h1]; rfl, ?_⟩
        have := loopDone_cons c2 (rest := rest) (out := out) (edges := edges) (by simpa [h0] using h2)
        simpa [h0] using this

/-- The whole run, with the rows given -/
theorem run_done {argsort : List ℝ → List Nat} (hs : Fracture.IsArgsort argsort) {items : List Item}
    {N : Nat → Set (Pt ℝ)} {axis etag vtag ptag : Int}
    (hmem : ∀ i z, z ∈ N i ↔ ∃ r ∈ (edgePairs items).foldl (rowStep (axesOf axis)) [], (r.2.1 = i ∨ r.2.2 = i) ∧ r.1 = z)
    (hclear : ∀ (i : Nat) (e : LEdge) (z : Pt ℝ), items[i]? = some (some e) → z ∈ N i →
      Separated [⟨0, none, z⟩] e.first.point e.second.point)
    (hon : ∀ (i : Nat) (e : LEdge) (z : Pt ℝ), items[i]? = some (some e) → z ∈ N i → z ∈ e.span)
    (hfresh : ∀ e : LEdge, some e ∈ items → e.parts = [] ∧ e.first.point ≠ e.second.point) :
    ∃ out, intersectEdges argsort items axis etag vtag ptag = .ok out ∧ IsFragments N items etag vtag ptag out := by
  set rows := (edgePairs items).foldl (rowStep (axesOf axis)) [] with hrows
  obtain ⟨v1, v2, v3⟩ := newVertices_map vtag ptag (uniquePoints (rows.map Prod.fst))
  set vertices := newVertices vtag ptag (uniquePoints (rows.map Prod.fst)) with hvertices
  have hlen : (uniquePoints (rows.map Prod.fst)).length = vertices.length := by rw [← v1, List.length_map]
  rw [hlen] at v2 v3
  have hsorted : vertices.Pairwise fun v w => LexLe v.point w.point ∧ v.point ≠ w.point := by
    have := uniquePoints_once (rows.map Prod.fst)
    rwa [← v1, List.pairwise_map] at this
  have hpoints : ∀ z, (∃ v ∈ vertices, v.point = z) ↔ ∃ i, z ∈ N i := by
    intro z
    have : (∃ v ∈ vertices, v.point = z) ↔ z ∈ uniquePoints (rows.map Prod.fst) := by
      rw [← v1, List.mem_map]
    rw [this, mem_uniquePoints, List.mem_map]
    constructor
    · rintro ⟨r, hr, rfl⟩
      exact ⟨r.2.1, (hmem _ _).2 ⟨r, hr, Or.inl rfl, rfl⟩⟩
    · rintro ⟨i, hi⟩
      obtain ⟨r, hr, -, h⟩ := (hmem i z).1 hi
      exact ⟨r, hr, h⟩
  obtain ⟨out, edges, h1, h2⟩ := loop_done hs (vertices := vertices) (rows := rows) (N := N)
    ⟨hsorted.imp fun h => h.2, fun i z hz => (hpoints z).2 ⟨i, hz⟩, hmem, hclear, hon, hfresh⟩ items 0 etag rfl
  have hfrag : IsFragments N items etag vtag ptag ⟨out, edges, vertices⟩ :=
    ⟨hpoints, hsorted, v2, v3, h2.length, h2.wires, fun k e hk => by simpa using h2.cut k e hk, h2.edges_eq, h2.tags⟩
  by_cases hr : rows.length > 0
  · refine ⟨⟨out, edges, vertices⟩, ?_, hfrag⟩
    unfold intersectEdges
    simp only
    rw [if_pos (by rw [← hrows]; exact hr), ← hrows, ← hvertices, h1]
    rfl
  · have hr0 : rows = [] := by
      rw [← List.length_eq_zero_iff]
      omega
    have hv0 : vertices = [] := by
      rw [hvertices, hr0]
      simp [uniquePoints, uniqueVertices, firstOnes, newVertices]
    have hN : ∀ i z, z ∉ N i := by
      intro i z hz
      obtain ⟨r, h, -⟩ := (hmem i z).1 hz
      rw [hr0] at h
      simp at h
    have hp0 : ∀ l : List Item, (∀ e, some e ∈ l → some e ∈ items) → newEdges l = [] := by
      intro l hl
      unfold newEdges
      rw [List.flatMap_eq_nil_iff]
      intro x hx
      cases x with
      | none => rfl
      | some e => exact (hfresh e (hl e hx)).1
    refine ⟨⟨items, [], []⟩, ?_, ?_⟩
    · unfold intersectEdges
      simp only
      rw [if_neg (by rw [← hrows]; exact hr)]
      rfl
    · refine ⟨fun z => ?_, .nil, rfl, rfl, rfl, fun k hk => hk, fun k e hk => ?_, ?_, rfl⟩
      · simp [hN]
      · obtain ⟨f1, f2⟩ := hfresh e (List.mem_of_getElem? hk)
        exact ⟨e, hk, isCut_none (hN k) f1 f2 _⟩
      · exact (hp0 items fun _ h => h).symm

/-! ### The pieces of one edge -/

/-- The vertices along an edge -/
structure Along (e : LEdge) (chain : List Vtx) (pieces : List Edg) : Prop where
  sorted : chain.Pairwise fun v w => norm3 (v.point - e.first.point) < norm3 (w.point - e.first.point)
  on : ∀ v ∈ chain, v.point ∈ e.span
  joined : ∀ (k : Nat) (p : Edg), pieces[k]? = some p → ∃ v w, chain[k]? = some v ∧ chain[k + 1]? = some w ∧
    (p.first = v ∧ p.second = w ∨ p.first = w ∧ p.second = v)

theorem along_of_cut {vertices : List Vtx} {N : Set (Pt ℝ)} {e e' : LEdge} {tag : Int} (h : IsCut vertices N e e' tag)
    (hon : ∀ z ∈ N, z ∈ e.span) : ∃ inner : List Vtx, (∀ v ∈ inner, v ∈ vertices) ∧
      (∀ z, (∃ v ∈ inner, v.point = z) ↔ z ∈ N ∧ z ≠ e.first.point ∧ z ≠ e.second.point) ∧
      Along e (e'.first :: inner ++ [e'.second]) e'.pieces ∧
      ∀ z ∈ e.span, ∃ p ∈ e'.pieces, z ∈ segment ℝ p.first.point p.second.point := by
  obtain ⟨inner, h1, h2, h3, h4⟩ := h.chain
  have on : ∀ v ∈ e'.first :: inner ++ [e'.second], v.point ∈ e.span := by
    intro v hv
    simp only [List.cons_append, List.mem_cons, List.mem_append, List.not_mem_nil, or_false] at hv
    rcases hv with rfl | hv | rfl
    · rw [h.first.1]; exact left_mem_segment ℝ _ _
    · exact hon _ ((h2 _).1 ⟨v, hv, rfl⟩).1
    · rw [h.second.1]; exact right_mem_segment ℝ _ _
  refine ⟨inner, h1, h2, ⟨h3, on, ?_⟩, ?_⟩
  · by_cases hi : inner = []
    · rw [if_pos hi] at h4
      intro k p hk
      unfold LEdge.pieces at hk
      rw [if_pos h4] at hk
      obtain ⟨rfl, rfl⟩ : k = 0 ∧ (⟨e'.tag, e'.physical, e'.first, e'.second⟩ : Edg) = p := by
        cases k with
        | zero => simpa using hk
        | succ k => simp at hk
      rw [hi]
      exact ⟨_, _, rfl, rfl, Or.inl ⟨rfl, rfl⟩⟩
    · rw [if_neg hi] at h4
      intro k p hk
      unfold LEdge.pieces at hk
      rw [if_neg (fun h0 => by
        have := h4.count
        rw [h0] at this
        simp at this)] at hk
      exact (h4.joined k p hk).2.2.2
  · intro z hz
    by_cases hi : inner = []
    · rw [if_pos hi] at h4
      unfold LEdge.pieces
      rw [if_pos h4]
      refine ⟨_, List.mem_singleton.2 rfl, ?_⟩
      show z ∈ segment ℝ e'.first.point e'.second.point
      rw [h.first.1, h.second.1]
      exact hz
    · rw [if_neg hi] at h4
      unfold LEdge.pieces
      rw [if_neg (fun h0 => by
        have := h4.count
        rw [h0] at this
        simp at this)]
      obtain ⟨t, t0, t1, rfl⟩ := mem_segment_iff.1 hz
      exact chain_covers _ tag _ _ _ inner rfl h4
        (fun v hv => by
          obtain ⟨t, -, -, ht⟩ := mem_segment_iff.1 (on v hv)
          exact ⟨t, ht⟩) 0 1 t (by rw [h.first.1]; simp) (by rw [h.second.1]; simp) t0 t1

theorem norm_between {a b u v z : Pt ℝ} (hu : u ∈ segment ℝ a b) (hv : v ∈ segment ℝ a b)
    (h : norm3 (u - a) < norm3 (v - a)) (hz : z ∈ segment ℝ u v) :
    norm3 (u - a) ≤ norm3 (z - a) ∧ norm3 (z - a) ≤ norm3 (v - a) := by
  obtain ⟨r, r0, r1, rfl⟩ := mem_segment_iff.1 hu
  obtain ⟨s, s0, s1, rfl⟩ := mem_segment_iff.1 hv
  obtain ⟨t, t0, t1, rfl⟩ := mem_segment_iff.1 hz
  have e1 : a + r • (b - a) + t • (a + s • (b - a) - (a + r • (b - a))) - a = (r + t * (s - r)) • (b - a) := by
    module
  rw [add_sub_cancel_left, norm3_smul, abs_of_nonneg r0, add_sub_cancel_left, norm3_smul, abs_of_nonneg s0] at h
  have hrs : r < s := lt_of_mul_lt_mul_right h (norm3_nonneg _)
  have hz0 : 0 ≤ r + t * (s - r) := by nlinarith
  rw [e1, add_sub_cancel_left, add_sub_cancel_left, norm3_smul, norm3_smul, norm3_smul, abs_of_nonneg r0,
    abs_of_nonneg s0, abs_of_nonneg hz0]
  have := norm3_nonneg (b - a)
  constructor <;> refine mul_le_mul_of_nonneg_right ?_ this <;> nlinarith

theorem Along.get {e : LEdge} {chain : List Vtx} {pieces : List Edg} (h : Along e chain pieces) {k l : Nat} {v w : Vtx}
    (hv : chain[k]? = some v) (hw : chain[l]? = some w) (hkl : k < l) :
    norm3 (v.point - e.first.point) < norm3 (w.point - e.first.point) := by
  obtain ⟨h1, rfl⟩ := List.getElem?_eq_some_iff.1 hv
  obtain ⟨h2, rfl⟩ := List.getElem?_eq_some_iff.1 hw
  exact List.pairwise_iff_getElem.1 h.sorted k l h1 h2 hkl

theorem Along.piece {e : LEdge} {chain : List Vtx} {pieces : List Edg} (h : Along e chain pieces) {k : Nat} {p : Edg}
    (hk : pieces[k]? = some p) {z : Pt ℝ} (hz : z ∈ segment ℝ p.first.point p.second.point) :
    z ∈ e.span ∧ ∃ v w, chain[k]? = some v ∧ chain[k + 1]? = some w ∧
      (p.first = v ∧ p.second = w ∨ p.first = w ∧ p.second = v) ∧
      norm3 (v.point - e.first.point) ≤ norm3 (z - e.first.point) ∧
      norm3 (z - e.first.point) ≤ norm3 (w.point - e.first.point) := by
  obtain ⟨v, w, hv, hw, hp⟩ := h.joined k p hk
  have ov := h.on v (List.mem_of_getElem? hv)
  have ow := h.on w (List.mem_of_getElem? hw)
  have hz' : z ∈ segment ℝ v.point w.point := by
    rcases hp with ⟨e1, e2⟩ | ⟨e1, e2⟩
    · rwa [e1, e2] at hz
    · rwa [e1, e2, segment_symm] at hz
  have c : Convex ℝ (segment ℝ e.first.point e.second.point) := convex_segment _ _
  exact ⟨c.segment_subset ov ow hz', v, w, hv, hw, hp, norm_between ov ow (h.get hv hw (Nat.lt_succ_self k)) hz'⟩

/-- A piece has a vertex of the chain only at its ends. -/
theorem Along.at_end {e : LEdge} {chain : List Vtx} {pieces : List Edg} (h : Along e chain pieces)
    {p : Edg} (hp : p ∈ pieces) {u : Vtx} (hu : u ∈ chain)
    (hz : u.point ∈ segment ℝ p.first.point p.second.point) : u ∈ [p.first, p.second] := by
  obtain ⟨k, hk⟩ := List.mem_iff_getElem?.1 hp
  obtain ⟨m, hm⟩ := List.mem_iff_getElem?.1 hu
  obtain ⟨-, v, w, hv, hw, hp, h1, h2⟩ := h.piece hk hz
  have hm' : m = k ∨ m = k + 1 := by
    by_contra hc
    rcases lt_or_ge m k with hlt | hge
    · exact absurd (h.get hm hv hlt) (not_lt.2 h1)
    · exact absurd (h.get hw hm (by omega)) (not_lt.2 h2)
  have : u = v ∨ u = w := by
    rcases hm' with rfl | rfl
    · rw [hm] at hv
      exact Or.inl (Option.some.inj hv)
    · rw [hm] at hw
      exact Or.inr (Option.some.inj hw)
  simp only [List.mem_cons, List.not_mem_nil, or_false]
  rcases hp with ⟨e1, e2⟩ | ⟨e1, e2⟩
  · rw [e1, e2]; exact this
  · rw [e1, e2]; exact this.symm

/-- Two pieces of an edge have in common at most the vertex between them. -/
theorem Along.apart {e : LEdge} {chain : List Vtx} {pieces : List Edg} (h : Along e chain pieces)
    (hne : e.first.point ≠ e.second.point) {k l : Nat} (hkl : k < l)
    {p q : Edg} (hp : pieces[k]? = some p) (hq : pieces[l]? = some q) {z : Pt ℝ}
    (hz : z ∈ segment ℝ p.first.point p.second.point) (hz' : z ∈ segment ℝ q.first.point q.second.point) :
    ∃ v, v.point = z ∧ v ∈ [p.first, p.second] ∧ v ∈ [q.first, q.second] := by
  obtain ⟨o, v, w, hv, hw, e1, h1, h2⟩ := h.piece hp hz
  obtain ⟨-, v', w', hv', hw', e2, h3, h4⟩ := h.piece hq hz'
  have hwz : w.point = z := by
    refine norm_inj_of_mem hne (h.on w (List.mem_of_getElem? hw)) o (le_antisymm ?_ h2)
    rcases (Nat.succ_le_of_lt hkl).eq_or_lt with hl | hl
    · rw [← hl, show k.succ = k + 1 from rfl, hw] at hv'
      rw [Option.some.inj hv']
      exact h3
    · exact (h.get hw hv' hl).le.trans h3
  refine ⟨w, hwz, ?_, ?_⟩
  · exact h.at_end (List.mem_of_getElem? hp) (List.mem_of_getElem? hw) (by rwa [hwz])
  · exact h.at_end (List.mem_of_getElem? hq) (List.mem_of_getElem? hw) (by rwa [hwz])

end Verif.VertexOps
