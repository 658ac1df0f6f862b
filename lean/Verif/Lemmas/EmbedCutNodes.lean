/-
Lemmas for C34: duplication of the vertices.
-/
import Verif.Lemmas.EmbedCutMain

namespace Verif.EmbedCut
open MeshBuild MeshGraph Trace MeshMetrics MeshOps Skin

variable {s : Style} {k : Cut} {p q : Parts}

/-- `cells1` has the cells of `cells` with the same vertices and nodes. -/
def SameNodes (cells cells1 : Cells) : Prop := ∀ i c, Stored cells i c → ∃ c1, Stored cells1 i c1 ∧
  c1.dimension = c.dimension ∧ c1.nodeTags = c.nodeTags ∧ c1.sub[0]? = c.sub[0]? ∧
  c1.sub.length = c.sub.length

theorem vertexNeighs_ok {cells : Cells} {n : Nat} (h : CutOK cells n) {g2 g1 : DiGraph Node}
    (hg2 : buildGraph ⟨2, cells⟩ 2 2 = .ok g2) (hg1 : buildGraph ⟨2, cells⟩ 1 1 = .ok g1)
    {f : List Cell} {vs r : List Nat} (hr : vertexNeighs g2 g1 f vs = .ok r) (i : Nat) :
    i ∈ r ↔ i ∉ f.map Cell.id ∧ ∃ c, Stored cells i c ∧ 0 < c.dimension ∧
      ∃ v ∈ vs, v ∈ subD c 0 := by
  obtain ⟨g2', hg2', hp2, -, -⟩ := h.graph (d := 2) (co := 2) (by omega) (by omega) (by omega)
  rw [hg2] at hg2'
  cases hg2'
  obtain ⟨g1', hg1', hp1, -, -⟩ := h.graph (d := 1) (co := 1) (by omega) (by omega) (by omega)
  rw [hg1] at hg1'
  cases hg1'
  unfold vertexNeighs at hr
  obtain ⟨l, h1, h2⟩ := Res.bind_eq_ok.1 hr
  cases h2
  rw [mem_npSort_uniq, List.mem_filter, decide_eq_true_eq, and_comm]
  refine and_congr_right fun _ => ?_
  rw [mapRes_flatten (P := fun v i => ∃ c, Stored cells i c ∧ 0 < c.dimension ∧ v ∈ subD c 0) h1]
  · constructor
    · rintro ⟨v, hv, c, hc, hd, hvc⟩
      exact ⟨c, hc, hd, v, hv, hvc⟩
    · rintro ⟨c, hc, hd, v, hv, hvc⟩
      exact ⟨v, hv, c, hc, hd, hvc⟩
  · intro v hv x hx i
    obtain ⟨a, ha, hx⟩ := Res.bind_eq_ok.1 hx
    obtain ⟨b, hb, hx⟩ := Res.bind_eq_ok.1 hx
    cases hx
    rw [List.mem_append, hp2 v a ha i, hp1 v b hb i]
    constructor
    · rintro (⟨⟨c, hc, hd⟩, hs⟩ | ⟨⟨c, hc, hd⟩, hs⟩)
      · exact ⟨c, hc, by omega, (subEntity_iff hc).1 hs⟩
      · exact ⟨c, hc, by omega, (subEntity_iff hc).1 hs⟩
    · rintro ⟨c, hc, hd, hs⟩
      have := h.dims i c hc
      rcases (by omega : c.dimension = 2 ∨ c.dimension = 1) with hd' | hd'
      · exact .inl ⟨⟨c, hc, hd'⟩, (subEntity_iff hc).2 hs⟩
      · exact .inr ⟨⟨c, hc, hd'⟩, (subEntity_iff hc).2 hs⟩

theorem vertexNeighs_total {cells : Cells} {n : Nat} (h : CutOK cells n) {g2 g1 : DiGraph Node}
    (hg2 : buildGraph ⟨2, cells⟩ 2 2 = .ok g2) (hg1 : buildGraph ⟨2, cells⟩ 1 1 = .ok g1)
    {f : List Cell} {vs : List Nat}
    (hu2 : ∀ v ∈ vs, ∃ i, HasDim cells 2 i ∧ SubEntity cells i 0 v)
    (hu1 : ∀ v ∈ vs, ∃ i, HasDim cells 1 i ∧ SubEntity cells i 0 v) :
    ∃ r, vertexNeighs g2 g1 f vs = .ok r := by
  obtain ⟨g2', hg2', -, hp2, -⟩ := h.graph (d := 2) (co := 2) (by omega) (by omega) (by omega)
  rw [hg2] at hg2'
  cases hg2'
  obtain ⟨g1', hg1', -, hp1, -⟩ := h.graph (d := 1) (co := 1) (by omega) (by omega) (by omega)
  rw [hg1] at hg1'
  cases hg1'
  obtain ⟨r, hr⟩ := exists_forall₂ (R := fun v l => (do
    let a ← g2.predecessors (0, v)
    let b ← g1.predecessors (0, v)
    pure (a.map Prod.snd ++ b.map Prod.snd) : Res (List Nat)) = .ok l) (l := vs) (by
      intro v hv
      obtain ⟨a, ha⟩ := hp2 v (hu2 v hv)
      obtain ⟨b, hb⟩ := hp1 v (hu1 v hv)
      exact ⟨_, by rw [ha, Res.bind_ok, hb, Res.bind_ok]; rfl⟩)
  refine ⟨npSort (uniq (r.flatten.filter fun i => decide (i ∉ f.map Cell.id))), ?_⟩
  unfold vertexNeighs
  rw [mapRes_iff.2 hr, Res.bind_ok]
  rfl

theorem nodeTags_ok {cells : Cells} {n : Nat} (h : CutOK cells n) {cells1 : Cells}
    (h1 : SameNodes cells cells1) {vs : List Nat} (hvs : ∀ v ∈ vs, HasDim cells 0 v) :
    ∃ tags, mapRes (nodeTag cells1) vs = .ok tags ∧ List.Forall₂ (VTag cells) vs tags := by
  obtain ⟨tags, ht⟩ := exists_forall₂ (R := fun v t => nodeTag cells1 v = .ok t ∧ VTag cells v t)
    (l := vs) (by
      intro v hv
      obtain ⟨c, hc, hd⟩ := hvs v hv
      obtain ⟨t, -, e⟩ := h.vertex v c hc hd
      obtain ⟨c1, hc1, -, e1, -⟩ := h1 v c hc
      refine ⟨t, ?_, c, hc, hd, e⟩
      unfold nodeTag
      rw [cellAt_iff.2 hc1, Res.bind_ok]
      exact getIdx_of (by rw [e1, e]; rfl))
  exact ⟨tags, mapRes_iff.2 (ht.imp fun _ _ h => h.1), ht.imp fun _ _ h => h.2⟩

theorem tags_nodup {cells : Cells} {n : Nat} (h : CutOK cells n) {vs tags : List Nat}
    (ht : List.Forall₂ (VTag cells) vs tags) (hn : vs.Nodup) :
    tags.Nodup ∧ ∀ t ∈ tags, t < n := by
  induction ht with
  | nil => simp
  | @cons v t vs tags h1 h2 ih =>
    rw [List.nodup_cons] at hn
    obtain ⟨i1, i2⟩ := ih hn.2
    refine ⟨List.nodup_cons.2 ⟨fun h3 => ?_, i1⟩, ?_⟩
    · obtain ⟨w, hw, hwt⟩ := forall₂_right h2 h3
      rw [h.distinct v w t h1 hwt] at hn
      exact hn.1 hw
    · intro t' ht'
      rcases List.mem_cons.1 ht' with rfl | ht'
      · obtain ⟨c, hc, hd, e⟩ := h1
        obtain ⟨t, hlt, e'⟩ := h.vertex v c hc hd
        rw [e] at e'
        obtain rfl : t' = t := by simpa using e'
        exact hlt
      · exact i2 t' ht'

/-- Renaming the vertices and their node tags go together. -/
theorem copy_tag {cells : Cells} {n : Nat} (h : CutOK cells n) {vs tags : List Nat}
    (ht : List.Forall₂ (VTag cells) vs tags) {v t : Nat} (hv : VTag cells v t) :
    (v ∉ vs → t ∉ tags) ∧ (v ∈ vs → t ∈ tags ∧ tags.idxOf t = vs.idxOf v) := by
  induction ht with
  | nil => simp
  | @cons w u vs tags h1 h2 ih =>
    obtain ⟨i1, i2⟩ := ih
    have hwv : u = t → w = v := by rintro rfl; exact h.distinct w v u h1 hv
    have hvw : w = v → u = t := by
      rintro rfl
      obtain ⟨c, hc, hd, e⟩ := h1
      obtain ⟨c', hc', hd', e'⟩ := hv
      obtain rfl := stored_unique' hc hc'
      rw [e] at e'
      simpa using e'
    refine ⟨fun hn => ?_, fun hm => ?_⟩
    · rw [List.mem_cons, not_or] at hn ⊢
      exact ⟨fun e => hn.1 (hwv e.symm).symm, i1 hn.2⟩
    · by_cases e : w = v
      · have e' := hvw e
        subst e e'
        simp
      · have e' : u ≠ t := fun h => e (hwv h)
        have hm' : v ∈ vs := by
          rcases List.mem_cons.1 hm with h | h
          · exact absurd h.symm e
          · exact h
        obtain ⟨j1, j2⟩ := i2 hm'
        refine ⟨List.mem_cons_of_mem _ j1, ?_⟩
        rw [List.idxOf_cons_ne _ e, List.idxOf_cons_ne _ e', j2]

theorem cutNodes_spec {n : Nat} (h : CutOK p.cells p.points.length) {g2 g1 : DiGraph Node}
    (hg2 : buildGraph ⟨2, p.cells⟩ 2 2 = .ok g2) (hg1 : buildGraph ⟨2, p.cells⟩ 1 1 = .ok g1)
    {f : List Cell} {vs : List Nat} {cells1 : Cells} (h1 : SameNodes p.cells cells1)
    (hlen : cells1.length = p.cells.length + 2 * f.length)
    (hlong : ∀ i < cells1.length, ∃ c, Stored cells1 i c ∧ 0 < c.sub.length)
    (hn : n = p.cells.length)
    (hvn : vs.Nodup) (hv : ∀ v ∈ vs, HasDim p.cells 0 v)
    (hq : cutNodes s k g2 g1 ⟨cells1, p.points⟩ n f vs = .ok q) :
    ∃ tags, List.Forall₂ (VTag p.cells) vs tags ∧
    q.cells.length = cells1.length + 2 * vs.length ∧
    (∃ xs, List.Forall₂ (fun t x => p.points[t]? = some x) tags xs ∧
      q.points = p.points ++ xs ++ xs) ∧
    (∀ i c, Stored p.cells i c → c.dimension = 0 ∨ i ∈ f.map Cell.id →
      ∀ c1, Stored cells1 i c1 → Stored q.cells i c1) ∧
    (∀ i c σ, Stored p.cells i c → 0 < c.dimension → i ∉ f.map Cell.id → Side k p.points c σ →
      ∀ c1, Stored cells1 i c1 → Stored q.cells i (mapVertices
        (copyOf vs (startOf σ (p.cells.length + 2 * f.length) vs.length))
        (copyOf tags (startOf σ p.points.length vs.length)) c1)) ∧
    (∀ σ j, j < f.length → ∀ c1, Stored cells1 (startOf σ p.cells.length f.length + j) c1 →
      Stored q.cells (startOf σ p.cells.length f.length + j) (mapVertices
        (copyOf vs (startOf σ (p.cells.length + 2 * f.length) vs.length))
        (copyOf tags (startOf σ p.points.length vs.length)) c1)) ∧
    ∀ σ (j v : Nat), vs[j]? = some v → ∃ c, Stored cells1 v c ∧ Stored q.cells
      (startOf σ (p.cells.length + 2 * f.length) vs.length + j)
      ⟨0, startOf σ (p.cells.length + 2 * f.length) vs.length + j,
        c.material.bind fun _ => k.mat.map fun m => s.scale * m + sign σ,
        [startOf σ p.points.length vs.length + j],
        [[startOf σ p.points.length vs.length + j]]⟩ := by
  subst hn
  unfold cutNodes at hq
  obtain ⟨neighs, e1, hq⟩ := Res.bind_eq_ok.1 hq
  obtain ⟨sides, e2, hq⟩ := Res.bind_eq_ok.1 hq
  obtain ⟨tags, e3, hq⟩ := Res.bind_eq_ok.1 hq
  obtain ⟨xs, e4, hq⟩ := Res.bind_eq_ok.1 hq
  dsimp only at e2 e3 e4 hq
  obtain ⟨vp, e5, hq⟩ := Res.bind_eq_ok.1 hq
  obtain ⟨vn, e6, hq⟩ := Res.bind_eq_ok.1 hq
  obtain ⟨l5, e5⟩ := copyVertices_ok e5
  obtain ⟨l6, e6⟩ := copyVertices_ok e6
  obtain ⟨s1, s2⟩ := splitSides_ok e2
  have hmem := vertexNeighs_ok h hg2 hg1 e1
  obtain ⟨tags', t1, t2⟩ := nodeTags_ok h h1 hv
  rw [e3] at t1
  obtain rfl := Except.ok.inj t1
  obtain ⟨tn, tl⟩ := tags_nodup h t2 hvn
  have hvl : ∀ x ∈ vs, x < p.cells.length := by
    intro x hx
    obtain ⟨c, hc, -⟩ := hv x hx
    exact stored_lt hc
  have htl := t2.length_eq
  set N := p.cells.length with hN
  set L := cells1.length with hL
  set P := p.points.length with hP
  set m := vs.length with hm
  have hLm : ∀ x ∈ vs, x < L ∧ x < L + m := fun x hx => by have := hvl x hx; omega
  have hPm : ∀ x ∈ tags, x < P ∧ x < P + m := fun x hx => by have := tl x hx; omega
  have hnst : ∀ i ∈ neighs, i < N := by
    intro i hi
    obtain ⟨-, c, hc, -⟩ := (hmem i).1 hi
    exact stored_lt hc
  have hlong0 : ∀ i < L, ∃ c, Stored (cells1 ++ vp.map some ++ vn.map some) i c ∧
      0 < c.sub.length := by
    intro i hi
    obtain ⟨c, hc, hl⟩ := hlong i hi
    exact ⟨c, stored_append_left (stored_append_left hc), hl⟩
  have step : ∀ {A B : Cells} {V T : Nat → Nat} {L' : List Nat},
      (∀ i < L, ∃ c, Stored A i c ∧ 0 < c.sub.length) →
      (∀ i c, Stored A i c → (i ∈ L' → Stored B i (mapVertices V T c)) ∧
        (i ∉ L' → Stored B i c)) → ∀ i < L, ∃ c, Stored B i c ∧ 0 < c.sub.length := by
    intro A B V T L' hA hB i hi
    obtain ⟨c, hc, hl⟩ := hA i hi
    by_cases h' : i ∈ L'
    · exact ⟨_, (hB i c hc).1 h', by simpa [mapVertices] using hl⟩
    · exact ⟨_, (hB i c hc).2 h', hl⟩
  have hs1L : ∀ i ∈ sides.1, i < L := fun i hi => by
    have := hnst i ((s1 i).1 hi).1; omega
  have hs2L : ∀ i ∈ sides.2, i < L := fun i hi => by
    have := hnst i ((s2 i).1 hi).1; omega
  obtain ⟨A, a1, a2, a3⟩ := fold_updateVertices (s := L) (n := m) (s' := P) (n' := m) (keys := vs)
    (keys' := tags) (L := sides.1) (cells := cells1 ++ vp.map some ++ vn.map some) hvn rfl
    (fun x hx => (hLm x hx).1) tn (by omega) (fun x hx => (hPm x hx).1)
    (fun i hi => hlong0 i (hs1L i hi))
  have hlongA := step hlong0 a3
  obtain ⟨B, b1, b2, b3⟩ := fold_updateVertices (s := L + m) (n := m) (s' := P + m) (n' := m)
    (keys := vs) (keys' := tags) (L := sides.2) (cells := A) hvn rfl
    (fun x hx => (hLm x hx).2) tn (by omega) (fun x hx => (hPm x hx).2)
    (fun i hi => hlongA i (hs2L i hi))
  have hlongB := step hlongA b3
  obtain ⟨C, c1, c2, c3⟩ := fold_updateVertices (s := L) (n := m) (s' := P) (n' := m)
    (keys := vs) (keys' := tags) (L := List.range' N f.length) (cells := B) hvn rfl
    (fun x hx => (hLm x hx).1) tn (by omega) (fun x hx => (hPm x hx).1)
    (fun i hi => hlongB i (by have := List.mem_range'_1.1 hi; omega))
  have hlongC := step hlongB c3
  obtain ⟨D, d1, d2, d3⟩ := fold_updateVertices (s := L + m) (n := m) (s' := P + m) (n' := m)
    (keys := vs) (keys' := tags) (L := List.range' (N + f.length) f.length) (cells := C) hvn rfl
    (fun x hx => (hLm x hx).2) tn (by omega) (fun x hx => (hPm x hx).2)
    (fun i hi => hlongC i (by have := List.mem_range'_1.1 hi; omega))
  rw [a1, Res.bind_ok, b1, Res.bind_ok, c1, Res.bind_ok, d1, Res.bind_ok] at hq
  obtain rfl := Except.ok.inj hq
  have r1 : ∀ {i}, i < N → i ∉ List.range' N f.length := fun hi h' => by
    have := List.mem_range'_1.1 h'; omega
  have r2 : ∀ {i}, i < N → i ∉ List.range' (N + f.length) f.length := fun hi h' => by
    have := List.mem_range'_1.1 h'; omega
  have n1 : ∀ {i}, i ∉ neighs → i ∉ sides.1 := fun hi h' => hi ((s1 _).1 h').1
  have n2 : ∀ {i}, i ∉ neighs → i ∉ sides.2 := fun hi h' => hi ((s2 _).1 h').1
  have up : ∀ {i c}, Stored cells1 i c →
      Stored (cells1 ++ vp.map some ++ vn.map some) i c :=
    fun hc => stored_append_left (stored_append_left hc)
  rw [← hlen]
  refine ⟨tags, t2, ?_, ⟨xs, fancy_iff.1 e4, rfl⟩, ?_, ?_, ?_, ?_⟩
  · rw [d2, c2, b2, a2]
    simp only [List.length_append, List.length_map, l5, l6]
    omega
  · intro i c hc hor c1 hc1
    have hi : i ∉ neighs := by
      intro hi
      obtain ⟨h2, c', hc', hd, -⟩ := (hmem i).1 hi
      rcases hor with hor | hor
      · obtain rfl := stored_unique' hc hc'
        omega
      · exact h2 hor
    have hiN := stored_lt hc
    exact (d3 _ _ ((c3 _ _ ((b3 _ _ ((a3 _ _ (up hc1)).2 (n1 hi))).2 (n2 hi))).2 (r1 hiN))).2
      (r2 hiN)
  · intro i c σ hc hd hif hσ c1 hc1
    have hiN := stored_lt hc
    obtain ⟨c1', hc1', k1, k2, k3, k4⟩ := h1 i c hc
    obtain rfl := stored_unique' hc1 hc1'
    have hq : positiveQ k ⟨cells1, p.points⟩ i = .ok σ :=
      (positiveQ_iff (p := ⟨cells1, p.points⟩) hc1).2 ((side_congr k2).2 hσ)
    by_cases hi : i ∈ neighs
    · cases σ with
      | true =>
        have h5 : i ∈ sides.1 := (s1 i).2 ⟨hi, hq⟩
        have h6 : i ∉ sides.2 := by
          intro h'
          have := ((s2 i).1 h').2
          rw [hq] at this
          cases this
        exact (d3 _ _ ((c3 _ _ ((b3 _ _ ((a3 _ _ (up hc1)).1 h5)).2 h6)).2 (r1 hiN))).2 (r2 hiN)
      | false =>
        have h5 : i ∈ sides.2 := (s2 i).2 ⟨hi, hq⟩
        have h6 : i ∉ sides.1 := by
          intro h'
          have := ((s1 i).1 h').2
          rw [hq] at this
          cases this
        exact (d3 _ _ ((c3 _ _ ((b3 _ _ ((a3 _ _ (up hc1)).2 h6)).1 h5)).2 (r1 hiN))).2 (r2 hiN)
    · have h7 := (d3 _ _ ((c3 _ _ ((b3 _ _ ((a3 _ _ (up hc1)).2 (n1 hi))).2 (n2 hi))).2
        (r1 hiN))).2 (r2 hiN)
      obtain ⟨ws, hws⟩ := h.sub0 hc
      have hno : ∀ v ∈ ws, v ∉ vs := by
        intro v hvw hvv
        exact hi ((hmem i).2 ⟨hif, c, hc, hd, v, hvv, by simpa [subD, hws] using hvw⟩)
      rwa [mapVertices_id]
      · intro ids hids x hx
        rw [k3, hws] at hids
        obtain rfl : ws = ids := by simpa using hids
        exact copyOf_of_not_mem (hno x hx)
      · intro t ht
        rw [k2] at ht
        obtain ⟨v, hvw, hvt⟩ := forall₂_right (h.nodes i c hc hd ws hws).2 ht
        exact copyOf_of_not_mem ((copy_tag h t2 hvt).1 (hno v hvw))
  · intro σ j hj c1 hc1
    have hni : ∀ i, N ≤ i → i ∉ neighs := fun i hi h' => by have := hnst i h'; omega
    cases σ with
    | true =>
      have hi := hni (N + j) (by omega)
      have h5 : N + j ∈ List.range' N f.length := List.mem_range'_1.2 ⟨by omega, by omega⟩
      have h6 : N + j ∉ List.range' (N + f.length) f.length := fun h' => by
        have := List.mem_range'_1.1 h'; omega
      exact (d3 _ _ ((c3 _ _ ((b3 _ _ ((a3 _ _ (up hc1)).2 (n1 hi))).2 (n2 hi))).1 h5)).2 h6
    | false =>
      have hi := hni (N + f.length + j) (by omega)
      have h5 : N + f.length + j ∈ List.range' (N + f.length) f.length :=
        List.mem_range'_1.2 ⟨by omega, by omega⟩
      have h6 : N + f.length + j ∉ List.range' N f.length := fun h' => by
        have := List.mem_range'_1.1 h'; omega
      exact (d3 _ _ ((c3 _ _ ((b3 _ _ ((a3 _ _ (up hc1)).2 (n1 hi))).2 (n2 hi))).2 h6)).1 h5
  · intro σ j v hj
    have hjm := (List.getElem?_eq_some_iff.1 hj).1
    have key : ∀ i c, L ≤ i → Stored (cells1 ++ vp.map some ++ vn.map some) i c →
        Stored D i c := by
      intro i c hi hc
      have hi' : i ∉ neighs := fun h' => by have := hnst i h'; omega
      have h5 : i ∉ List.range' N f.length := fun h' => by
        have := List.mem_range'_1.1 h'; omega
      have h6 : i ∉ List.range' (N + f.length) f.length := fun h' => by
        have := List.mem_range'_1.1 h'; omega
      exact (d3 _ _ ((c3 _ _ ((b3 _ _ ((a3 _ _ hc).2 (n1 hi'))).2 (n2 hi'))).2 h5)).2 h6
    cases σ with
    | true =>
      obtain ⟨c, hc, -, hr⟩ := e5 j v hj
      exact ⟨c, hc, key _ _ (by simp only [startOf, if_true]; omega)
        (stored_append_left (stored_append_right hr))⟩
    | false =>
      obtain ⟨c, hc, -, hr⟩ := e6 j v hj
      have h5 := stored_append_right (cells := cells1 ++ vp.map some) hr
      simp only [List.length_append, List.length_map, l5] at h5
      exact ⟨c, hc, key _ _ (by simp only [startOf]; simp; omega) h5⟩

theorem cutNodes_total {n : Nat} (h : CutOK p.cells p.points.length) {g2 g1 : DiGraph Node}
    (hg2 : buildGraph ⟨2, p.cells⟩ 2 2 = .ok g2) (hg1 : buildGraph ⟨2, p.cells⟩ 1 1 = .ok g1)
    {f : List Cell} {vs : List Nat} {cells1 : Cells} (h1 : SameNodes p.cells cells1)
    (hlen : cells1.length = p.cells.length + 2 * f.length)
    (hlong : ∀ i < cells1.length, ∃ c, Stored cells1 i c ∧ 0 < c.sub.length)
    (hn : n = p.cells.length) (hvn : vs.Nodup) (hv : ∀ v ∈ vs, HasDim p.cells 0 v)
    (hm : k.mat ≠ none)
    (hu2 : ∀ v ∈ vs, ∃ i, HasDim p.cells 2 i ∧ SubEntity p.cells i 0 v)
    (hu1 : ∀ v ∈ vs, ∃ i, HasDim p.cells 1 i ∧ SubEntity p.cells i 0 v) :
    ∃ q, cutNodes s k g2 g1 ⟨cells1, p.points⟩ n f vs = .ok q := by
  subst hn
  obtain ⟨neighs, e1⟩ := vertexNeighs_total h hg2 hg1 (f := f) hu2 hu1
  have hmem := vertexNeighs_ok h hg2 hg1 e1
  have hnst : ∀ i ∈ neighs, ∃ c, Stored p.cells i c := by
    intro i hi
    obtain ⟨-, c, hc, -⟩ := (hmem i).1 hi
    exact ⟨c, hc⟩
  obtain ⟨sides, e2⟩ := splitSides_total (side := positiveQ k ⟨cells1, p.points⟩) (l := neighs) (by
    intro i hi
    obtain ⟨c, hc⟩ := hnst i hi
    obtain ⟨σ, hσ⟩ := h.side hc k
    obtain ⟨c1, hc1, -, k2, -⟩ := h1 i c hc
    exact ⟨σ, (positiveQ_iff (p := ⟨cells1, p.points⟩) hc1).2 ((side_congr k2).2 hσ)⟩)
  obtain ⟨s1, s2⟩ := splitSides_ok e2
  obtain ⟨tags, e3, t2⟩ := nodeTags_ok h h1 hv
  obtain ⟨tn, tl⟩ := tags_nodup h t2 hvn
  obtain ⟨xs, e4⟩ := fancy_total (a := p.points) tl
  have hst1 : ∀ v ∈ vs, ∃ c, Stored cells1 v c := by
    intro v hv'
    obtain ⟨c, hc, -⟩ := hv v hv'
    obtain ⟨c1, hc1, -⟩ := h1 v c hc
    exact ⟨c1, hc1⟩
  obtain ⟨vp, e5⟩ := copyVertices_total (s := s) (σ := 1) hm (n := cells1.length)
    (t := p.points.length) hst1
  obtain ⟨vn, e6⟩ := copyVertices_total (s := s) (σ := -1) hm (n := cells1.length + vs.length)
    (t := p.points.length + vs.length) hst1
  have hvl : ∀ x ∈ vs, x < p.cells.length := by
    intro x hx
    obtain ⟨c, hc, -⟩ := hv x hx
    exact stored_lt hc
  have htl := t2.length_eq
  have hlong0 : ∀ i < cells1.length, ∃ c, Stored (cells1 ++ vp.map some ++ vn.map some) i c ∧
      0 < c.sub.length := by
    intro i hi
    obtain ⟨c, hc, hl⟩ := hlong i hi
    exact ⟨c, stored_append_left (stored_append_left hc), hl⟩
  have step : ∀ {A B : Cells} {V T : Nat → Nat} {L' : List Nat},
      (∀ i < cells1.length, ∃ c, Stored A i c ∧ 0 < c.sub.length) →
      (∀ i c, Stored A i c → (i ∈ L' → Stored B i (mapVertices V T c)) ∧
        (i ∉ L' → Stored B i c)) →
      ∀ i < cells1.length, ∃ c, Stored B i c ∧ 0 < c.sub.length := by
    intro A B V T L' hA hB i hi
    obtain ⟨c, hc, hl⟩ := hA i hi
    by_cases h' : i ∈ L'
    · exact ⟨_, (hB i c hc).1 h', by simpa [mapVertices] using hl⟩
    · exact ⟨_, (hB i c hc).2 h', hl⟩
  have hnL : ∀ i ∈ neighs, i < cells1.length := fun i hi => by
    obtain ⟨c, hc⟩ := hnst i hi
    have := stored_lt hc
    omega
  obtain ⟨A, a1, a2, a3⟩ := fold_updateVertices (s := cells1.length) (n := vs.length)
    (s' := p.points.length) (n' := vs.length) (keys := vs)
    (keys' := tags) (L := sides.1) (cells := cells1 ++ vp.map some ++ vn.map some) hvn rfl
    (fun x hx => by have := hvl x hx; omega) tn (by omega) tl
    (fun i hi => hlong0 i (hnL i ((s1 i).1 hi).1))
  have hlongA := step hlong0 a3
  obtain ⟨B, b1, b2, b3⟩ := fold_updateVertices (s := cells1.length + vs.length) (n := vs.length)
    (s' := p.points.length + vs.length) (n' := vs.length)
    (keys := vs) (keys' := tags) (L := sides.2) (cells := A) hvn rfl
    (fun x hx => by have := hvl x hx; omega) tn (by omega) (fun x hx => by have := tl x hx; omega)
    (fun i hi => hlongA i (hnL i ((s2 i).1 hi).1))
  have hlongB := step hlongA b3
  obtain ⟨C, c1, c2, c3⟩ := fold_updateVertices (s := cells1.length) (n := vs.length)
    (s' := p.points.length) (n' := vs.length)
    (keys := vs) (keys' := tags) (L := List.range' p.cells.length f.length) (cells := B) hvn rfl
    (fun x hx => by have := hvl x hx; omega) tn (by omega) tl
    (fun i hi => hlongB i (by have := List.mem_range'_1.1 hi; omega))
  have hlongC := step hlongB c3
  obtain ⟨D, d1, d2, d3⟩ := fold_updateVertices (s := cells1.length + vs.length) (n := vs.length)
    (s' := p.points.length + vs.length) (n' := vs.length)
    (keys := vs) (keys' := tags) (L := List.range' (p.cells.length + f.length) f.length)
    (cells := C) hvn rfl
    (fun x hx => by have := hvl x hx; omega) tn (by omega) (fun x hx => by have := tl x hx; omega)
    (fun i hi => hlongC i (by have := List.mem_range'_1.1 hi; omega))
  refine ⟨⟨D, p.points ++ xs ++ xs⟩, ?_⟩
  unfold cutNodes
  rw [e1, Res.bind_ok, e2, Res.bind_ok]
  dsimp only
  rw [e3, Res.bind_ok, fancy_iff.2 e4, Res.bind_ok, e5, Res.bind_ok, e6, Res.bind_ok, a1,
    Res.bind_ok, b1, Res.bind_ok, c1, Res.bind_ok, d1, Res.bind_ok]
  rfl

end Verif.EmbedCut
