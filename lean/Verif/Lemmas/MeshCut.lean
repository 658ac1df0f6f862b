/-
Lemmas for C58.
-/
import Verif.Spec.MeshCut
import Verif.Props.MeshOps

namespace Verif.MeshOps
open MeshBuild MeshGraph MeshStore Trace MeshMetrics

/-! ### Appending cells -/

theorem stored_append {cells : Cells} {r : List Cell} {i : Nat} {c : Cell} :
    Stored (cells ++ r.map some) i c ↔
      Stored cells i c ∨ (cells.length ≤ i ∧ r[i - cells.length]? = some c) := by
  unfold Stored
  rcases Nat.lt_or_ge i cells.length with h | h
  · rw [List.getElem?_append_left h]
    constructor
    · exact Or.inl
    · rintro (h' | ⟨h', -⟩)
      · exact h'
      · omega
  · rw [List.getElem?_append_right h, List.getElem?_map, List.getElem?_eq_none h]
    cases r[i - cells.length]? <;> simp [h]

theorem stored_lt {cells : Cells} {i : Nat} {c : Cell} (h : Stored cells i c) :
    i < cells.length := (List.getElem?_eq_some_iff.1 h).1

/-- A batch of cells that may follow the stored ones: numbered consecutively, naming themselves,
their sub-cells stored, their nodes those of their vertices, new vertices with new tags. -/
structure BatchOK (cells : Cells) (n n' : Nat) (r : List Cell) : Prop where
  id : ∀ (i : Nat) c, r[i]? = some c → c.id = cells.length + i
  dim : ∀ c ∈ r, c.dimension ≤ 3
  len : ∀ c ∈ r, c.sub.length = c.dimension + 1
  self : ∀ c ∈ r, c.sub[c.dimension]? = some [c.id]
  sub : ∀ c ∈ r, ∀ e < c.dimension, ∀ ids, c.sub[e]? = some ids →
    ids ≠ [] ∧ ids.Nodup ∧ ∀ x ∈ ids, HasDim cells e x
  nodes : ∀ c ∈ r, c.dimension ≠ 0 → ∀ vs, c.sub[0]? = some vs →
    List.Forall₂ (VTag cells) vs c.nodeTags
  vertex : ∀ c ∈ r, c.dimension = 0 → ∃ t, c.nodeTags = [t] ∧ n ≤ t ∧ t < n'
  distinct : ∀ c ∈ r, ∀ d ∈ r, c.dimension = 0 → d.dimension = 0 → c.nodeTags = d.nodeTags → c = d
  mono : n ≤ n'

theorem MeshOK.append {cells : Cells} {n n' : Nat} (h : MeshOK cells n) {r : List Cell}
    (hr : BatchOK cells n n' r) : MeshOK (cells ++ r.map some) n' := by
  have hpre : ∀ {i c}, Stored cells i c → Stored (cells ++ r.map some) i c :=
    fun h => stored_append.2 (Or.inl h)
  have hdim : ∀ {e i}, HasDim cells e i → HasDim (cells ++ r.map some) e i :=
    fun ⟨c, hc, hd⟩ => ⟨c, hpre hc, hd⟩
  have hvt : ∀ {v t}, VTag cells v t → VTag (cells ++ r.map some) v t :=
    fun ⟨c, hc, hd⟩ => ⟨c, hpre hc, hd⟩
  have hnew : ∀ {i c}, cells.length ≤ i → r[i - cells.length]? = some c → c.id = i ∧ c ∈ r := by
    intro i c hi hc
    refine ⟨?_, List.mem_of_getElem? hc⟩
    rw [hr.id _ c hc]; omega
  have hself : ∀ {i c}, cells.length ≤ i → r[i - cells.length]? = some c →
      HasDim (cells ++ r.map some) c.dimension i := by
    intro i c hi hc
    exact ⟨c, stored_append.2 (Or.inr ⟨hi, hc⟩), rfl⟩
  have hsubs : ∀ {i c}, Stored (cells ++ r.map some) i c → ∀ {e : Nat} {ids},
      c.sub[e]? = some ids → ids ≠ [] ∧ ids.Nodup ∧
        ∀ x ∈ ids, HasDim (cells ++ r.map some) e x := by
    intro i c hc e ids hids
    rcases stored_append.1 hc with hc | ⟨hi, hc⟩
    · exact ⟨h.wf.subNe i c hc ids (List.mem_of_getElem? hids),
        h.nodup i c hc ids (List.mem_of_getElem? hids),
        fun x hx => hdim (h.wf.subOk i c hc e ids hids x hx)⟩
    · obtain ⟨hid, hmem⟩ := hnew hi hc
      have hlt : e < c.sub.length := (List.getElem?_eq_some_iff.1 hids).1
      rw [hr.len c hmem] at hlt
      by_cases he : e = c.dimension
      · subst he
        rw [hr.self c hmem] at hids
        obtain rfl : [c.id] = ids := by simpa using hids
        refine ⟨by simp, by simp, ?_⟩
        intro x hx
        rw [List.mem_singleton.1 hx, hid]
        exact hself hi hc
      · obtain ⟨h1, h2, h3⟩ := hr.sub c hmem e (by omega) ids hids
        exact ⟨h1, h2, fun x hx => hdim (h3 x hx)⟩
  have hvt' : ∀ {v t}, VTag (cells ++ r.map some) v t → VTag cells v t ∨
      (cells.length ≤ v ∧ n ≤ t ∧ ∃ c, r[v - cells.length]? = some c ∧ c.dimension = 0 ∧
        c.nodeTags = [t]) := by
    rintro v t ⟨c, hc, hd, ht⟩
    rcases stored_append.1 hc with hc | ⟨hi, hc⟩
    · exact Or.inl ⟨c, hc, hd, ht⟩
    · obtain ⟨t', h1, h2, -⟩ := hr.vertex c (List.mem_of_getElem? hc) hd
      rw [ht] at h1
      obtain rfl : t = t' := by simpa using h1
      exact Or.inr ⟨hi, h2, c, hc, hd, ht⟩
  refine ⟨⟨?_, ?_, ?_, ?_, ?_, ?_, ?_⟩, ?_, ⟨?_, ?_⟩, ?_⟩
  · intro i hi
    rcases Nat.lt_or_ge i cells.length with hl | hl
    · obtain ⟨c, hc⟩ := h.wf.filled i hl
      exact ⟨c, hpre hc⟩
    · simp only [List.length_append, List.length_map] at hi
      exact ⟨_, stored_append.2 (Or.inr ⟨hl, List.getElem?_eq_getElem (by omega)⟩)⟩
  · intro i c hc
    rcases stored_append.1 hc with hc | ⟨hi, hc⟩
    · exact h.wf.ids i c hc
    · exact (hnew hi hc).1
  · intro i c hc
    rcases stored_append.1 hc with hc | ⟨hi, hc⟩
    · exact h.wf.dims i c hc
    · exact hr.dim c (hnew hi hc).2
  · intro i c hc
    rcases stored_append.1 hc with hc | ⟨hi, hc⟩
    · exact h.wf.subLen i c hc
    · exact hr.len c (hnew hi hc).2
  · intro i c hc e ids hids x hx
    exact (hsubs hc hids).2.2 x hx
  · intro i c hc ids hids
    obtain ⟨e, he⟩ := List.mem_iff_getElem?.1 hids
    exact (hsubs hc he).1
  · intro i c hc
    rcases stored_append.1 hc with hc | ⟨hi, hc⟩
    · exact h.wf.self i c hc
    · obtain ⟨hid, hmem⟩ := hnew hi hc
      rw [hr.self c hmem, hid]
  · intro i c hc ids hids
    obtain ⟨e, he⟩ := List.mem_iff_getElem?.1 hids
    exact (hsubs hc he).2.1
  · intro i c hc vs hvs
    rcases stored_append.1 hc with hc' | ⟨hi, hc'⟩
    · exact (h.nodes.aligned i c hc' vs hvs).imp fun _ _ => hvt
    · obtain ⟨hid, hmem⟩ := hnew hi hc'
      by_cases hd : c.dimension = 0
      · have h1 := hr.self c hmem
        rw [hd, hvs] at h1
        obtain rfl : vs = [c.id] := by simpa using h1
        obtain ⟨t, ht, -⟩ := hr.vertex c hmem hd
        rw [ht]
        refine .cons ⟨c, ?_, hd, ht⟩ .nil
        rw [hid]; exact hc
      · exact (hr.nodes c hmem hd vs hvs).imp fun _ _ => hvt
  · intro v w t h1 h2
    rcases hvt' h1 with h1 | ⟨hv, hnt, c, hc, hcd, hct⟩
    · rcases hvt' h2 with h2 | ⟨hw, hnt, -⟩
      · exact h.nodes.distinct v w t h1 h2
      · have := h.tags v t h1; omega
    · rcases hvt' h2 with h2 | ⟨hw, -, d, hd, hdd, hdt⟩
      · have := h.tags w t h2; omega
      · have := hr.distinct c (List.mem_of_getElem? hc) d (List.mem_of_getElem? hd) hcd hdd
          (by rw [hct, hdt])
        subst this
        rw [← (hnew hv hc).1, ← (hnew hw hd).1]
  · intro v t h1
    rcases hvt' h1 with h1 | ⟨hv, hnt, c, hc, hcd, hct⟩
    · have := h.tags v t h1
      have := hr.mono
      omega
    · obtain ⟨t', h2, -, h3⟩ := hr.vertex c (List.mem_of_getElem? hc) hcd
      rw [hct] at h2
      obtain rfl : t = t' := by simpa using h2
      exact h3

/-! ### The selections -/

theorem mem_npSort_uniq {l : List Nat} {x : Nat} : x ∈ npSort (uniq l) ↔ x ∈ l := by
  rw [mem_npSort, mem_uniq]

theorem npSort_uniq_nodup (l : List Nat) : (npSort (uniq l)).Nodup :=
  (npSort_perm _).nodup_iff.2 (nodup_uniq l)

theorem mapRes_cellAt {cells : Cells} {ids : List Nat} {r : List Cell}
    (h : mapRes (cellAt cells) ids = .ok r) :
    List.Forall₂ (fun i c => Stored cells i c) ids r :=
  (mapRes_iff.1 h).imp fun _ _ h => cellAt_eq_ok.1 h

theorem forall₂_ids {cells : Cells} (hw : WellFormed cells) {ids : List Nat} {r : List Cell}
    (h : List.Forall₂ (fun i c => Stored cells i c) ids r) : r.map (·.id) = ids := by
  induction h with
  | nil => rfl
  | cons h _ ih => rw [List.map_cons, ih, hw.ids _ _ h]

/-- The members of a zipped list, by position. -/
theorem mem_zip_forall₂ {α β : Type} {R : α → β → Prop} {xs : List α} {ys : List β}
    (h : List.Forall₂ R xs ys) {p : α × β} (hp : p ∈ xs.zip ys) : R p.1 p.2 ∧ p.1 ∈ xs := by
  induction h with
  | nil => simp at hp
  | cons h0 _ ih =>
    rw [List.zip_cons_cons] at hp
    rcases List.mem_cons.1 hp with rfl | hp
    · exact ⟨h0, by simp⟩
    · obtain ⟨h1, h2⟩ := ih hp
      exact ⟨h1, List.mem_cons_of_mem _ h2⟩

theorem exists_zip_forall₂ {α β : Type} {R : α → β → Prop} {xs : List α} {ys : List β}
    (h : List.Forall₂ R xs ys) {x : α} (hx : x ∈ xs) : ∃ y, (x, y) ∈ xs.zip ys := by
  induction h with
  | nil => simp at hx
  | cons h0 _ ih =>
    rw [List.zip_cons_cons]
    rcases List.mem_cons.1 hx with rfl | hx
    · exact ⟨_, List.mem_cons_self⟩
    · obtain ⟨y, hy⟩ := ih hx
      exact ⟨y, List.mem_cons_of_mem _ hy⟩

theorem zip_filter_sublist {α β : Type} (xs : List α) (ys : List β) (f : α × β → Bool) :
    (((xs.zip ys).filter f).map Prod.fst).Sublist xs := by
  have h1 : (((xs.zip ys).filter f).map Prod.fst).Sublist ((xs.zip ys).map Prod.fst) :=
    List.filter_sublist.map _
  refine h1.trans ?_
  clear h1
  induction xs generalizing ys with
  | nil => simp
  | cons x xs ih =>
    cases ys with
    | nil => simp
    | cons y ys => simpa using ih ys

theorem selectC1_spec {onLine : Pt ℝ → Bool} {tags : CutTags} {p : Parts} {c1 : List Cell}
    (hw : WellFormed p.cells) (h : selectC1 onLine tags p = .ok c1) :
    (c1.map (·.id)).Nodup ∧ ∀ c, c ∈ c1 ↔ IsC1 onLine tags p c := by
  obtain ⟨cs, hcs⟩ := hw.eq_map
  unfold selectC1 at h
  rw [hcs, selectCells_filled, Res.bind_ok] at h
  split at h
  · simp at h
  · obtain ⟨xcs, h1, h2⟩ := Res.bind_eq_ok.1 h
    simp only [Res.pure_eq, Except.ok.injEq] at h2
    have h3 := mapRes_iff.1 h1
    have hmem : ∀ c, c ∈ cs ↔ Stored p.cells c.id c := by
      intro c
      rw [hcs]
      constructor
      · intro hc
        obtain ⟨i, hi⟩ := List.mem_iff_getElem?.1 hc
        have hst : Stored (cs.map some) i c := stored_map.2 hi
        rw [hw.ids i c (hcs ▸ hst)]
        exact hst
      · intro hc
        exact List.mem_of_getElem? (stored_map.1 hc)
    constructor
    · have hnd : ((cs.filter fun c => c.material == tags.line).map (·.id)).Nodup :=
        filter_ids_nodup hw hcs _
      rw [← h2]
      exact hnd.sublist ((zip_filter_sublist _ _ _).map _)
    · intro c
      rw [← h2]
      simp only [List.mem_map, List.mem_filter]
      constructor
      · rintro ⟨⟨c', x⟩, ⟨hz, hon⟩, rfl⟩
        obtain ⟨h4, h5⟩ := mem_zip_forall₂ h3 hz
        simp only [List.mem_filter, beq_iff_eq] at h5
        exact ⟨(hmem _).1 h5.1, h5.2, x, h4, hon⟩
      · rintro ⟨hst, hmat, x, hx, hon⟩
        have hc : c ∈ cs.filter fun c => c.material == tags.line := by
          simp [(hmem c).2 hst, hmat]
        obtain ⟨y, hy⟩ := exists_zip_forall₂ h3 hc
        have := (mem_zip_forall₂ h3 hy).1
        simp only at this
        rw [hx] at this
        obtain rfl : x = y := by simpa using this
        exact ⟨(c, x), ⟨hy, hon⟩, rfl⟩

theorem selectC2_spec {tags : CutTags} {p : Parts} {c1 c2 : List Cell}
    (hw : WellFormed p.cells) (h : selectC2 tags p.cells c1 = .ok c2) :
    c1 ≠ [] ∧ (c2.map (·.id)).Nodup ∧ ∀ c, c ∈ c2 ↔ IsC2 tags p c1 c := by
  unfold selectC2 at h
  split at h
  · simp at h
  · rename_i hne
    obtain ⟨subs, h1, h⟩ := Res.bind_eq_ok.1 h
    obtain ⟨r, h2, h⟩ := Res.bind_eq_ok.1 h
    simp only [Res.pure_eq, Except.ok.injEq] at h
    have h3 := mapRes_iff.1 h1
    have h4 := mapRes_cellAt h2
    have h5 := forall₂_ids hw h4
    refine ⟨hne, ?_, ?_⟩
    · rw [← h]
      have : (r.map (·.id)).Nodup := by rw [h5]; exact npSort_uniq_nodup _
      exact this.sublist (List.filter_sublist.map _)
    · intro c
      have hsub : ∀ x, x ∈ subs.flatten ↔ ∃ d ∈ c1, ∃ vs, d.sub[0]? = some vs ∧ x ∈ vs := by
        intro x
        rw [List.mem_flatten]
        constructor
        · rintro ⟨l, hl, hx⟩
          obtain ⟨d, hd, hdl⟩ := forall₂_right h3 hl
          exact ⟨d, hd, l, by simpa [Cell.subIds] using hdl, hx⟩
        · rintro ⟨d, hd, vs, hvs, hx⟩
          obtain ⟨l, hl, hdl⟩ := forall₂_left h3 hd
          have : d.sub[0]? = some l := by simpa [Cell.subIds] using hdl
          rw [hvs] at this
          obtain rfl : vs = l := by simpa using this
          exact ⟨vs, hl, hx⟩
      rw [← h]
      simp only [List.mem_filter, bne_iff_ne]
      constructor
      · rintro ⟨hc, hm⟩
        obtain ⟨i, hi, hst⟩ := forall₂_right h4 hc
        have hid := hw.ids i c hst
        subst hid
        exact ⟨hst, hm, (hsub _).1 (mem_npSort_uniq.1 hi)⟩
      · rintro ⟨hst, hm, hd⟩
        obtain ⟨c', hc', hst'⟩ := forall₂_left h4 (mem_npSort_uniq.2 ((hsub _).2 hd))
        obtain rfl := stored_unique hst hst'
        exact ⟨hc', hm⟩

/-- The cells found around the vertices. -/
theorem around_spec {p : Parts} {cells : Cells} {g : DiGraph Node} {k : Nat}
    (hg : IsSubEntityGraph p.cells (HasDim p.cells k) k 0 g)
    {c2 r : List Cell} (hc2 : ∀ c ∈ c2, c.dimension = 0)
    (hsame : ∀ i c, Stored cells i c → c.id = i)
    (h : around g cells c2 = .ok r) :
    (r.map (·.id)).Nodup ∧ ∀ c, c ∈ r ↔ Stored cells c.id c ∧ HasDim p.cells k c.id ∧
      ∃ v ∈ c2, SubEntity p.cells c.id 0 v.id := by
  unfold around at h
  obtain ⟨data, h1, h2⟩ := Res.bind_eq_ok.1 h
  have h3 := mapRes_iff.1 h1
  have h4 := mapRes_cellAt h2
  have h5 : r.map (·.id) = npSort (uniq (data.flatten.map Prod.snd)) := by
    clear h h2
    generalize npSort (uniq (data.flatten.map Prod.snd)) = ids at h4
    induction h4 with
    | nil => rfl
    | cons h _ ih => rw [List.map_cons, ih, hsame _ _ h]
  have hmem : ∀ i, i ∈ data.flatten.map Prod.snd ↔
      HasDim p.cells k i ∧ ∃ v ∈ c2, SubEntity p.cells i 0 v.id := by
    intro i
    simp only [List.mem_map, List.mem_flatten]
    constructor
    · rintro ⟨x, ⟨l, hl, hx⟩, rfl⟩
      obtain ⟨v, hv, hvl⟩ := forall₂_right h3 hl
      unfold DiGraph.predecessors at hvl
      split at hvl
      · simp only [Except.ok.injEq] at hvl
        rw [← hvl] at hx
        obtain ⟨⟨u, w⟩, hu, rfl⟩ := List.mem_map.1 hx
        simp only [List.mem_filter, decide_eq_true_eq] at hu
        obtain ⟨i, j, rfl, hw, hi, hs⟩ := (hg.edges u w).1 hu.1
        rw [hw] at hu
        have h6 := hu.2
        simp only [cellIndex, Prod.mk.injEq] at h6
        exact ⟨hi, v, hv, h6.2 ▸ hs⟩
      · simp at hvl
    · rintro ⟨hi, v, hv, hs⟩
      obtain ⟨l, hl, hvl⟩ := forall₂_left h3 hv
      unfold DiGraph.predecessors at hvl
      split at hvl
      · simp only [Except.ok.injEq] at hvl
        refine ⟨(k, i), ⟨l, hl, ?_⟩, rfl⟩
        rw [← hvl]
        refine List.mem_map.2 ⟨((k, i), (0, v.id)), List.mem_filter.2 ⟨?_, ?_⟩, rfl⟩
        · exact (hg.edges _ _).2 ⟨i, v.id, rfl, rfl, hi, hs⟩
        · simp [cellIndex, hc2 v hv]
      · simp at hvl
  refine ⟨by rw [h5]; exact npSort_uniq_nodup _, ?_⟩
  intro c
  constructor
  · intro hc
    obtain ⟨i, hi, hst⟩ := forall₂_right h4 hc
    have hid := hsame i c hst
    subst hid
    exact ⟨hst, (hmem _).1 (mem_npSort_uniq.1 hi)⟩
  · rintro ⟨hst, hd⟩
    obtain ⟨c', hc', hst'⟩ := forall₂_left h4 (mem_npSort_uniq.2 ((hmem _).2 hd))
    obtain rfl := stored_unique hst hst'
    exact hc'

theorem sideCells_spec {a b : Pt ℝ} {points : Points ℝ} {cs : List Cell}
    {r : List Cell × List Cell} (h : sideCells a b points cs = .ok r) :
    cs ≠ [] ∧ r.1.Sublist cs ∧ r.2.Sublist cs ∧
      (∀ c, c ∈ r.1 ↔ c ∈ cs ∧ ∃ s, SideIs a b points c s ∧ 0 < s) ∧
      (∀ c, c ∈ r.2 ↔ c ∈ cs ∧ ∃ s, SideIs a b points c s ∧ s < 0) := by
  unfold sideCells at h
  split at h
  · simp at h
  · rename_i hne
    obtain ⟨xcs, h1, h2⟩ := Res.bind_eq_ok.1 h
    simp only [Res.pure_eq, Except.ok.injEq] at h2
    have h3 := mapRes_iff.1 h1
    have h4 : List.Forall₂ (fun c s => SideIs a b points c s) cs
        (xcs.map fun x => dot3 (x - midpoint a b) (normalDir a b)) := by
      rw [List.forall₂_map_right_iff]
      exact h3.imp fun c x hx => ⟨x, hx, rfl⟩
    have huniq : ∀ {c s s'}, SideIs a b points c s → SideIs a b points c s' → s = s' := by
      rintro c s s' ⟨x, hx, rfl⟩ ⟨x', hx', rfl⟩
      rw [hx] at hx'
      obtain rfl : x = x' := by simpa using hx'
      rfl
    refine ⟨hne, ?_, ?_, ?_, ?_⟩
    · rw [← h2]; exact zip_filter_sublist _ _ _
    · rw [← h2]; exact zip_filter_sublist _ _ _
    · intro c
      rw [← h2]
      simp only [List.mem_map, List.mem_filter, decide_eq_true_eq]
      constructor
      · rintro ⟨⟨c', s⟩, ⟨hz, hs⟩, rfl⟩
        obtain ⟨h5, h6⟩ := mem_zip_forall₂ h4 hz
        exact ⟨h6, s, h5, hs⟩
      · rintro ⟨hc, s, hs, hpos⟩
        obtain ⟨s', hs'⟩ := exists_zip_forall₂ h4 hc
        obtain rfl := huniq hs (mem_zip_forall₂ h4 hs').1
        exact ⟨(c, s), ⟨hs', hpos⟩, rfl⟩
    · intro c
      rw [← h2]
      simp only [List.mem_map, List.mem_filter, decide_eq_true_eq]
      constructor
      · rintro ⟨⟨c', s⟩, ⟨hz, hs⟩, rfl⟩
        obtain ⟨h5, h6⟩ := mem_zip_forall₂ h4 hz
        exact ⟨h6, s, h5, hs⟩
      · rintro ⟨hc, s, hs, hpos⟩
        obtain ⟨s', hs'⟩ := exists_zip_forall₂ h4 hc
        obtain rfl := huniq hs (mem_zip_forall₂ h4 hs').1
        exact ⟨(c, s), ⟨hs', hpos⟩, rfl⟩

end Verif.MeshOps
