/-
Lemmas for C34: one pass of the cut.
-/
import Verif.Lemmas.EmbedCut

namespace Verif.EmbedCut
open MeshBuild MeshGraph Trace MeshMetrics MeshOps Skin

variable {s : Style} {k : Cut} {p q : Parts}

theorem CutOK.sub0 {cells : Cells} {n : Nat} (h : CutOK cells n) {i : Nat} {c : Cell}
    (hc : Stored cells i c) : ∃ vs, c.sub[0]? = some vs :=
  ⟨_, List.getElem?_eq_getElem (by rw [h.subLen i c hc]; omega)⟩

theorem CutOK.nodeTags_lt {cells : Cells} {n : Nat} (h : CutOK cells n) {i : Nat} {c : Cell}
    (hc : Stored cells i c) : c.nodeTags ≠ [] ∧ ∀ t ∈ c.nodeTags, t < n := by
  rcases Nat.eq_zero_or_pos c.dimension with hd | hd
  · obtain ⟨t, ht, e⟩ := h.vertex i c hc hd
    rw [e]
    refine ⟨by simp, fun t' ht' => ?_⟩
    rw [List.mem_singleton.1 ht']
    exact ht
  · obtain ⟨vs, hvs⟩ := h.sub0 hc
    obtain ⟨h1, h2⟩ := h.nodes i c hc hd vs hvs
    refine ⟨?_, fun t ht => ?_⟩
    · rintro e
      rw [e] at h2
      exact h1 (List.forall₂_nil_right_iff.1 h2)
    · obtain ⟨v, -, d, hd, hdd, hdt⟩ := forall₂_right h2 ht
      obtain ⟨t', ht', e⟩ := h.vertex v d hd hdd
      rw [hdt] at e
      obtain rfl : t = t' := by simpa using e
      exact ht'

theorem CutOK.side {cells : Cells} {points : Points ℝ} (h : CutOK cells points.length) {i : Nat}
    {c : Cell} (hc : Stored cells i c) (k : Cut) : ∃ σ, Side k points c σ := by
  obtain ⟨h1, h2⟩ := h.nodeTags_lt hc
  obtain ⟨r, hr⟩ := fancy_total (a := points) h2
  have hne : r ≠ [] := by
    rintro rfl
    exact h1 (List.forall₂_nil_right_iff.1 hr)
  have : cellCentroid points c = .ok fun k => (r.map (· k)).sum / r.length := by
    unfold cellCentroid
    rw [fancy_iff.2 hr, Res.bind_ok, if_neg hne]
    rfl
  classical
  exact ⟨decide (0 < dot3 ((fun k => (r.map (· k)).sum / r.length) - k.centre) k.normal), _, this,
    by simp⟩

/-! ### The seam -/

theorem cutEdges_ok {cells : Cells} {n : Nat} (h : CutOK cells n) (k : Cut) :
    ∃ f, cutEdges k cells = .ok f ∧ (f.map Cell.id).Nodup ∧
      ∀ c, c ∈ f ↔ Stored cells c.id c ∧ c.material = k.mat ∧ c.dimension = 1 := by
  obtain ⟨cs, hcs⟩ := h.eq_map
  refine ⟨cs.filter fun c => c.material == k.mat && c.dimension == 1, ?_, ?_, fun c => ?_⟩
  · unfold cutEdges
    rw [hcs]
    exact selectCells_filled _ cs
  · have hfull : cs.map Cell.id = List.range cs.length := by
      apply List.ext_getElem?
      intro i
      rw [List.getElem?_map]
      by_cases hi : i < cs.length
      · have hst : Stored cells i cs[i] := by
          rw [hcs]; exact stored_map.2 (by simp [hi])
        simp [hi, h.ids _ _ hst]
      · simp [hi]
    have : ((cs.filter fun c => c.material == k.mat && c.dimension == 1).map Cell.id).Sublist
        (cs.map Cell.id) := (List.filter_sublist).map _
    rw [hfull] at this
    exact this.nodup List.nodup_range
  · rw [List.mem_filter, Bool.and_eq_true, beq_iff_eq, beq_iff_eq]
    constructor
    · rintro ⟨hc, hcd⟩
      obtain ⟨i, hi, rfl⟩ := List.mem_iff_getElem.1 hc
      have hst : Stored cells i cs[i] := by rw [hcs]; exact stored_map.2 (by simp [hi])
      rw [h.ids _ _ hst]
      exact ⟨hst, hcd⟩
    · rintro ⟨hst, hcd⟩
      rw [hcs, stored_map] at hst
      exact ⟨List.mem_of_getElem? hst, hcd⟩

/-- The vertices of the cut edges that are to be duplicated, read in a mesh with the same
vertices. -/
theorem cutVertices_ok {cells cells1 : Cells} {n : Nat} (h : CutOK cells n) {f : List Cell}
    (hf : ∀ c ∈ f, Stored cells c.id c ∧ c.dimension = 1)
    (h0 : ∀ i c, Stored cells i c → c.dimension = 0 → Stored cells1 i c) :
    ∃ vs, cutVertices k cells1 f = .ok vs ∧ vs.Nodup ∧
      ∀ v, v ∈ vs ↔ ∃ c, Stored cells v c ∧ c.material ≠ k.mat ∧
        ∃ i ∈ f.map Cell.id, SubEntity cells i 0 v := by
  have hsub : ∀ c ∈ f, Cell.subIds c 0 = .ok (subD c 0) := by
    intro c hc
    obtain ⟨vs, hvs⟩ := h.sub0 (hf c hc).1
    rw [Cell.subIds, getIdx_of hvs]
    simp [subD, hvs]
  have hmap : ∀ l : List Cell, (∀ c ∈ l, c ∈ f) → mapRes (fun c => Cell.subIds c 0) l =
      .ok (l.map fun c => subD c 0) := by
    intro l
    induction l with
    | nil => intro _; rfl
    | cons c l ih =>
      intro hl
      rw [mapRes, hsub c (hl c (by simp)), Res.bind_ok, ih fun c hc => hl c (by simp [hc])]
      rfl
  have hmem : ∀ v, v ∈ npSort (uniq (f.map fun c => subD c 0).flatten) ↔
      ∃ i ∈ f.map Cell.id, SubEntity cells i 0 v := by
    intro v
    rw [mem_npSort_uniq, List.mem_flatten]
    constructor
    · rintro ⟨l, hl, hv⟩
      obtain ⟨c, hc, rfl⟩ := List.mem_map.1 hl
      exact ⟨c.id, List.mem_map_of_mem hc, (subEntity_iff (hf c hc).1).2 hv⟩
    · rintro ⟨i, hi, hv⟩
      obtain ⟨c, hc, rfl⟩ := List.mem_map.1 hi
      exact ⟨_, List.mem_map_of_mem hc, (subEntity_iff (hf c hc).1).1 hv⟩
  have hst : ∀ v ∈ npSort (uniq (f.map fun c => subD c 0).flatten),
      ∃ c, Stored cells v c ∧ Stored cells1 v c := by
    intro v hv
    obtain ⟨i, hi, hv⟩ := (hmem v).1 hv
    obtain ⟨c, hc, rfl⟩ := List.mem_map.1 hi
    obtain ⟨hs, hd⟩ := hf c hc
    obtain ⟨c', hc', ids, hids, hvi⟩ := hv
    obtain rfl := stored_unique' hs hc'
    obtain ⟨d, hd', hdd⟩ := h.sub _ c hs 0 (by omega) ids hids v hvi
    exact ⟨d, hd', h0 v d hd' hdd⟩
  obtain ⟨vs, hvs⟩ := filterRes_total (cond := fun v => (do
    let c ← cellAt cells1 v
    pure (c.material != k.mat) : Res Bool))
    (l := npSort (uniq (f.map fun c => subD c 0).flatten)) (by
      intro v hv
      obtain ⟨c, -, hc⟩ := hst v hv
      exact ⟨_, by rw [cellAt_iff.2 hc, Res.bind_ok]; rfl⟩)
  obtain ⟨e1, e2⟩ := filterRes_ok hvs
  refine ⟨vs, ?_, e2.nodup (npSort_uniq_nodup _), fun v => ?_⟩
  · unfold cutVertices
    rw [hmap f fun c hc => hc, Res.bind_ok, hvs]
  · rw [e1]
    constructor
    · rintro ⟨hv, hcond⟩
      obtain ⟨c, hc, hc1⟩ := hst v hv
      rw [cellAt_iff.2 hc1, Res.bind_ok] at hcond
      refine ⟨c, hc, ?_, (hmem v).1 hv⟩
      simpa using Except.ok.inj hcond
    · rintro ⟨c, hc, hm, hv⟩
      have hv' := (hmem v).2 hv
      obtain ⟨d, hd, hd1⟩ := hst v hv'
      obtain rfl := stored_unique' hc hd
      refine ⟨hv', ?_⟩
      rw [cellAt_iff.2 hd1, Res.bind_ok, Res.pure_eq]
      congr 1
      simpa using hm

/-! ### The edges -/

/-- The cells of `L` are changed by `g`, the others stay. -/
def Upd (L : List Nat) (g : Cell → Cell) (cells cells' : Cells) : Prop :=
  cells'.length = cells.length ∧ ∀ i c, Stored cells i c →
    (i ∈ L → Stored cells' i (g c)) ∧ (i ∉ L → Stored cells' i c)

theorem stored_append_left {cells l : Cells} {i : Nat} {c : Cell} (h : Stored cells i c) :
    Stored (cells ++ l) i c := by
  unfold Stored at h ⊢
  rw [List.getElem?_append_left (stored_lt h)]
  exact h

theorem stored_append_right {cells : Cells} {l : List Cell} {j : Nat} {c : Cell}
    (h : l[j]? = some c) : Stored (cells ++ l.map some) (cells.length + j) c := by
  unfold Stored
  rw [List.getElem?_append_right (by omega), Nat.add_sub_cancel_left, List.getElem?_map, h]
  rfl

theorem mapRes_flatten {α : Type} {F : α → Res (List Nat)} {P : α → Nat → Prop} {l : List α}
    {r : List (List Nat)} (h : mapRes F l = .ok r)
    (hF : ∀ a ∈ l, ∀ x, F a = .ok x → ∀ i, i ∈ x ↔ P a i) (i : Nat) :
    i ∈ r.flatten ↔ ∃ a ∈ l, P a i := by
  replace h := mapRes_iff.1 h
  induction h with
  | nil => simp
  | @cons a b l1 l2 h1 _ ih =>
    have e1 : i ∈ l2.flatten ↔ ∃ a ∈ l1, P a i := ih fun a ha => hF a (by simp [ha])
    have e2 := hF a (by simp) b h1 i
    rw [List.flatten_cons, List.mem_append, e1, e2]
    simp

theorem faceNeighs_ok {g : DiGraph Node} {f : List Cell} {r : List Nat} {P : Nat → Nat → Prop}
    (hg : ∀ j l, g.predecessors (1, j) = .ok l → ∀ i, i ∈ l.map Prod.snd ↔ P i j)
    (h : faceNeighs g f = .ok r) (i : Nat) : i ∈ r ↔ ∃ j ∈ f.map Cell.id, P i j := by
  unfold faceNeighs at h
  obtain ⟨l, h1, h2⟩ := Res.bind_eq_ok.1 h
  cases h2
  clear h
  replace h1 := mapRes_iff.1 h1
  induction h1 with
  | nil => simp
  | @cons a b l1 l2 h1 _ ih =>
    have e1 : i ∈ l2.flatten.map Prod.snd ↔ ∃ j ∈ l1.map Cell.id, P i j := ih
    rw [List.flatten_cons, List.map_append, List.mem_append, e1, hg _ _ h1 i]
    simp

theorem cutFaces_spec (h : CutOK p.cells p.points.length) {g : DiGraph Node}
    (hg : buildGraph ⟨2, p.cells⟩ 2 1 = .ok g) {f : List Cell} (hn : (f.map Cell.id).Nodup)
    (hf : ∀ c ∈ f, Stored p.cells c.id c) {cells1 : Cells}
    (hc : cutFaces s k g p f = .ok cells1) :
    cells1.length = p.cells.length + 2 * f.length ∧
    (∀ i c, Stored p.cells i c → c.dimension ≠ 2 → Stored cells1 i c) ∧
    (∀ i c, Stored p.cells i c → c.dimension = 2 → ∃ σ, Side k p.points c σ ∧
      Stored cells1 i
        (mapSub 1 (copyOf (f.map Cell.id) (startOf σ p.cells.length f.length)) c)) ∧
    ∀ σ (j : Nat) c, f[j]? = some c → ∃ m, k.mat = some m ∧
      Stored cells1 (startOf σ p.cells.length f.length + j)
        { c with material := some (s.scale * m + sign σ),
                 id := startOf σ p.cells.length f.length + j,
                 sub := c.sub.set c.dimension
                  (s.own (startOf σ p.cells.length f.length + j) c.id) } := by
  obtain ⟨g', hg', hp, -, -⟩ := h.graph (d := 2) (co := 1) (by omega) (by omega) (by omega)
  rw [hg] at hg'
  cases hg'
  unfold cutFaces at hc
  obtain ⟨neighs, h1, hc⟩ := Res.bind_eq_ok.1 hc
  obtain ⟨sides, h2, hc⟩ := Res.bind_eq_ok.1 hc
  dsimp only at hc
  obtain ⟨fp, h3, hc⟩ := Res.bind_eq_ok.1 hc
  obtain ⟨fn, h4, hc⟩ := Res.bind_eq_ok.1 hc
  obtain ⟨l3, h3⟩ := copyEdges_ok h3
  obtain ⟨l4, h4⟩ := copyEdges_ok h4
  obtain ⟨s1, s2⟩ := splitSides_ok h2
  have hmem := faceNeighs_ok hp h1
  have hlt : ∀ x ∈ f.map Cell.id, x < p.cells.length := by
    intro x hx
    obtain ⟨c, hc, rfl⟩ := List.mem_map.1 hx
    exact stored_lt (hf c hc)
  have hnst : ∀ i ∈ neighs, ∃ c, Stored p.cells i c ∧ c.dimension = 2 := by
    intro i hi
    obtain ⟨j, -, hd, -⟩ := (hmem i).1 hi
    exact hd
  obtain ⟨A, a1, a2, a3⟩ := fold_updateEntity (e := 1) (s := p.cells.length) (n := f.length)
    (keys := f.map Cell.id) (L := sides.1) (cells := p.cells ++ fp.map some ++ fn.map some) hn
    (by simp) hlt (by
      intro i hi
      obtain ⟨c, hc, hd⟩ := hnst i ((s1 i).1 hi).1
      exact ⟨c, stored_append_left (stored_append_left hc), by rw [h.subLen i c hc]; omega⟩)
  rw [a1, Res.bind_ok] at hc
  have hA : ∀ i c, Stored p.cells i c → (i ∈ sides.1 →
      Stored A i (mapSub 1 (copyOf (f.map Cell.id) p.cells.length) c)) ∧
      (i ∉ sides.1 → Stored A i c) :=
    fun i c hc => a3 i c (stored_append_left (stored_append_left hc))
  obtain ⟨B, b1, b2, b3⟩ := fold_updateEntity (e := 1) (s := p.cells.length + f.length)
    (n := f.length) (keys := f.map Cell.id) (L := sides.2) (cells := A) hn
    (by simp) (fun x hx => by have := hlt x hx; omega) (by
      intro i hi
      obtain ⟨c, hc, hd⟩ := hnst i ((s2 i).1 hi).1
      have hni : i ∉ sides.1 := by
        intro hi'
        have := ((s1 i).1 hi').2
        rw [((s2 i).1 hi).2] at this
        cases this
      exact ⟨c, (hA i c hc).2 hni, by rw [h.subLen i c hc]; omega⟩)
  rw [b1] at hc
  obtain rfl := Except.ok.inj hc
  have hold : ∀ i, p.cells.length ≤ i → i ∉ sides.1 ∧ i ∉ sides.2 := by
    intro i hi
    refine ⟨fun h' => ?_, fun h' => ?_⟩
    · obtain ⟨c, hc, -⟩ := hnst i ((s1 i).1 h').1
      have := stored_lt hc
      omega
    · obtain ⟨c, hc, -⟩ := hnst i ((s2 i).1 h').1
      have := stored_lt hc
      omega
  refine ⟨?_, ?_, ?_, ?_⟩
  · rw [b2, a2]
    simp only [List.length_append, List.length_map, l3, l4]
    omega
  · intro i c hc hd
    have hi : i ∉ neighs := by
      intro hi
      obtain ⟨c', hc', hd'⟩ := hnst i hi
      obtain rfl := stored_unique' hc hc'
      exact hd hd'
    have h5 : i ∉ sides.1 := fun h' => hi ((s1 i).1 h').1
    have h6 : i ∉ sides.2 := fun h' => hi ((s2 i).1 h').1
    exact (b3 i c ((hA i c hc).2 h5)).2 h6
  · intro i c hc hd
    obtain ⟨σ, hσ⟩ := h.side hc k
    refine ⟨σ, hσ, ?_⟩
    have hq := (positiveQ_iff (k := k) hc).2 hσ
    by_cases hi : i ∈ neighs
    · cases σ with
      | true =>
        have h5 : i ∈ sides.1 := (s1 i).2 ⟨hi, hq⟩
        have h6 : i ∉ sides.2 := by
          intro h'
          have := ((s2 i).1 h').2
          rw [hq] at this
          cases this
        exact (b3 i _ ((hA i c hc).1 h5)).2 h6
      | false =>
        have h5 : i ∈ sides.2 := (s2 i).2 ⟨hi, hq⟩
        have h6 : i ∉ sides.1 := by
          intro h'
          have := ((s1 i).1 h').2
          rw [hq] at this
          cases this
        exact (b3 i _ ((hA i c hc).2 h6)).1 h5
    · have h5 : i ∉ sides.1 := fun h' => hi ((s1 i).1 h').1
      have h6 : i ∉ sides.2 := fun h' => hi ((s2 i).1 h').1
      have h7 := (b3 i c ((hA i c hc).2 h5)).2 h6
      rwa [mapSub_id]
      intro ids hids x hx
      refine copyOf_of_not_mem fun hx' => hi ((hmem i).2 ⟨x, hx', ⟨c, hc, hd⟩, c, hc, ids, hids, hx⟩)
  · intro σ j c hj
    have hjl := (List.getElem?_eq_some_iff.1 hj).1
    cases σ with
    | true =>
      obtain ⟨m, hm, hr⟩ := h3 j c hj
      refine ⟨m, hm, ?_⟩
      have hi := hold (p.cells.length + j) (by omega)
      exact (b3 _ _ ((a3 _ _ (stored_append_left (stored_append_right hr))).2 hi.1)).2 hi.2
    | false =>
      obtain ⟨m, hm, hr⟩ := h4 j c hj
      refine ⟨m, hm, ?_⟩
      have hi := hold (p.cells.length + f.length + j) (by omega)
      have h5 := stored_append_right (cells := p.cells ++ fp.map some) hr
      simp only [List.length_append, List.length_map, l3] at h5
      exact (b3 _ _ ((a3 _ _ h5).2 hi.1)).2 hi.2

theorem cutFaces_total (h : CutOK p.cells p.points.length) {g : DiGraph Node}
    (hg : buildGraph ⟨2, p.cells⟩ 2 1 = .ok g) {f : List Cell} (hn : (f.map Cell.id).Nodup)
    (hf : ∀ c ∈ f, Stored p.cells c.id c) (hm : k.mat ≠ none)
    (hu : ∀ c ∈ f, ∃ i, HasDim p.cells 2 i ∧ SubEntity p.cells i 1 c.id) :
    ∃ cells1, cutFaces s k g p f = .ok cells1 := by
  obtain ⟨g', hg', hp, ht, -⟩ := h.graph (d := 2) (co := 1) (by omega) (by omega) (by omega)
  rw [hg] at hg'
  cases hg'
  obtain ⟨r, hr⟩ := exists_forall₂ (R := fun (c : Cell) l => g.predecessors (1, c.id) = .ok l)
    (l := f) fun c hc => ht c.id (hu c hc)
  have h1 : faceNeighs g f = .ok (r.flatten.map Prod.snd) := by
    unfold faceNeighs
    rw [mapRes_iff.2 hr, Res.bind_ok]
    rfl
  have hmem := faceNeighs_ok hp h1
  have hnst : ∀ i ∈ r.flatten.map Prod.snd, ∃ c, Stored p.cells i c ∧ c.dimension = 2 := by
    intro i hi
    obtain ⟨j, -, hd, -⟩ := (hmem i).1 hi
    exact hd
  obtain ⟨sides, h2⟩ := splitSides_total (side := positiveQ k p) (l := r.flatten.map Prod.snd) (by
    intro i hi
    obtain ⟨c, hc, -⟩ := hnst i hi
    obtain ⟨σ, hσ⟩ := h.side hc k
    exact ⟨σ, (positiveQ_iff hc).2 hσ⟩)
  obtain ⟨fp, h3⟩ := copyEdges_total (s := s) (σ := 1) hm (f := f) (n := p.cells.length)
  obtain ⟨fn, h4⟩ := copyEdges_total (s := s) (σ := -1) hm (f := f) (n := p.cells.length + f.length)
  obtain ⟨s1, s2⟩ := splitSides_ok h2
  have hlt : ∀ x ∈ f.map Cell.id, x < p.cells.length := by
    intro x hx
    obtain ⟨c, hc, rfl⟩ := List.mem_map.1 hx
    exact stored_lt (hf c hc)
  obtain ⟨A, a1, a2, a3⟩ := fold_updateEntity (e := 1) (s := p.cells.length) (n := f.length)
    (keys := f.map Cell.id) (L := sides.1) (cells := p.cells ++ fp.map some ++ fn.map some) hn
    (by simp) hlt (by
      intro i hi
      obtain ⟨c, hc, hd⟩ := hnst i ((s1 i).1 hi).1
      exact ⟨c, stored_append_left (stored_append_left hc), by rw [h.subLen i c hc]; omega⟩)
  obtain ⟨B, b1, b2, b3⟩ := fold_updateEntity (e := 1) (s := p.cells.length + f.length)
    (n := f.length) (keys := f.map Cell.id) (L := sides.2) (cells := A) hn
    (by simp) (fun x hx => by have := hlt x hx; omega) (by
      intro i hi
      obtain ⟨c, hc, hd⟩ := hnst i ((s2 i).1 hi).1
      have h5 := a3 i c (stored_append_left (stored_append_left hc))
      have hl : 1 < c.sub.length := by rw [h.subLen i c hc]; omega
      by_cases hi' : i ∈ sides.1
      · exact ⟨_, h5.1 hi', by simpa [mapSub] using hl⟩
      · exact ⟨_, h5.2 hi', hl⟩)
  refine ⟨B, ?_⟩
  unfold cutFaces
  rw [h1, Res.bind_ok, h2, Res.bind_ok]
  dsimp only
  rw [h3, Res.bind_ok, h4, Res.bind_ok, a1, Res.bind_ok, b1]

end Verif.EmbedCut
