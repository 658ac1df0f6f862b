/-
Lemmas for C58: the six updates.
-/
import Verif.Lemmas.MeshCutSides

namespace Verif.MeshOps
open MeshBuild MeshGraph MeshStore Trace MeshMetrics

/-- Old cells and their copies on one side. -/
structure SideData (A : Cells) (n0 : Nat) (c1 c2 d1 d2 : List Cell) : Prop where
  o1 : ∀ c ∈ c1, c.dimension = 1 ∧ c.id < n0
  o2 : ∀ c ∈ c2, c.dimension = 0 ∧ c.id < n0
  w1 : ∀ c ∈ d1, c.dimension = 1 ∧ HasDim A 1 c.id ∧ n0 ≤ c.id
  w2 : ∀ c ∈ d2, c.dimension = 0 ∧ HasDim A 0 c.id ∧ n0 ≤ c.id
  no1 : (c1.map (·.id)).Nodup
  no2 : (c2.map (·.id)).Nodup
  nw1 : (d1.map (·.id)).Nodup
  nw2 : (d2.map (·.id)).Nodup
  l1 : d1.length = c1.length
  l2 : d2.length = c2.length

theorem zip_fst_ids {xs ys : List Cell} (h : ys.length = xs.length) :
    (xs.zip ys).map (fun p => p.1.id) = xs.map (·.id) := by
  have := congrArg (List.map (·.id)) (List.map_fst_zip (l₁ := xs) (l₂ := ys) (by omega))
  rwa [List.map_map] at this

theorem zip_snd_ids {xs ys : List Cell} (h : ys.length = xs.length) :
    (xs.zip ys).map (fun p => p.2.id) = ys.map (·.id) := by
  have := congrArg (List.map (·.id)) (List.map_snd_zip (l₁ := xs) (l₂ := ys) (by omega))
  rwa [List.map_map] at this

theorem SideData.pair {A : Cells} {n0 : Nat} {c1 c2 d1 d2 : List Cell}
    (h : SideData A n0 c1 c2 d1 d2) {e : Nat} (he : e < 2) {p : Cell × Cell}
    (hp : p ∈ sidePairs c1 c2 d1 d2 e) :
    (p.1.dimension = e ∧ p.1.id < n0) ∧ p.2.dimension = e ∧ HasDim A e p.2.id ∧ n0 ≤ p.2.id := by
  unfold sidePairs at hp
  split at hp
  · rename_i h0
    subst h0
    exact ⟨h.o2 _ (List.of_mem_zip hp).1, h.w2 _ (List.of_mem_zip hp).2⟩
  · obtain rfl : e = 1 := by omega
    exact ⟨h.o1 _ (List.of_mem_zip hp).1, h.w1 _ (List.of_mem_zip hp).2⟩

theorem SideData.oldNodup {A : Cells} {n0 : Nat} {c1 c2 d1 d2 : List Cell}
    (h : SideData A n0 c1 c2 d1 d2) (e : Nat) :
    ((sidePairs c1 c2 d1 d2 e).map (·.1.id)).Nodup := by
  unfold sidePairs
  split
  · rw [zip_fst_ids h.l2]; exact h.no2
  · rw [zip_fst_ids h.l1]; exact h.no1

theorem SideData.newNodup {A : Cells} {n0 : Nat} {c1 c2 d1 d2 : List Cell}
    (h : SideData A n0 c1 c2 d1 d2) (e : Nat) :
    ((sidePairs c1 c2 d1 d2 e).map (·.2.id)).Nodup := by
  unfold sidePairs
  split
  · rw [zip_snd_ids h.l2]; exact h.nw2
  · rw [zip_snd_ids h.l1]; exact h.nw1

theorem Track.hasDim {A cells : Cells} {n : Nat}
    {done : List (List Nat × (Nat → List (Cell × Cell)))} (h : Track A n done cells) {e i : Nat}
    (hd : HasDim A e i) : HasDim cells e i := by
  obtain ⟨c, hc, rfl⟩ := hd
  obtain ⟨c', h1, h2, h3⟩ := h.cell i c hc
  refine ⟨c', h1, ?_⟩
  by_cases hall : ∀ u ∈ done, i ∉ u.1
  · rw [h3 hall]
  · push Not at hall
    obtain ⟨u, hu, hi⟩ := hall
    exact (h2 u hu hi).dimension

theorem Track.stored_same {A cells : Cells} {n : Nat}
    {done : List (List Nat × (Nat → List (Cell × Cell)))} (h : Track A n done cells)
    {i : Nat} {c : Cell} (hn : ∀ u ∈ done, i ∉ u.1) : Stored cells i c ↔ Stored A i c := by
  constructor
  · intro hc
    have hi := stored_lt hc
    rw [h.len] at hi
    have hex := h.base.wf.filled i hi
    obtain ⟨d, hd⟩ := hex
    obtain ⟨c', h1, -, h3⟩ := h.cell i d hd
    rw [stored_unique hc h1, h3 hn]
    exact hd
  · intro hc
    obtain ⟨c', h1, -, h3⟩ := h.cell i c hc
    rw [h3 hn] at h1
    exact h1

/-- One update of the chain. -/
theorem Track.side {A cells cells' : Cells} {n n0 D : Nat}
    {done : List (List Nat × (Nat → List (Cell × Cell)))} (h : Track A n done cells)
    {c1 c2 d1 d2 : List Cell} (hs : SideData A n0 c1 c2 d1 d2) {targets : List Cell} {k : Nat}
    (hk : k = 1 ∨ k = 2) {pairs : Pairs}
    (hentry : ∀ e < k, pairs[k - e]? = some (some (sidePairs c1 c2 d1 d2 e)))
    (hT : ∀ c ∈ targets, c.dimension = k ∧ HasDim A k c.id)
    (hsub : ∀ c ∈ targets, ∀ e < k, ∀ x, SubEntity A c.id e x → x < n0)
    (hdisj : ∀ u ∈ done, ∀ c ∈ targets, c.id ∉ u.1)
    (hok : updateCells ⟨D, cells⟩ targets pairs = .ok cells') :
    Track A n (done ++ [(targets.map (·.id), sidePairs c1 c2 d1 d2)]) cells' ∧ targets ≠ [] ∧
      Found A targets k (sidePairs c1 c2 d1 d2) := by
  have hne : targets ≠ [] := by
    rintro rfl
    have : updateCells ⟨D, cells⟩ [] pairs = .error .valueError := rfl
    rw [this] at hok
    simp at hok
  have hsame : ∀ c ∈ targets, ∀ e x, SubEntity cells c.id e x ↔ SubEntity A c.id e x := by
    intro c hc e x
    have hno : ∀ u ∈ done, c.id ∉ u.1 := fun u hu => hdisj u hu c hc
    unfold SubEntity
    constructor
    · rintro ⟨d, hd, hx⟩; exact ⟨d, (h.stored_same hno).1 hd, hx⟩
    · rintro ⟨d, hd, hx⟩; exact ⟨d, (h.stored_same hno).2 hd, hx⟩
  have hk2 : ∀ {e}, e < k → e < 2 := fun he => by omega
  have hu : UpdateOK cells targets pairs k (sidePairs c1 c2 d1 d2) := by
    refine ⟨hne, ?_, hentry, ?_, ?_, ?_, ?_, ?_, ?_⟩
    · intro c hc
      exact ⟨(hT c hc).1, h.hasDim (hT c hc).2⟩
    · intro e he p hp
      exact (hs.pair (hk2 he) hp).1.1
    · intro e he p hp
      obtain ⟨-, h1, h2, -⟩ := hs.pair (hk2 he) hp
      exact ⟨h1, h.hasDim h2⟩
    · intro e _; exact hs.oldNodup e
    · intro e _; exact hs.newNodup e
    · intro e he p hp q hq
      have h1 := (hs.pair (hk2 he) hp).2.2.2
      have h2 := (hs.pair (hk2 he) hq).1.2
      omega
    · intro e he p hp c hc hx
      have h1 := (hs.pair (hk2 he) hp).2.2.2
      have h2 := hsub c hc e he _ ((hsame c hc e _).1 hx)
      omega
  obtain ⟨h1, h2⟩ := h.step hu (by omega) (by
    intro u hu i hi
    obtain ⟨c, hc, rfl⟩ := List.mem_map.1 hi
    exact hdisj u hu c hc) hok
  refine ⟨h1, hne, ?_⟩
  intro e he p hp
  obtain ⟨c, hc, hx⟩ := h2 e he p hp
  exact ⟨c, hc, (hsame c hc e _).1 hx⟩

theorem fancy_append {K : Type} {points qs : Points K} {idx : List Nat}
    (h : ∀ t ∈ idx, t < points.length) : fancy (points ++ qs) idx = fancy points idx := by
  obtain ⟨r, hr⟩ := exists_forall₂ (R := fun t x => points[t]? = some x) (l := idx)
    fun t ht => ⟨_, List.getElem?_eq_getElem (h t ht)⟩
  have hr' : List.Forall₂ (fun t x => (points ++ qs)[t]? = some x) idx r := by
    refine hr.imp fun t x htx => ?_
    rw [List.getElem?_append_left (List.getElem?_eq_some_iff.1 htx).1]
    exact htx
  rw [fancy_iff.2 hr, fancy_iff.2 hr']

theorem MeshOK.nodeTags_lt {cells : Cells} {n : Nat} (h : MeshOK cells n) {i : Nat} {c : Cell}
    (hc : Stored cells i c) : ∀ t ∈ c.nodeTags, t < n := by
  intro t ht
  have hlen := h.wf.subLen i c hc
  have hvs : c.sub[0]? = some (c.sub[0]'(by omega)) := List.getElem?_eq_getElem _
  obtain ⟨v, -, hv⟩ := forall₂_right (h.nodes.aligned i c hc _ hvs) ht
  exact h.tags v t hv

theorem sideIs_append {a b : Pt ℝ} {points qs : Points ℝ} {c : Cell}
    (h : ∀ t ∈ c.nodeTags, t < points.length) (s : ℝ) :
    SideIs a b (points ++ qs) c s ↔ SideIs a b points c s := by
  unfold SideIs cellCentroid
  rw [fancy_append h]

theorem SideIs.unique {a b : Pt ℝ} {points : Points ℝ} {c : Cell} {s s' : ℝ}
    (h : SideIs a b points c s) (h' : SideIs a b points c s') : s = s' := by
  obtain ⟨x, hx, rfl⟩ := h
  obtain ⟨x', hx', rfl⟩ := h'
  rw [hx] at hx'
  obtain rfl : x = x' := by simpa using hx'
  rfl

theorem ids_range' {l : List Cell} {s : Nat}
    (h : ∀ (i : Nat) c, l[i]? = some c → c.id = s + i) :
    l.map (·.id) = List.range' s l.length := by
  apply List.ext_getElem (by simp)
  intro i h1 h2
  simp only [List.length_map] at h1
  simp [h i _ (List.getElem?_eq_getElem h1)]

theorem SideCopy.data {tagMap : Dict (Option Int) (Option Int)} {bump : Bump} {p q : Parts}
    {c1 c2 d1 d2 : List Cell} (h : SideCopy tagMap bump p q c1 c2 d1 d2) {A : Cells} {n0 : Nat}
    (hpre : ∀ i c, Stored q.cells i c → Stored A i c) (hn0 : n0 ≤ p.cells.length)
    (o1 : ∀ c ∈ c1, c.dimension = 1 ∧ c.id < n0) (o2 : ∀ c ∈ c2, c.dimension = 0 ∧ c.id < n0)
    (no1 : (c1.map (·.id)).Nodup) (no2 : (c2.map (·.id)).Nodup) :
    SideData A n0 c1 c2 d1 d2 ∧
      d1.map (·.id) = List.range' p.cells.length c1.length ∧
      d2.map (·.id) = List.range' (p.cells.length + c1.length) c2.length ∧
      (∀ (i : Nat) c', d1[i]? = some c' → Stored q.cells (p.cells.length + i) c') ∧
      (∀ (i : Nat) c', d2[i]? = some c' → Stored q.cells (p.cells.length + c1.length + i) c') := by
  have i1 : ∀ (i : Nat) c', d1[i]? = some c' → ∃ c, c1[i]? = some c ∧ _ := fun i c' hc' =>
    copies_of (R := fun i c c' => IsCopy tagMap (p.cells.length + i) c c' ∧
      c'.sub.length = c.sub.length) h.len1 h.edge hc'
  have i2 : ∀ (i : Nat) c', d2[i]? = some c' → ∃ c, c2[i]? = some c ∧ _ := fun i c' hc' =>
    copies_of (R := fun i c c' => IsCopy tagMap (p.cells.length + c1.length + i) c
      { c' with nodeTags := c.nodeTags } ∧ c'.nodeTags = [p.points.length + i]) h.len2 h.vertex hc'
  have s1 : ∀ (i : Nat) c', d1[i]? = some c' → Stored q.cells (p.cells.length + i) c' := by
    intro i c' hc'
    rw [h.cells, stored_append]
    refine Or.inr ⟨by omega, ?_⟩
    rw [Nat.add_sub_cancel_left, List.getElem?_append_left (List.getElem?_eq_some_iff.1 hc').1, hc']
  have s2 : ∀ (i : Nat) c', d2[i]? = some c' →
      Stored q.cells (p.cells.length + c1.length + i) c' := by
    intro i c' hc'
    rw [h.cells, stored_append]
    refine Or.inr ⟨by omega, ?_⟩
    rw [List.getElem?_append_right (by rw [h.len1]; omega), ← hc', h.len1]
    congr 1; omega
  have r1 := ids_range' (l := d1) (s := p.cells.length) fun i c' hc' => by
    obtain ⟨c, -, hh, -⟩ := i1 i c' hc'
    exact hh.id
  have r2 := ids_range' (l := d2) (s := p.cells.length + c1.length) fun i c' hc' => by
    obtain ⟨c, -, hh, -⟩ := i2 i c' hc'
    exact hh.id
  refine ⟨⟨o1, o2, ?_, ?_, no1, no2, ?_, ?_, h.len1, h.len2⟩, by rw [r1, h.len1],
    by rw [r2, h.len2], s1, s2⟩
  · intro c' hc'
    obtain ⟨i, hi⟩ := List.mem_iff_getElem?.1 hc'
    obtain ⟨c, hc, hh, -⟩ := i1 i c' hi
    have hd : c'.dimension = 1 := hh.dimension.trans (o1 c (List.mem_of_getElem? hc)).1
    refine ⟨hd, ⟨c', ?_, hd⟩, ?_⟩
    · rw [hh.id]; exact hpre _ _ (s1 i c' hi)
    · rw [hh.id]; omega
  · intro c' hc'
    obtain ⟨i, hi⟩ := List.mem_iff_getElem?.1 hc'
    obtain ⟨c, hc, hh, -⟩ := i2 i c' hi
    have hd : c'.dimension = 0 := hh.dimension.trans (o2 c (List.mem_of_getElem? hc)).1
    have hid : c'.id = p.cells.length + c1.length + i := hh.id
    refine ⟨hd, ⟨c', ?_, hd⟩, ?_⟩
    · rw [hid]; exact hpre _ _ (s2 i c' hi)
    · rw [hid]; omega
  · rw [r1]; exact List.nodup_range'
  · rw [r2]; exact List.nodup_range'

theorem subEntity_stored {cells : Cells} {i e x : Nat} {c : Cell} (hc : Stored cells i c) :
    SubEntity cells i e x ↔ ∃ ids, c.sub[e]? = some ids ∧ x ∈ ids := by
  constructor
  · rintro ⟨c', hc', h⟩
    obtain rfl := stored_unique hc hc'
    exact h
  · rintro h
    exact ⟨c, hc, h⟩

/-- The result of `cutLine`. -/
theorem cutLine_isCut {argsort : List ℝ → List Nat}
    (hsort : ∀ l, (argsort l).Perm (List.range l.length)) {onLine : Pt ℝ → Bool} {a b : Pt ℝ}
    {tags : CutTags} {visual : Bool} {dimension : Nat} {p q : Parts} {I : Interface}
    (hM : MeshOK p.cells p.points.length)
    (hline : ∀ i c, Stored p.cells i c → c.material = tags.line → c.dimension = 1)
    (h : cutLine argsort onLine a b tags visual dimension p = .ok (q, I)) :
    dimension = 2 ∧ ∃ c1 c2 d1 d2 f1 f2, IsCut onLine a b tags visual p q c1 c2 d1 d2 f1 f2 ∧
      I = ⟨(c1.map (·.id), d1.map (·.id), f1.map (·.id)),
        (c2.map (·.id), d2.map (·.id), f2.map (·.id))⟩ := by
  unfold cutLine at h
  split at h
  · simp at h
  rename_i hdim
  refine ⟨by omega, ?_⟩
  obtain ⟨c1, e1, h⟩ := Res.bind_eq_ok.1 h
  obtain ⟨g2, eg2, h⟩ := Res.bind_eq_ok.1 h
  obtain ⟨g1, eg1, h⟩ := Res.bind_eq_ok.1 h
  obtain ⟨c2, e2, h⟩ := Res.bind_eq_ok.1 h
  obtain ⟨c0, ec0, h⟩ := Res.bind_eq_ok.1 h
  obtain ⟨s0, es0, h⟩ := Res.bind_eq_ok.1 h
  obtain ⟨⟨q1, d1, d2⟩, ed, h⟩ := Res.bind_eq_ok.1 h
  obtain ⟨⟨q2, f1, f2⟩, ef, h⟩ := Res.bind_eq_ok.1 h
  obtain ⟨cells4, eu, h⟩ := Res.bind_eq_ok.1 h
  obtain ⟨ea, eea, h⟩ := Res.bind_eq_ok.1 h
  obtain ⟨se, ese, h⟩ := Res.bind_eq_ok.1 h
  obtain ⟨cells5, e5, h⟩ := Res.bind_eq_ok.1 h
  obtain ⟨cells6, e6, h⟩ := Res.bind_eq_ok.1 h
  simp only [Res.pure_eq, Except.ok.injEq, Prod.mk.injEq] at h
  obtain ⟨rfl, rfl⟩ := h
  -- the selections
  obtain ⟨no1, m1⟩ := selectC1_spec hM.wf e1
  obtain ⟨-, no2, m2⟩ := selectC2_spec hM.wf e2
  have st1 : ∀ c ∈ c1, Stored p.cells c.id c ∧ c.dimension = 1 := by
    intro c hc
    obtain ⟨h1, h2, -⟩ := (m1 c).1 hc
    exact ⟨h1, hline _ c h1 h2⟩
  have st2 : ∀ c ∈ c2, Stored p.cells c.id c ∧ c.dimension = 0 := by
    intro c hc
    obtain ⟨h1, -, d, hd, vs, hvs, hx⟩ := (m2 c).1 hc
    obtain ⟨s, hs, hs0⟩ := hM.wf.subOk _ d (st1 d hd).1 0 vs hvs _ hx
    obtain rfl := stored_unique h1 hs
    exact ⟨h1, hs0⟩
  obtain ⟨g2', eg2', hg2⟩ := (C07_build_graph ⟨2, p.cells⟩ hM.wf 2 2).1 (le_refl _)
  rw [eg2'] at eg2
  obtain rfl : g2' = g2 := by simpa using eg2
  obtain ⟨g1', eg1', hg1⟩ := (C07_build_graph ⟨2, p.cells⟩ hM.wf 1 1).1 (le_refl _)
  rw [eg1'] at eg1
  obtain rfl : g1' = g1 := by simpa using eg1
  obtain ⟨-, mc0⟩ := around_spec (p := p) (k := 2) hg2 (fun c hc => (st2 c hc).2) hM.wf.ids ec0
  obtain ⟨-, -, -, mpos, mneg⟩ := sideCells_spec es0
  -- the copies
  have S1 := copySide_spec hsort hM st1 st2 ed
  have pre1 : ∀ i c, Stored p.cells i c → Stored q1.cells i c := by
    intro i c hc
    rw [S1.cells, stored_append]; exact Or.inl hc
  have S2 := copySide_spec hsort S1.ok (fun c hc => ⟨pre1 _ _ (st1 c hc).1, (st1 c hc).2⟩)
    (fun c hc => ⟨pre1 _ _ (st2 c hc).1, (st2 c hc).2⟩) ef
  have pre2 : ∀ i c, Stored q1.cells i c → Stored q2.cells i c := by
    intro i c hc
    rw [S2.cells, stored_append]; exact Or.inl hc
  have lq1 : q1.cells.length = p.cells.length + (c1.length + c2.length) := by
    rw [S1.cells]; simp [S1.len1, S1.len2]
  have lq2 : q2.cells.length = p.cells.length + 2 * (c1.length + c2.length) := by
    rw [S2.cells]; simp [S2.len1, S2.len2, lq1]; omega
  have o1 : ∀ c ∈ c1, c.dimension = 1 ∧ c.id < p.cells.length := fun c hc =>
    ⟨(st1 c hc).2, stored_lt (st1 c hc).1⟩
  have o2 : ∀ c ∈ c2, c.dimension = 0 ∧ c.id < p.cells.length := fun c hc =>
    ⟨(st2 c hc).2, stored_lt (st2 c hc).1⟩
  obtain ⟨D1, rd1, rd2, sd1, sd2⟩ := S1.data pre2 (le_refl _) o1 o2 no1 no2
  obtain ⟨D2, rf1, rf2, sf1, sf2⟩ := S2.data (n0 := p.cells.length) (fun _ _ h => h) (by omega)
    o1 o2 no1 no2
  have preA : ∀ {i c}, Stored p.cells i c → Stored q2.cells i c := fun h => pre2 _ _ (pre1 _ _ h)
  have backA : ∀ {i c}, i < p.cells.length → Stored q2.cells i c → Stored p.cells i c := by
    intro i c hi hc
    obtain ⟨d, hd⟩ := hM.wf.filled i hi
    rw [stored_unique hc (preA hd)]
    exact hd
  -- the triangles
  have tri : ∀ {σ : ℝ} {l : List Cell}, (∀ c, c ∈ l ↔ c ∈ c0 ∧ ∃ s, SideIs a b p.points c s ∧
      0 < σ * s) → ∀ i c, (c ∈ l ∧ c.id = i) ↔ OnSide a b p c2 2 σ i c := by
    intro σ l hl i c
    rw [hl, mc0]
    constructor
    · rintro ⟨⟨⟨hc, hd, v, hv, hvs⟩, hs⟩, rfl⟩
      obtain ⟨c', hc', hd'⟩ := hd
      obtain rfl := stored_unique hc hc'
      obtain ⟨vs, h1, h2⟩ := (subEntity_stored hc).1 hvs
      exact ⟨hc, hd', ⟨v, hv, vs, h1, h2⟩, hs⟩
    · rintro ⟨hc, hd, ⟨v, hv, hvs⟩, hs⟩
      have hid := hM.wf.ids i c hc
      subst hid
      exact ⟨⟨⟨hc, ⟨c, hc, hd⟩, v, hv, (subEntity_stored hc).2 hvs⟩, hs⟩, rfl⟩
  have tpos := tri (σ := 1) (l := s0.1) (by simpa using mpos)
  have tneg := tri (σ := -1) (l := s0.2) (by
    intro c
    rw [mneg]
    constructor
    · rintro ⟨h1, s, h2, h3⟩; exact ⟨h1, s, h2, by linarith⟩
    · rintro ⟨h1, s, h2, h3⟩; exact ⟨h1, s, h2, by linarith⟩)
  have opp : ∀ {k k' i : Nat} {c c' : Cell}, OnSide a b p c2 k 1 i c →
      OnSide a b p c2 k' (-1) i c' → False := by
    rintro k k' i c c' ⟨h1, -, -, s, h2, h3⟩ ⟨h1', -, -, s', h2', h3'⟩
    obtain rfl := stored_unique h1 h1'
    obtain rfl := h2.unique h2'
    linarith
  have side_lt : ∀ {k i : Nat} {σ : ℝ} {c : Cell}, OnSide a b p c2 k σ i c →
      i < p.cells.length := fun h => stored_lt h.1
  have side_dim : ∀ {k k' i : Nat} {σ σ' : ℝ} {c c' : Cell}, OnSide a b p c2 k σ i c →
      OnSide a b p c2 k' σ' i c' → k = k' := by
    rintro k k' i σ σ' c c' ⟨h1, rfl, -⟩ ⟨h1', rfl, -⟩
    rw [stored_unique h1 h1']
  -- the targets, as ids
  have side_sub : ∀ {k i : Nat} {σ : ℝ} {c : Cell}, OnSide a b p c2 k σ i c → ∀ e x,
      SubEntity q2.cells i e x → x < p.cells.length := by
    intro k i σ c hc e x hx
    obtain ⟨ids, h1, h2⟩ := (subEntity_stored (preA hc.1)).1 hx
    exact hM.sub_lt hc.1 h1 h2
  have clone_sub : ∀ {l : List Cell} {s : Nat},
      (∀ (i : Nat) c, c1[i]? = some c → ∃ c', l[i]? = some c' ∧
        IsCopy (cutTagMap tags) (s + i) c c' ∧ c'.sub.length = c.sub.length) →
      l.length = c1.length →
      (∀ (i : Nat) c', l[i]? = some c' → Stored q2.cells (s + i) c') →
      ∀ c' ∈ l, c'.dimension = 1 ∧ HasDim q2.cells 1 c'.id ∧
        ∀ e < 1, ∀ x, SubEntity q2.cells c'.id e x → x < p.cells.length := by
    intro l s hl hlen hst c' hc'
    obtain ⟨i, hi⟩ := List.mem_iff_getElem?.1 hc'
    obtain ⟨c, hc, hh, -⟩ := copies_of (R := fun i c c' => IsCopy (cutTagMap tags) (s + i) c c' ∧
      c'.sub.length = c.sub.length) hlen hl hi
    have hc1 := st1 c (List.mem_of_getElem? hc)
    have hs := hst i c' hi
    rw [← hh.id] at hs
    have hd : c'.dimension = 1 := hh.dimension.trans hc1.2
    refine ⟨hd, ⟨c', hs, hd⟩, ?_⟩
    intro e he x hx
    obtain ⟨ids, h1, h2⟩ := (subEntity_stored hs).1 hx
    rw [hh.subOther e (by rw [hc1.2]; omega)] at h1
    exact hM.sub_lt hc1.1 h1 h2
  have cl1 := clone_sub S1.edge S1.len1 fun i c' h => pre2 _ _ (sd1 i c' h)
  have cl2 := clone_sub S2.edge S2.len1 sf1
  have id1 : ∀ c ∈ d1, p.cells.length ≤ c.id ∧ c.id < p.cells.length + c1.length := by
    intro c hc
    have : c.id ∈ d1.map (·.id) := List.mem_map_of_mem hc
    rw [rd1, List.mem_range'_1] at this
    exact this
  have id2 : ∀ c ∈ f1, p.cells.length + c1.length ≤ c.id := by
    intro c hc
    have : c.id ∈ f1.map (·.id) := List.mem_map_of_mem hc
    rw [rf1, List.mem_range'_1, lq1] at this
    omega
  have ent2 : ∀ {x1 x2 : List Cell}, ∀ e < 2,
      ([none, some (c1.zip x1), some (c2.zip x2)] : Pairs)[2 - e]? =
        some (some (sidePairs c1 c2 x1 x2 e)) := by
    intro x1 x2 e he
    interval_cases e <;> rfl
  have ent1 : ∀ {x1 x2 : List Cell}, ∀ e < 1, ([none, some (c2.zip x2)] : Pairs)[1 - e]? =
        some (some (sidePairs c1 c2 x1 x2 e)) := by
    intro x1 x2 e he
    interval_cases e; rfl
  unfold cutUpdates at eu
  obtain ⟨cells1, u1, eu⟩ := Res.bind_eq_ok.1 eu
  obtain ⟨cells2, u2, eu⟩ := Res.bind_eq_ok.1 eu
  obtain ⟨cells3, u3, u4⟩ := Res.bind_eq_ok.1 eu
  have T0 := Track.nil S2.ok
  obtain ⟨T1, -, -⟩ := T0.side D1 (Or.inr rfl) ent2 (fun c hc =>
      have hs := (tpos _ c).1 ⟨hc, rfl⟩
      ⟨hs.2.1, c, preA hs.1, hs.2.1⟩)
    (fun c hc e _ x hx => side_sub ((tpos _ c).1 ⟨hc, rfl⟩) e x hx) (by simp) u1
  obtain ⟨T2, -, -⟩ := T1.side D2 (Or.inr rfl) ent2 (fun c hc =>
      have hs := (tneg _ c).1 ⟨hc, rfl⟩
      ⟨hs.2.1, c, preA hs.1, hs.2.1⟩)
    (fun c hc e _ x hx => side_sub ((tneg _ c).1 ⟨hc, rfl⟩) e x hx) (by
      intro u hu c hc hi
      simp only [List.nil_append, List.mem_singleton] at hu
      subst hu
      obtain ⟨c', hc', he⟩ := List.mem_map.1 hi
      exact opp ((tpos _ c').1 ⟨hc', he⟩) ((tneg _ c).1 ⟨hc, rfl⟩)) u2
  have low : ∀ {i}, i ∈ s0.1.map (·.id) ∨ i ∈ s0.2.map (·.id) → HasDim p.cells 2 i := by
    intro i hi
    rcases hi with hi | hi
    · obtain ⟨c', hc', he⟩ := List.mem_map.1 hi
      obtain ⟨h1, h2, -⟩ := (tpos _ c').1 ⟨hc', he⟩
      exact ⟨c', h1, h2⟩
    · obtain ⟨c', hc', he⟩ := List.mem_map.1 hi
      obtain ⟨h1, h2, -⟩ := (tneg _ c').1 ⟨hc', he⟩
      exact ⟨c', h1, h2⟩
  have dimlt : ∀ {e i}, HasDim p.cells e i → i < p.cells.length := by
    rintro e i ⟨c, hc, -⟩; exact stored_lt hc
  obtain ⟨T3, -, -⟩ := T2.side D1 (Or.inl rfl) ent1 (fun c hc => ⟨(cl1 c hc).1, (cl1 c hc).2.1⟩)
    (fun c hc => (cl1 c hc).2.2) (by
      intro u hu c hc hi
      have h1 := id1 c hc
      simp only [List.nil_append, List.cons_append, List.mem_cons, List.not_mem_nil,
        or_false] at hu
      rcases hu with rfl | rfl
      · have := dimlt (low (Or.inl hi)); omega
      · have := dimlt (low (Or.inr hi)); omega) u3
  obtain ⟨T4, -, -⟩ := T3.side D2 (Or.inl rfl) ent1 (fun c hc => ⟨(cl2 c hc).1, (cl2 c hc).2.1⟩)
    (fun c hc => (cl2 c hc).2.2) (by
      intro u hu c hc hi
      have h1 := id2 c hc
      simp only [List.nil_append, List.cons_append, List.mem_cons, List.not_mem_nil,
        or_false] at hu
      rcases hu with rfl | rfl | rfl
      · have := dimlt (low (Or.inl hi)); omega
      · have := dimlt (low (Or.inr hi)); omega
      · obtain ⟨d, hd, he⟩ := List.mem_map.1 hi
        have := id1 d hd
        omega) u4
  -- the edges
  have free4 : ∀ {i}, HasDim p.cells 1 i → ∀ u ∈ ([] ++ [(s0.1.map (·.id),
      sidePairs c1 c2 d1 d2)] ++ [(s0.2.map (·.id), sidePairs c1 c2 f1 f2)] ++
      [(d1.map (·.id), sidePairs c1 c2 d1 d2)] ++ [(f1.map (·.id), sidePairs c1 c2 f1 f2)]
      : List (List Nat × (Nat → List (Cell × Cell)))), i ∉ u.1 := by
    intro i hi u hu hiu
    have hlt := dimlt hi
    have hno : ¬ HasDim p.cells 2 i := by
      rintro ⟨c, hc, hd⟩
      obtain ⟨c', hc', hd'⟩ := hi
      rw [stored_unique hc hc'] at hd
      omega
    simp only [List.nil_append, List.cons_append, List.mem_cons, List.not_mem_nil,
        or_false] at hu
    rcases hu with rfl | rfl | rfl | rfl
    · exact hno (low (Or.inl hiu))
    · exact hno (low (Or.inr hiu))
    · obtain ⟨d, hd, he⟩ := List.mem_map.1 hiu
      have := id1 d hd
      omega
    · obtain ⟨d, hd, he⟩ := List.mem_map.1 hiu
      have := id2 d hd
      omega
  obtain ⟨-, mea⟩ := around_spec (p := p) (k := 1) hg1 (fun c hc => (st2 c hc).2) T4.ok.wf.ids eea
  obtain ⟨-, -, -, mepos, meneg⟩ := sideCells_spec ese
  obtain ⟨ps, hps, lps, gps⟩ := S1.points
  obtain ⟨ps', hps', lps', gps'⟩ := S2.points
  have hqp : q2.points = p.points ++ (ps ++ ps') := by
    rw [hps', hps, List.append_assoc]
  have edg : ∀ {σ : ℝ} {l : List Cell}, (∀ c, c ∈ l ↔ c ∈ ea ∧ ∃ s, SideIs a b q2.points c s ∧
      0 < σ * s) → ∀ i c, (c ∈ l ∧ c.id = i) ↔ OnSide a b p c2 1 σ i c := by
    intro σ l hl i c
    rw [hl, mea]
    constructor
    · rintro ⟨⟨⟨hc, hd, v, hv, hvs⟩, s, hs, hpos⟩, rfl⟩
      have hc' : Stored p.cells c.id c :=
        backA (dimlt hd) ((T4.stored_same (free4 hd)).1 hc)
      obtain ⟨c', hc'', hd'⟩ := hd
      obtain rfl := stored_unique hc' hc''
      obtain ⟨vs, h1, h2⟩ := (subEntity_stored hc').1 hvs
      rw [hqp, sideIs_append (hM.nodeTags_lt hc')] at hs
      exact ⟨hc', hd', ⟨v, hv, vs, h1, h2⟩, s, hs, hpos⟩
    · rintro ⟨hc, hd, ⟨v, hv, hvs⟩, s, hs, hpos⟩
      have hid := hM.wf.ids i c hc
      subst hid
      refine ⟨⟨⟨?_, ⟨c, hc, hd⟩, v, hv, (subEntity_stored hc).2 hvs⟩, s, ?_, hpos⟩, rfl⟩
      · exact (T4.stored_same (free4 ⟨c, hc, hd⟩)).2 (preA hc)
      · rw [hqp, sideIs_append (hM.nodeTags_lt hc)]; exact hs
  have epos := edg (σ := 1) (l := se.1) (by simpa using mepos)
  have eneg := edg (σ := -1) (l := se.2) (by
    intro c
    rw [meneg]
    constructor
    · rintro ⟨h1, s, h2, h3⟩; exact ⟨h1, s, h2, by linarith⟩
    · rintro ⟨h1, s, h2, h3⟩; exact ⟨h1, s, h2, by linarith⟩)
  obtain ⟨T5, -, -⟩ := T4.side D1 (Or.inl rfl) ent1 (fun c hc =>
      have hs := (epos _ c).1 ⟨hc, rfl⟩
      ⟨hs.2.1, c, preA hs.1, hs.2.1⟩)
    (fun c hc e _ x hx => side_sub ((epos _ c).1 ⟨hc, rfl⟩) e x hx)
    (fun u hu c hc => by
      have hs := (epos _ c).1 ⟨hc, rfl⟩
      exact free4 ⟨c, hs.1, hs.2.1⟩ u hu) e5
  obtain ⟨T6, -, -⟩ := T5.side D2 (Or.inl rfl) ent1 (fun c hc =>
      have hs := (eneg _ c).1 ⟨hc, rfl⟩
      ⟨hs.2.1, c, preA hs.1, hs.2.1⟩)
    (fun c hc e _ x hx => side_sub ((eneg _ c).1 ⟨hc, rfl⟩) e x hx)
    (fun u hu c hc => by
      have hs := (eneg _ c).1 ⟨hc, rfl⟩
      rcases List.mem_append.1 hu with hu | hu
      · exact free4 ⟨c, hs.1, hs.2.1⟩ u hu
      · obtain rfl := List.mem_singleton.1 hu
        intro hi
        obtain ⟨d, hd, he⟩ := List.mem_map.1 hi
        exact opp ((epos _ d).1 ⟨hd, he⟩) hs) e6
  simp only [List.nil_append, List.cons_append] at T6
  have free6 : ∀ {i}, HasDim q2.cells 0 i → ∀ u ∈ [(s0.1.map (·.id), sidePairs c1 c2 d1 d2),
      (s0.2.map (·.id), sidePairs c1 c2 f1 f2), (d1.map (·.id), sidePairs c1 c2 d1 d2),
      (f1.map (·.id), sidePairs c1 c2 f1 f2), (se.1.map (·.id), sidePairs c1 c2 d1 d2),
      (se.2.map (·.id), sidePairs c1 c2 f1 f2)], i ∉ u.1 := by
    rintro i ⟨c, hc, hd⟩ u hu hiu
    have hno : ∀ {e}, HasDim q2.cells e i → e = 0 := by
      rintro e ⟨c', hc', hd'⟩
      rw [← hd', ← stored_unique hc hc', hd]
    have hup : ∀ {e}, HasDim p.cells e i → HasDim q2.cells e i :=
      fun ⟨c, hc, hd⟩ => ⟨c, preA hc, hd⟩
    simp only [List.mem_cons, List.not_mem_nil, or_false] at hu
    rcases hu with rfl | rfl | rfl | rfl | rfl | rfl
    · exact absurd (hno (hup (low (Or.inl hiu)))) (by omega)
    · exact absurd (hno (hup (low (Or.inr hiu)))) (by omega)
    · obtain ⟨d, hd, he⟩ := List.mem_map.1 hiu
      exact absurd (hno (he ▸ (cl1 d hd).2.1)) (by omega)
    · obtain ⟨d, hd, he⟩ := List.mem_map.1 hiu
      exact absurd (hno (he ▸ (cl2 d hd).2.1)) (by omega)
    · obtain ⟨d, hd, he⟩ := List.mem_map.1 hiu
      obtain ⟨h1, h2, -⟩ := (epos _ d).1 ⟨hd, he⟩
      exact absurd (hno ⟨d, preA h1, h2⟩) (by omega)
    · obtain ⟨d, hd, he⟩ := List.mem_map.1 hiu
      obtain ⟨h1, h2, -⟩ := (eneg _ d).1 ⟨hd, he⟩
      exact absurd (hno ⟨d, preA h1, h2⟩) (by omega)
  -- the description
  refine ⟨c1, c2, d1, d2, f1, f2, ?_, rfl⟩
  constructor
  case mem1 => exact m1
  case mem2 => exact m2
  case nodup1 => exact no1
  case nodup2 => exact no2
  case idsD1 => exact rd1
  case idsD2 => exact rd2
  case idsF1 => rw [rf1, lq1]; congr 1; omega
  case idsF2 => rw [rf2, lq1]; congr 1; omega
  case length => exact T6.len.trans lq2
  case points =>
    refine ⟨ps, ps', by simp only; rw [hps', hps], lps, lps', ?_⟩
    intro i c hc
    obtain ⟨t, x, h1, h2, h3⟩ := gps i c hc
    obtain ⟨t', x', h1', h2', h3'⟩ := gps' i c hc
    rw [h1] at h1'
    obtain rfl : t = t' := by simpa using h1'
    rw [hps, List.getElem?_append_left (List.getElem?_eq_some_iff.1 h2).1, h2] at h2'
    obtain rfl : x = x' := by simpa using h2'
    exact ⟨t, x, h1, h2, h3, h3'⟩
  case mesh => exact T6.ok
  case pos =>
    intro k hk i c hc
    obtain ⟨c', h1, h2, -⟩ := T6.cell i c (preA hc.1)
    refine ⟨c', h1, ?_⟩
    rcases hk with rfl | rfl
    · refine h2 (se.1.map (·.id), sidePairs c1 c2 d1 d2) (by simp) ?_
      obtain ⟨h3, h4⟩ := (epos i c).2 hc
      exact List.mem_map.2 ⟨c, h3, h4⟩
    · refine h2 (s0.1.map (·.id), sidePairs c1 c2 d1 d2) (by simp) ?_
      obtain ⟨h3, h4⟩ := (tpos i c).2 hc
      exact List.mem_map.2 ⟨c, h3, h4⟩
  case neg =>
    intro k hk i c hc
    obtain ⟨c', h1, h2, -⟩ := T6.cell i c (preA hc.1)
    refine ⟨c', h1, ?_⟩
    rcases hk with rfl | rfl
    · refine h2 (se.2.map (·.id), sidePairs c1 c2 f1 f2) (by simp) ?_
      obtain ⟨h3, h4⟩ := (eneg i c).2 hc
      exact List.mem_map.2 ⟨c, h3, h4⟩
    · refine h2 (s0.2.map (·.id), sidePairs c1 c2 f1 f2) (by simp) ?_
      obtain ⟨h3, h4⟩ := (tneg i c).2 hc
      exact List.mem_map.2 ⟨c, h3, h4⟩
  case other =>
    intro i c hc hno
    obtain ⟨c', h1, -, h3⟩ := T6.cell i c (preA hc)
    rw [h3 ?_] at h1
    · exact h1
    have hlt := stored_lt hc
    intro u hu hi
    simp only [List.mem_cons, List.not_mem_nil, or_false] at hu
    have back : ∀ {k : Nat} {σ : ℝ} {l : List Cell}, (∀ i c, (c ∈ l ∧ c.id = i) ↔ OnSide a b p c2 k σ i c) →
        i ∈ l.map (fun c : Cell => c.id) → OnSide a b p c2 k σ i c := by
      intro k σ l hl hil
      obtain ⟨d, hd, he⟩ := List.mem_map.1 hil
      have := (hl i d).1 ⟨hd, he⟩
      rw [stored_unique hc this.1]
      exact this
    rcases hu with rfl | rfl | rfl | rfl | rfl | rfl
    · exact (hno 2 (Or.inr rfl)).1 (back tpos hi)
    · exact (hno 2 (Or.inr rfl)).2 (back tneg hi)
    · obtain ⟨d, hd, he⟩ := List.mem_map.1 hi
      have := id1 d hd
      omega
    · obtain ⟨d, hd, he⟩ := List.mem_map.1 hi
      have := id2 d hd
      omega
    · exact (hno 1 (Or.inl rfl)).1 (back epos hi)
    · exact (hno 1 (Or.inl rfl)).2 (back eneg hi)
  case edgePos =>
    intro i c hc
    obtain ⟨c0', h1, h2, -⟩ := S1.edge i c hc
    obtain ⟨c', h3, h4, -⟩ := T6.cell _ _ (pre2 _ _ (sd1 i c0' h1))
    refine ⟨c0', c', h1, h2, h3, h4 (d1.map (·.id), sidePairs c1 c2 d1 d2) (by simp) ?_⟩
    rw [← h2.id]
    exact List.mem_map_of_mem (f := fun c : Cell => c.id) (List.mem_of_getElem? h1)
  case edgeNeg =>
    intro i c hc
    obtain ⟨c0', h1, h2, -⟩ := S2.edge i c hc
    obtain ⟨c', h3, h4, -⟩ := T6.cell _ _ (sf1 i c0' h1)
    have hl : q1.cells.length + i = p.cells.length + c1.length + c2.length + i := by omega
    rw [hl] at h2 h3
    refine ⟨c0', c', h1, h2, h3, h4 (f1.map (·.id), sidePairs c1 c2 f1 f2) (by simp) ?_⟩
    rw [hl, ← h2.id]
    exact List.mem_map_of_mem (f := fun c : Cell => c.id) (List.mem_of_getElem? h1)
  case vertexPos =>
    intro i c hc
    obtain ⟨c', h1, h2, h3⟩ := S1.vertex i c hc
    obtain ⟨c'', h4, -, h6⟩ := T6.cell _ _ (pre2 _ _ (sd2 i c' h1))
    have hlt := (List.getElem?_eq_some_iff.1 hc).1
    rw [h6 ?_] at h4
    · exact ⟨c', h1, h4, h2, h3⟩
    have hv : HasDim q2.cells 0 (p.cells.length + c1.length + i) :=
      ⟨c', pre2 _ _ (sd2 i c' h1), h2.dimension.trans (st2 c (List.mem_of_getElem? hc)).2⟩
    exact free6 hv
  case vertexNeg =>
    intro i c hc
    obtain ⟨c', h1, h2, h3⟩ := S2.vertex i c hc
    obtain ⟨c'', h4, -, h6⟩ := T6.cell _ _ (sf2 i c' h1)
    have hl : q1.cells.length + c1.length + i =
      p.cells.length + 2 * c1.length + c2.length + i := by omega
    have hl' : q1.points.length + i = p.points.length + c2.length + i := by
      rw [hps]; simp [lps]
    rw [h6 ?_] at h4
    · rw [hl] at h2 h4
      rw [hl'] at h3
      exact ⟨c', h1, h4, h2, h3⟩
    have hv : HasDim q2.cells 0 (q1.cells.length + c1.length + i) :=
      ⟨c', sf2 i c' h1, h2.dimension.trans (st2 c (List.mem_of_getElem? hc)).2⟩
    exact free6 hv

end Verif.MeshOps
