/-
Lemmas for C58: the copies of one side, and chains of updates.
-/
import Verif.Lemmas.MeshCut

namespace Verif.MeshOps
open MeshBuild MeshGraph MeshStore Trace MeshMetrics

theorem MeshOK.vertex {cells : Cells} {n : Nat} (h : MeshOK cells n) {i : Nat} {c : Cell}
    (hc : Stored cells i c) (hd : c.dimension = 0) : ∃ t, c.nodeTags = [t] ∧ t < n := by
  obtain ⟨t, ht⟩ := vtag_of_dim h.wf h.nodes ⟨c, hc, hd⟩
  have h1 := h.tags i t ht
  obtain ⟨c', hc', -, ht'⟩ := ht
  obtain rfl := stored_unique hc hc'
  exact ⟨t, ht', h1⟩

theorem MeshOK.sub_lt {cells : Cells} {n : Nat} (h : MeshOK cells n) {i : Nat} {c : Cell}
    (hc : Stored cells i c) {e : Nat} {ids : List Nat} (hids : c.sub[e]? = some ids) {x : Nat}
    (hx : x ∈ ids) : x < cells.length := by
  obtain ⟨d, hd, -⟩ := h.wf.subOk i c hc e ids hids x hx
  exact stored_lt hd

theorem exists_forall₂ {α β : Type} {R : α → β → Prop} {l : List α} (h : ∀ a ∈ l, ∃ b, R a b) :
    ∃ m, List.Forall₂ R l m := by
  induction l with
  | nil => exact ⟨[], .nil⟩
  | cons a t ih =>
    obtain ⟨b, hb⟩ := h a (by simp)
    obtain ⟨m, hm⟩ := ih fun a ha => h a (List.mem_cons_of_mem _ ha)
    exact ⟨b :: m, .cons hb hm⟩

/-- Where a copy comes from. -/
theorem copies_of {α : Type} {R : Nat → α → α → Prop} {cs r : List α} (hlen : r.length = cs.length)
    (h : ∀ (i : Nat) c, cs[i]? = some c → ∃ c', r[i]? = some c' ∧ R i c c') {i : Nat} {c' : α}
    (hc' : r[i]? = some c') : ∃ c, cs[i]? = some c ∧ R i c c' := by
  have hi : i < cs.length := by
    rw [← hlen]; exact (List.getElem?_eq_some_iff.1 hc').1
  obtain ⟨d, hd, hr⟩ := h i _ (List.getElem?_eq_getElem hi)
  rw [hc'] at hd
  obtain rfl : c' = d := by simpa using hd
  exact ⟨_, List.getElem?_eq_getElem hi, hr⟩

/-- The copies of one side. -/
structure SideCopy (tagMap : Dict (Option Int) (Option Int)) (bump : Bump) (p q : Parts)
    (c1 c2 d1 d2 : List Cell) : Prop where
  ne1 : c1 ≠ []
  ne2 : c2 ≠ []
  len1 : d1.length = c1.length
  len2 : d2.length = c2.length
  cells : q.cells = p.cells ++ (d1 ++ d2).map some
  points : ∃ ps, q.points = p.points ++ ps ∧ ps.length = c2.length ∧
    ∀ (i : Nat) c, c2[i]? = some c → ∃ t x, c.nodeTags = [t] ∧ p.points[t]? = some x ∧
      ps[i]? = some (bumped bump x)
  edge : ∀ (i : Nat) c, c1[i]? = some c → ∃ c', d1[i]? = some c' ∧
    IsCopy tagMap (p.cells.length + i) c c' ∧ c'.sub.length = c.sub.length
  vertex : ∀ (i : Nat) c, c2[i]? = some c → ∃ c', d2[i]? = some c' ∧
    IsCopy tagMap (p.cells.length + c1.length + i) c { c' with nodeTags := c.nodeTags } ∧
    c'.nodeTags = [p.points.length + i]
  ok : MeshOK q.cells q.points.length

theorem copySide_spec {argsort : List ℝ → List Nat}
    (hsort : ∀ l, (argsort l).Perm (List.range l.length))
    {tagMap : Dict (Option Int) (Option Int)} {bump : Bump} {p q : Parts}
    {c1 c2 d1 d2 : List Cell} (hM : MeshOK p.cells p.points.length)
    (h1 : ∀ c ∈ c1, Stored p.cells c.id c ∧ c.dimension = 1)
    (h2 : ∀ c ∈ c2, Stored p.cells c.id c ∧ c.dimension = 0)
    (h : copySide argsort tagMap bump p c1 c2 = .ok (q, d1, d2)) :
    SideCopy tagMap bump p q c1 c2 d1 d2 := by
  have hs1 : ∀ c ∈ c1, c.dimension < c.sub.length := fun c hc => by
    rw [hM.wf.subLen _ c (h1 c hc).1]; omega
  have hs2 : ∀ c ∈ c2, c.dimension < c.sub.length := fun c hc => by
    rw [hM.wf.subLen _ c (h2 c hc).1]; omega
  obtain ⟨r1, e1, l1, g1⟩ := duplicateCells_ok (tagMap := tagMap) (n := p.cells.length) hs1
  obtain ⟨r2, e2, l2, g2⟩ :=
    duplicateCells_ok (tagMap := tagMap) (n := p.cells.length + c1.length) hs2
  unfold copySide at h
  rw [e1, Res.bind_ok] at h
  obtain ⟨cellsA, hA, h⟩ := Res.bind_eq_ok.1 h
  obtain ⟨neA, -, rfl⟩ := appendCells_ok.1 hA
  rw [if_neg (by simp [l1]), e2, Res.bind_ok] at h
  obtain ⟨⟨points, r2'⟩, hP, h⟩ := Res.bind_eq_ok.1 h
  -- the node tags of the vertices
  have hr2ne : r2 ≠ [] := by
    rintro rfl
    simp [duplicatePoints] at hP
  have htag : ∀ c ∈ c2, ∃ t, c.nodeTags = [t] ∧ t < p.points.length := fun c hc =>
    hM.vertex (h2 c hc).1 (h2 c hc).2
  obtain ⟨tags, htags⟩ : ∃ tags : List Nat,
      List.Forall₂ (fun c t => c.nodeTags = [t] ∧ t < p.points.length) c2 tags := exists_forall₂ htag
  obtain ⟨ps, hps⟩ : ∃ ps, List.Forall₂ (fun t x => p.points[t]? = some x) tags ps := by
    apply exists_forall₂
    intro t ht
    obtain ⟨c, -, -, hlt⟩ := forall₂_right htags ht
    exact ⟨_, List.getElem?_eq_getElem hlt⟩
  have hr2tags : r2.map (·.nodeTags) = tags.map ([·]) := by
    apply List.ext_getElem?
    intro i
    rw [List.getElem?_map, List.getElem?_map]
    rcases Nat.lt_or_ge i c2.length with hi | hi
    · obtain ⟨c', hc', hcopy, -⟩ := g2 i _ (List.getElem?_eq_getElem hi)
      have hti : i < tags.length := htags.length_eq ▸ hi
      have := (List.forall₂_iff_get.1 htags).2 i hi hti
      simp only [List.get_eq_getElem] at this
      rw [hc', List.getElem?_eq_getElem hti]
      simp [hcopy.nodeTags, this.1]
    · rw [List.getElem?_eq_none (by omega), List.getElem?_eq_none (by rw [← htags.length_eq]; omega)]
      rfl
  rw [C31_points hsort hr2ne hr2tags hps] at hP
  simp only [Except.ok.injEq, Prod.mk.injEq] at hP
  obtain ⟨hpts, hr2'⟩ := hP
  obtain ⟨cellsB, hB, h⟩ := Res.bind_eq_ok.1 h
  obtain ⟨-, -, rfl⟩ := appendCells_ok.1 hB
  have hr2'len : r2'.length = c2.length := by rw [← hr2']; simp [l2]
  rw [if_neg (by simp [l1, hr2'len, Nat.add_assoc])] at h
  simp only [Res.pure_eq, Except.ok.injEq, Prod.mk.injEq] at h
  obtain ⟨rfl, rfl, rfl⟩ := h
  have hv : ∀ (i : Nat) c, c2[i]? = some c → ∃ c', r2'[i]? = some c' ∧
      (IsCopy tagMap (p.cells.length + c1.length + i) c { c' with nodeTags := c.nodeTags } ∧
      c'.nodeTags = [p.points.length + i] ∧ c'.sub.length = c.sub.length) := by
    intro i c hc
    obtain ⟨c', hc', hcopy, hlen⟩ := g2 i c hc
    refine ⟨{ c' with nodeTags := [p.points.length + i] }, ?_, ?_, rfl, hlen⟩
    · rw [← hr2', List.getElem?_map, List.getElem?_zipIdx, hc']; simp
    · have : ({ c' with nodeTags := c.nodeTags } : Cell) = c' := by
        rw [← hcopy.nodeTags]
      simpa [this] using hcopy
  have hlenps : ps.length = c2.length := by rw [← hps.length_eq, ← htags.length_eq]
  have hA' : MeshOK (p.cells ++ r1.map some) p.points.length := by
    apply hM.append
    have hof : ∀ {i : Nat} {c'}, r1[i]? = some c' → _ := fun {i c'} hc' =>
      copies_of (R := fun i c c' => IsCopy tagMap (p.cells.length + i) c c' ∧
        c'.sub.length = c.sub.length) l1 g1 hc'
    have hof' : ∀ c' ∈ r1, ∃ c ∈ c1, ∃ n, IsCopy tagMap n c c' ∧ c'.sub.length = c.sub.length := by
      intro c' hc'
      obtain ⟨i, hi⟩ := List.mem_iff_getElem?.1 hc'
      obtain ⟨c, hc, hh⟩ := hof hi
      exact ⟨c, List.mem_of_getElem? hc, _, hh⟩
    refine ⟨?_, ?_, ?_, ?_, ?_, ?_, ?_, ?_, le_refl _⟩
    · intro i c' hc'
      obtain ⟨c, -, hh, -⟩ := hof hc'
      exact hh.id
    · intro c' hc'
      obtain ⟨c, hc, n, hh, -⟩ := hof' c' hc'
      rw [hh.dimension, (h1 c hc).2]; omega
    · intro c' hc'
      obtain ⟨c, hc, n, hh, hl⟩ := hof' c' hc'
      rw [hl, hh.dimension, hM.wf.subLen _ c (h1 c hc).1]
    · intro c' hc'
      obtain ⟨c, hc, n, hh, hl⟩ := hof' c' hc'
      rw [hh.dimension, hh.subSelf, hh.id]
    · intro c' hc' e he ids hids
      obtain ⟨c, hc, n, hh, hl⟩ := hof' c' hc'
      rw [hh.dimension] at he
      rw [hh.subOther e (by omega)] at hids
      have hst := (h1 c hc).1
      exact ⟨hM.wf.subNe _ c hst ids (List.mem_of_getElem? hids),
        hM.nodup _ c hst ids (List.mem_of_getElem? hids), hM.wf.subOk _ c hst e ids hids⟩
    · intro c' hc' _ vs hvs
      obtain ⟨c, hc, n, hh, hl⟩ := hof' c' hc'
      rw [hh.subOther 0 (by rw [(h1 c hc).2]; omega)] at hvs
      rw [hh.nodeTags]
      exact hM.nodes.aligned _ c (h1 c hc).1 vs hvs
    · intro c' hc' hd
      obtain ⟨c, hc, n, hh, hl⟩ := hof' c' hc'
      rw [hh.dimension, (h1 c hc).2] at hd
      omega
    · intro c' hc' _ _ hd
      obtain ⟨c, hc, n, hh, hl⟩ := hof' c' hc'
      rw [hh.dimension, (h1 c hc).2] at hd
      omega
  have hB' : MeshOK ((p.cells ++ r1.map some) ++ r2'.map some)
      (p.points.length + c2.length) := by
    apply hA'.append
    have hof : ∀ {i : Nat} {c'}, r2'[i]? = some c' → _ := fun {i c'} hc' =>
      copies_of hr2'len hv hc'
    have hof' : ∀ c' ∈ r2', ∃ (i : Nat), r2'[i]? = some c' ∧ c'.dimension = 0 ∧
        c'.id = p.cells.length + c1.length + i ∧ c'.nodeTags = [p.points.length + i] ∧
        c'.sub.length = 1 ∧ c'.sub[0]? = some [c'.id] ∧ i < c2.length := by
      intro c' hc'
      obtain ⟨i, hi⟩ := List.mem_iff_getElem?.1 hc'
      obtain ⟨c, hc, hh, ht, hl⟩ := hof hi
      have hmem := List.mem_of_getElem? hc
      have hd := (h2 c hmem).2
      refine ⟨i, hi, hh.dimension.trans hd, hh.id, ht, ?_, ?_, ?_⟩
      · rw [hl, hM.wf.subLen _ c (h2 c hmem).1, hd]
      · have h3 := hh.subSelf
        have h4 := hh.id
        simp only at h3 h4
        rw [hd] at h3
        rw [h3, h4]
      · exact (List.getElem?_eq_some_iff.1 hc).1
    refine ⟨?_, ?_, ?_, ?_, ?_, ?_, ?_, ?_, by omega⟩
    · intro i c' hc'
      obtain ⟨c, -, hh, -⟩ := hof hc'
      have := hh.id
      simp only at this
      rw [this]; simp [l1]
    · intro c' hc'
      obtain ⟨i, hi, hd, -⟩ := hof' c' hc'
      omega
    · intro c' hc'
      obtain ⟨i, hi, hd, -, -, hl, -⟩ := hof' c' hc'
      omega
    · intro c' hc'
      obtain ⟨i, hi, hd, -, -, hl, hs, -⟩ := hof' c' hc'
      rw [hd, hs]
    · intro c' hc' e he
      obtain ⟨i, hi, hd, -⟩ := hof' c' hc'
      omega
    · intro c' hc' he
      obtain ⟨i, hi, hd, -⟩ := hof' c' hc'
      omega
    · intro c' hc' _
      obtain ⟨i, hi, hd, -, ht, -, -, hlt⟩ := hof' c' hc'
      exact ⟨_, ht, by omega, by omega⟩
    · intro c' hc' d' hd' _ _ hcd
      obtain ⟨i, hi, -, -, ht, -⟩ := hof' c' hc'
      obtain ⟨j, hj, -, -, ht', -⟩ := hof' d' hd'
      rw [ht, ht'] at hcd
      obtain rfl : i = j := by
        simp only [List.cons.injEq, and_true] at hcd; omega
      rw [hi] at hj
      simpa using hj
  constructor
  case ne1 => rintro rfl; exact neA (List.eq_nil_of_length_eq_zero (by simpa using l1))
  case ne2 => rintro rfl; exact hr2ne (List.eq_nil_of_length_eq_zero (by simpa using l2))
  case len1 => exact l1
  case len2 => exact hr2'len
  case cells => simp
  case points =>
    refine ⟨ps.map (displaced (some bump)), hpts.symm, by simp [hlenps], ?_⟩
    intro i c hc
    have hi := (List.getElem?_eq_some_iff.1 hc).1
    have hti : i < tags.length := htags.length_eq ▸ hi
    have hpi : i < ps.length := by omega
    have a1 := (List.forall₂_iff_get.1 htags).2 i hi hti
    have a2 := (List.forall₂_iff_get.1 hps).2 i hti hpi
    simp only [List.get_eq_getElem] at a1 a2
    rw [(List.getElem?_eq_some_iff.1 hc).2] at a1
    refine ⟨_, _, a1.1, a2, ?_⟩
    rw [List.getElem?_map, List.getElem?_eq_getElem hpi]; rfl
  case edge => exact g1
  case vertex =>
    intro i c hc
    obtain ⟨c', h3, h4, h5, -⟩ := hv i c hc
    exact ⟨c', h3, h4, h5⟩
  case ok =>
    have : points.length = p.points.length + c2.length := by rw [← hpts]; simp [hlenps]
    simp only [this]
    exact hB'

/-! ### Chains of updates -/

/-- The cells after some updates: each cell named by the targets of an update is updated by its
pairs, the others are as before. -/
structure Track (A : Cells) (n : Nat) (done : List (List Nat × (Nat → List (Cell × Cell))))
    (cells : Cells) : Prop where
  base : MeshOK A n
  ok : MeshOK cells n
  len : cells.length = A.length
  cell : ∀ i c, Stored A i c → ∃ c', Stored cells i c' ∧
    (∀ u ∈ done, i ∈ u.1 → Updated u.2 c c') ∧ ((∀ u ∈ done, i ∉ u.1) → c' = c)
  vtag : ∀ v t, VTag cells v t ↔ VTag A v t

theorem Track.nil {A : Cells} {n : Nat} (h : MeshOK A n) : Track A n [] A :=
  ⟨h, h, rfl, fun i c hc => ⟨c, hc, by simp, by simp⟩, fun _ _ => Iff.rfl⟩

theorem Track.step {A cells cells' : Cells} {n D : Nat}
    {done : List (List Nat × (Nat → List (Cell × Cell)))}
    (h : Track A n done cells) {targets : List Cell} {pairs : Pairs} {k : Nat}
    {P : Nat → List (Cell × Cell)} (hu : UpdateOK cells targets pairs k P) (hk : 0 < k)
    (hdisj : ∀ u ∈ done, ∀ i ∈ targets.map (·.id), i ∉ u.1)
    (hok : updateCells ⟨D, cells⟩ targets pairs = .ok cells') :
    Track A n (done ++ [(targets.map (·.id), P)]) cells' ∧ Found cells targets k P := by
  have hf : Found cells targets k P := by
    by_contra hf
    rw [updateCells_absent (m := ⟨D, cells⟩) h.ok.wf h.ok.nodup h.ok.nodes hu hf] at hok
    simp at hok
  obtain ⟨r, h1, h2, h3⟩ :=
    updateCells_ok (m := ⟨D, cells⟩) h.ok.wf h.ok.nodup h.ok.nodes hu hf
  rw [h1] at hok
  obtain rfl : r = cells' := by simpa using hok
  obtain ⟨h4, h5, h6, h7⟩ :=
    updateCells_keeps (m := ⟨D, cells⟩) h.ok.wf h.ok.nodup h.ok.nodes hu hk h2 h3
  refine ⟨⟨h.base, ⟨h4, h5, h6, fun v t hv => h.ok.tags v t ((h7 v t).1 hv)⟩, h2.trans h.len, ?_,
    fun v t => (h7 v t).trans (h.vtag v t)⟩, hf⟩
  intro i c hc
  obtain ⟨c1, a1, a2, a3⟩ := h.cell i c hc
  obtain ⟨c2, b1, b2, b3⟩ := h3 i c1 a1
  refine ⟨c2, b1, ?_, ?_⟩
  · intro u hu' hi
    rcases List.mem_append.1 hu' with hu' | hu'
    · have hn : i ∉ targets.map (·.id) := fun hi' => hdisj u hu' i hi' hi
      rw [b2 hn]
      exact a2 u hu' hi
    · obtain rfl := List.mem_singleton.1 hu'
      obtain rfl := a3 fun u hu' hi' => hdisj u hu' i hi hi'
      exact (b3 hi).1
  · intro hall
    have hn : i ∉ targets.map (·.id) := fun hi =>
      hall (targets.map (·.id), P) (by simp) hi
    rw [b2 hn]
    exact a3 fun u hu' => hall u (by simp [hu'])

end Verif.MeshOps
