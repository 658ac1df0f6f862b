/-
C58: cutting a mesh along a line.
-/
import Verif.Lemmas.MeshCutGeom

namespace Verif.MeshOps
open MeshBuild MeshGraph MeshStore Trace MeshMetrics

/-- C58.  The result of `cut_conformity_along_c1_line`: two copies of every cut edge and of every
split vertex are appended, the triangles and edges around the split vertices use the copies of
their side, the other cells are unchanged, and the mesh stays in order.  The returned interface
lists the cut cells and their copies. -/
theorem C58_cut {argsort : List ℝ → List Nat}
    (hsort : ∀ l, (argsort l).Perm (List.range l.length)) {onLine : Pt ℝ → Bool} {a b : Pt ℝ}
    {tags : CutTags} {visual : Bool} {dimension : Nat} {p q : Parts} {I : Interface}
    (hM : MeshOK p.cells p.points.length)
    (hline : ∀ i c, Stored p.cells i c → c.material = tags.line → c.dimension = 1)
    (h : cutLine argsort onLine a b tags visual dimension p = .ok (q, I)) :
    dimension = 2 ∧ ∃ c1 c2 d1 d2 f1 f2, IsCut onLine a b tags visual p q c1 c2 d1 d2 f1 f2 ∧
      I = ⟨(c1.map (·.id), d1.map (·.id), f1.map (·.id)),
        (c2.map (·.id), d2.map (·.id), f2.map (·.id))⟩ :=
  cutLine_isCut hsort hM hline h

section
variable {onLine : Pt ℝ → Bool} {a b : Pt ℝ} {tags : CutTags} {visual : Bool} {p q : Parts}
  {c1 c2 d1 d2 f1 f2 : List Cell}

/-- C58.  Cells on different sides share none of the cut edges and split vertices, nor their
copies: what they still share are old cells that were not cut. -/
theorem C58_separates (hM : MeshOK p.cells p.points.length)
    (h : IsCut onLine a b tags visual p q c1 c2 d1 d2 f1 f2)
    {k l i j : Nat} {c d : Cell} (hk : k = 1 ∨ k = 2) (hl : l = 1 ∨ l = 2)
    (hc : OnSide a b p c2 k 1 i c) (hd : OnSide a b p c2 l (-1) j d) {e x : Nat}
    (hek : e < k) (hel : e < l) (hx : SubEntity q.cells i e x) (hy : SubEntity q.cells j e x) :
    x < p.cells.length ∧ (e = 0 → ∀ v ∈ c2, v.id ≠ x) ∧ (e = 1 → ∀ v ∈ c1, v.id ≠ x) := by
  obtain ⟨c', g1, g2⟩ := h.pos k hk i c hc
  obtain ⟨d', g3, g4⟩ := h.neg l hl j d hd
  obtain ⟨ids, hi, hxi⟩ := (subEntity_stored g1).1 hx
  obtain ⟨jds, hj, hxj⟩ := (subEntity_stored g3).1 hy
  obtain ⟨ids0, hi0, rfl⟩ := g2.mem (by rw [hc.2.1]; exact hek) hi
  obtain ⟨jds0, hj0, rfl⟩ := g4.mem (by rw [hd.2.1]; exact hel) hj
  obtain ⟨x0, hx0, rfl⟩ := List.mem_map.1 hxi
  obtain ⟨y0, hy0, hxy⟩ := List.mem_map.1 hxj
  have lx := hM.sub_lt hc.1 hi0 hx0
  have ly := hM.sub_lt hd.1 hj0 hy0
  have len2 : ∀ {i : Nat} {v : Cell}, c2[i]? = some v → i < c2.length :=
    fun h => (List.getElem?_eq_some_iff.1 h).1
  have len1 : ∀ {i : Nat} {v : Cell}, c1[i]? = some v → i < c1.length :=
    fun h => (List.getElem?_eq_some_iff.1 h).1
  obtain rfl | rfl : e = 0 ∨ e = 1 := by omega
  · simp only [sidePairs, if_true] at hxy ⊢
    rcases newId_zip h.nodup2 h.idsD2 x0 with ⟨m, v, hm, -, hn⟩ | ⟨hno, hn⟩
    · have := len2 hm
      rcases newId_zip h.nodup2 h.idsF2 y0 with ⟨m', v', hm', -, hn'⟩ | ⟨-, hn'⟩
      · have := len2 hm'
        rw [hn, hn'] at hxy; omega
      · rw [hn, hn'] at hxy; omega
    · rw [hn]
      exact ⟨lx, fun _ => hno, fun h => absurd h (by omega)⟩
  · simp only [sidePairs, Nat.one_ne_zero, if_false] at hxy ⊢
    rcases newId_zip h.nodup1 h.idsD1 x0 with ⟨m, v, hm, -, hn⟩ | ⟨hno, hn⟩
    · have := len1 hm
      rcases newId_zip h.nodup1 h.idsF1 y0 with ⟨m', v', hm', -, hn'⟩ | ⟨-, hn'⟩
      · have := len1 hm'
        rw [hn, hn'] at hxy; omega
      · rw [hn, hn'] at hxy; omega
    · rw [hn]
      exact ⟨lx, fun h => by simp at h, fun _ => hno⟩

/-- C58.  Without the visual displacement no cell moves: the nodes of every old cell have the
coordinates they had. -/
theorem C58_geometry (hM : MeshOK p.cells p.points.length)
    (h : IsCut onLine a b tags false p q c1 c2 d1 d2 f1 f2) {i : Nat} {c : Cell}
    (hc : Stored p.cells i c) : ∃ c', Stored q.cells i c' ∧ c'.dimension = c.dimension ∧
      c'.material = c.material ∧ fancy q.points c'.nodeTags = fancy p.points c.nodeTags := by
  by_cases hp : ∃ k, (k = 1 ∨ k = 2) ∧ OnSide a b p c2 k 1 i c
  · obtain ⟨k, hk, hs⟩ := hp
    obtain ⟨c', h1, h2⟩ := h.pos k hk i c hs
    exact ⟨c', h1, h2.dimension, h2.material,
      h.same_points hM (Or.inl rfl) hc (by rw [hs.2.1]; omega) rfl h1 h2⟩
  · by_cases hn : ∃ k, (k = 1 ∨ k = 2) ∧ OnSide a b p c2 k (-1) i c
    · obtain ⟨k, hk, hs⟩ := hn
      obtain ⟨c', h1, h2⟩ := h.neg k hk i c hs
      exact ⟨c', h1, h2.dimension, h2.material,
        h.same_points hM (Or.inr rfl) hc (by rw [hs.2.1]; omega) rfl h1 h2⟩
    · refine ⟨c, h.other i c hc fun k hk => ⟨fun hs => hp ⟨k, hk, hs⟩, fun hs => hn ⟨k, hk, hs⟩⟩,
        rfl, rfl, ?_⟩
      obtain ⟨ps, ps', hq, -⟩ := h.points
      rw [hq, List.append_assoc, fancy_append (hM.nodeTags_lt hc)]

/-- C58.  The copies of a cut edge lie where the edge lies. -/
theorem C58_copies_geometry (hM : MeshOK p.cells p.points.length)
    (hline : ∀ i c, Stored p.cells i c → c.material = tags.line → c.dimension = 1)
    (h : IsCut onLine a b tags false p q c1 c2 d1 d2 f1 f2) {i : Nat} {c : Cell}
    (hc : c1[i]? = some c) :
    ∃ c' c'', Stored q.cells (p.cells.length + i) c' ∧
      Stored q.cells (p.cells.length + c1.length + c2.length + i) c'' ∧
      fancy q.points c'.nodeTags = fancy p.points c.nodeTags ∧
      fancy q.points c''.nodeTags = fancy p.points c.nodeTags := by
  obtain ⟨hst, hm, -⟩ := (h.mem1 c).1 (List.mem_of_getElem? hc)
  have hd := hline _ c hst hm
  obtain ⟨c0, c', -, h2, h3, h4⟩ := h.edgePos i c hc
  obtain ⟨e0, e', -, g2, g3, g4⟩ := h.edgeNeg i c hc
  exact ⟨c', e', h3, g3,
    h.same_points hM (Or.inl rfl) hst (by rw [h2.dimension]; omega) (h2.subOther 0 (by omega)) h3 h4,
    h.same_points hM (Or.inr rfl) hst (by rw [g2.dimension]; omega) (g2.subOther 0 (by omega)) g3 g4⟩

/-- C58.  If the mesh follows the line, sub-entities of sub-entities stay sub-entities: the mesh
is still conforming on each side. -/
theorem C58_conforming (hM : MeshOK p.cells p.points.length) (hcl : SubClosed p.cells)
    (hline : ∀ i c, Stored p.cells i c → c.material = tags.line → c.dimension = 1)
    (h : IsCut onLine a b tags visual p q c1 c2 d1 d2 f1 f2) (hf : FollowsLine a b p c1 c2) :
    SubClosed q.cells := by
  have hdim1 : ∀ c ∈ c1, Stored p.cells c.id c ∧ c.dimension = 1 := fun c hc =>
    have := (h.mem1 c).1 hc
    ⟨this.1, hline _ c this.1 this.2.1⟩
  -- every old cell, before and after
  have old : ∀ {i c'}, Stored q.cells i c' → i < p.cells.length → ∃ c, Stored p.cells i c ∧
      ((∃ k, (k = 1 ∨ k = 2) ∧ OnSide a b p c2 k 1 i c ∧ Updated (sidePairs c1 c2 d1 d2) c c') ∨
       (∃ k, (k = 1 ∨ k = 2) ∧ OnSide a b p c2 k (-1) i c ∧
          Updated (sidePairs c1 c2 f1 f2) c c') ∨
       (c' = c ∧ ∀ k, k = 1 ∨ k = 2 → ¬ OnSide a b p c2 k 1 i c ∧
          ¬ OnSide a b p c2 k (-1) i c)) := by
    intro i c' hc' hi
    obtain ⟨c, hc⟩ := hM.wf.filled i hi
    refine ⟨c, hc, ?_⟩
    by_cases hp : ∃ k, (k = 1 ∨ k = 2) ∧ OnSide a b p c2 k 1 i c
    · obtain ⟨k, hk, hs⟩ := hp
      obtain ⟨c'', h1, h2⟩ := h.pos k hk i c hs
      rw [stored_unique hc' h1]
      exact Or.inl ⟨k, hk, hs, h2⟩
    · by_cases hn : ∃ k, (k = 1 ∨ k = 2) ∧ OnSide a b p c2 k (-1) i c
      · obtain ⟨k, hk, hs⟩ := hn
        obtain ⟨c'', h1, h2⟩ := h.neg k hk i c hs
        rw [stored_unique hc' h1]
        exact Or.inr (Or.inl ⟨k, hk, hs, h2⟩)
      · have hno : ∀ k, k = 1 ∨ k = 2 → ¬ OnSide a b p c2 k 1 i c ∧ ¬ OnSide a b p c2 k (-1) i c :=
          fun k hk => ⟨fun hs => hp ⟨k, hk, hs⟩, fun hs => hn ⟨k, hk, hs⟩⟩
        exact Or.inr (Or.inr ⟨stored_unique hc' (h.other i c hc hno), hno⟩)
  -- new cells are edges or vertices
  have new : ∀ {i c'}, Stored q.cells i c' → p.cells.length ≤ i → c'.dimension ≤ 1 := by
    intro i c' hc' hi
    have hlt := stored_lt hc'
    rw [h.length] at hlt
    rcases Nat.lt_or_ge i (p.cells.length + c1.length) with h1 | h1
    · obtain ⟨c0, c'', -, e1, e2, e3⟩ := h.edgePos (i - p.cells.length) _
        (List.getElem?_eq_getElem (by omega))
      rw [show p.cells.length + (i - p.cells.length) = i by omega] at e2
      rw [stored_unique hc' e2, e3.dimension, e1.dimension,
        (hdim1 _ (List.getElem_mem _)).2]
    rcases Nat.lt_or_ge i (p.cells.length + c1.length + c2.length) with h2 | h2
    · obtain ⟨c'', -, e2, e3, -⟩ := h.vertexPos (i - (p.cells.length + c1.length)) _
        (List.getElem?_eq_getElem (by omega))
      rw [show p.cells.length + c1.length + (i - (p.cells.length + c1.length)) = i by omega] at e2
      rw [stored_unique hc' e2]
      have e4 := e3.dimension
      simp only at e4
      rw [e4]
      obtain ⟨w1, -, d, hd, vs, w2, w3⟩ := (h.mem2 _).1 (List.getElem_mem (l := c2)
        (n := i - (p.cells.length + c1.length)) (by omega))
      obtain ⟨s, w4, w5⟩ := hM.wf.subOk _ d (hdim1 d hd).1 0 vs w2 _ w3
      rw [stored_unique w1 w4, w5]; omega
    rcases Nat.lt_or_ge i (p.cells.length + 2 * c1.length + c2.length) with h3 | h3
    · obtain ⟨c0, c'', -, e1, e2, e3⟩ := h.edgeNeg (i - (p.cells.length + c1.length + c2.length)) _
        (List.getElem?_eq_getElem (by omega))
      rw [show p.cells.length + c1.length + c2.length +
        (i - (p.cells.length + c1.length + c2.length)) = i by omega] at e2
      rw [stored_unique hc' e2, e3.dimension, e1.dimension,
        (hdim1 _ (List.getElem_mem _)).2]
    · obtain ⟨c'', -, e2, e3, -⟩ :=
        h.vertexNeg (i - (p.cells.length + 2 * c1.length + c2.length)) _
          (List.getElem?_eq_getElem (by omega))
      rw [show p.cells.length + 2 * c1.length + c2.length +
        (i - (p.cells.length + 2 * c1.length + c2.length)) = i by omega] at e2
      rw [stored_unique hc' e2]
      have e4 := e3.dimension
      simp only at e4
      rw [e4]
      obtain ⟨w1, -, d, hd, vs, w2, w3⟩ := (h.mem2 _).1 (List.getElem_mem (l := c2)
        (n := i - (p.cells.length + 2 * c1.length + c2.length)) (by omega))
      obtain ⟨s, w4, w5⟩ := hM.wf.subOk _ d (hdim1 d hd).1 0 vs w2 _ w3
      rw [stored_unique w1 w4, w5]; omega
  -- a cell with the vertices on one closed side
  have classify : ∀ {i c vs} {σ : ℝ}, Stored p.cells i c → c.sub[0]? = some vs → Touches c2 c →
      (∀ v ∈ vs, ∀ d s, Stored p.cells v d → SideIs a b p.points d s → 0 ≤ σ * s) →
      (∃ v ∈ vs, ∃ d s, Stored p.cells v d ∧ SideIs a b p.points d s ∧ σ * s ≠ 0) →
      OnSide a b p c2 c.dimension σ i c := by
    intro i c vs σ hc hvs ht hall hex
    obtain ⟨ss, g1, g2, g3⟩ := hM.side_mean a b hc hvs
    have hnn : ∀ s ∈ ss, 0 ≤ σ * s := by
      intro s hs
      obtain ⟨v, hv, d, hd, hds⟩ := forall₂_right g1 hs
      exact hall v hv d s hd hds
    obtain ⟨h1, h2⟩ := sum_sign hnn
    have hpos : 0 < σ * ss.sum := by
      rcases h1.lt_or_eq with h1 | h1
      · exact h1
      · exfalso
        obtain ⟨v, hv, d, s, hd, hds, hne⟩ := hex
        obtain ⟨s', hs', d', hd', hds'⟩ := forall₂_left g1 hv
        rw [stored_unique hd hd'] at hds
        rw [hds.unique hds'] at hne
        exact hne (h2 h1.symm s' hs')
    have hl : (0 : ℝ) < ss.length := by
      have : 0 < ss.length := List.length_pos_iff.2 g2
      exact_mod_cast this
    refine ⟨hc, rfl, ht, _, g3, ?_⟩
    rw [← mul_div_assoc]
    positivity
  have sgn : ∀ {σ s : ℝ}, (σ = 1 ∨ σ = -1) → (σ * s = 0 ↔ s = 0) := by
    rintro σ s (rfl | rfl) <;> simp
  -- the edges of a triangle on one side
  have triCase : ∀ {x1 x2 : List Cell} {σ : ℝ} {s0 : Nat}, (σ = 1 ∨ σ = -1) →
      (∀ k, k = 1 ∨ k = 2 → ∀ i c, OnSide a b p c2 k σ i c →
        ∃ c', Stored q.cells i c' ∧ Updated (sidePairs c1 c2 x1 x2) c c') →
      (∀ k i c, OnSide a b p c2 k (-σ) i c → ¬ OnSide a b p c2 k σ i c) →
      x1.map (·.id) = List.range' s0 c1.length →
      (∀ (i : Nat) c, c1[i]? = some c → ∃ c0 c' : Cell, c0.sub[0]? = c.sub[0]? ∧
        c0.dimension = 1 ∧ Stored q.cells (s0 + i) c' ∧ Updated (sidePairs c1 c2 x1 x2) c0 c') →
      ∀ {i c c' j s ids jds}, OnSide a b p c2 2 σ i c →
        Updated (sidePairs c1 c2 x1 x2) c c' → Stored q.cells j s → c'.sub[1]? = some ids →
        j ∈ ids → s.sub[0]? = some jds → ∃ vs, c'.sub[0]? = some vs ∧ ∀ x ∈ jds, x ∈ vs := by
    intro x1 x2 σ s0 hσ hside hopp hx1 hclone i c c' j s ids jds hc hu hs hids hj hjds
    have hd2 : c.dimension = 2 := hc.2.1
    obtain ⟨ids0, hi0, rfl⟩ := hu.mem (by omega) hids
    obtain ⟨j0, hj0, rfl⟩ := List.mem_map.1 hj
    obtain ⟨e, he, hed⟩ := hM.wf.subOk i c hc.1 1 ids0 hi0 j0 hj0
    have hlen := hM.wf.subLen i c hc.1
    obtain ⟨vs, hvs⟩ : ∃ vs, c.sub[0]? = some vs := ⟨_, List.getElem?_eq_getElem (by omega)⟩
    have hvs' : c'.sub[0]? = some (vs.map (newId (sidePairs c1 c2 x1 x2 0))) := by
      rw [hu.sub 0 (by omega), hvs]; rfl
    have helen := hM.wf.subLen j0 e he
    obtain ⟨ws, hws⟩ : ∃ ws, e.sub[0]? = some ws := ⟨_, List.getElem?_eq_getElem (by omega)⟩
    have hsub : ∀ x ∈ ws, x ∈ vs := by
      obtain ⟨vs2, g1, g2⟩ := hcl i c j0 e hc.1 he ⟨ids0, List.mem_of_getElem? hi0, hj0⟩ 0 ws hws
      rw [hvs] at g1
      obtain rfl : vs = vs2 := by simpa using g1
      exact g2
    refine ⟨_, hvs', ?_⟩
    -- once the vertices of the new edge are the images of those of the old one
    have fin : jds = ws.map (newId (sidePairs c1 c2 x1 x2 0)) →
        ∀ x ∈ jds, x ∈ vs.map (newId (sidePairs c1 c2 x1 x2 0)) := by
      rintro rfl x hx
      obtain ⟨w, hw, rfl⟩ := List.mem_map.1 hx
      exact List.mem_map_of_mem (hsub w hw)
    apply fin
    have hp1 : sidePairs c1 c2 x1 x2 1 = c1.zip x1 := by simp [sidePairs]
    rw [hp1] at hs
    rcases newId_zip h.nodup1 hx1 j0 with ⟨m, e', hm, hid, hn⟩ | ⟨hno, hn⟩
    · rw [hn] at hs
      obtain ⟨e0, e'', g1, g2, g3, g4⟩ := hclone m e' hm
      have hst := (hdim1 e' (List.mem_of_getElem? hm)).1
      rw [hid] at hst
      rw [stored_unique hs g3] at hjds
      obtain ⟨l, hl, rfl⟩ := g4.mem (by omega) hjds
      rw [g1, ← stored_unique he hst, hws] at hl
      obtain rfl : ws = l := by simpa using hl
      rfl
    · rw [hn] at hs
      by_cases ht : Touches c2 e
      · -- on the same side as the triangle
        obtain ⟨τ, hτ, hall, hex⟩ := hf.triangle i c hc.1 hd2 hc.2.2.1 vs hvs
        obtain ⟨v0, hv0, d0, t0, hd0, hs0, hne0⟩ := hex
        have hcτ : OnSide a b p c2 2 τ i c := by
          rw [← hd2]
          exact classify hc.1 hvs hc.2.2.1 hall
            ⟨v0, hv0, d0, t0, hd0, hs0, fun h0 => hne0 ((sgn hτ).1 h0)⟩
        have hτσ : τ = σ := by
          by_contra hne
          have : τ = -σ := by
            rcases hσ with rfl | rfl <;> rcases hτ with rfl | rfl <;> simp_all
          rw [this] at hcτ
          exact hopp 2 i c hcτ hc
        subst hτσ
        have hon : OnSide a b p c2 1 τ j0 e := by
          rw [← hed]
          refine classify he hws ht (fun v hv => hall v (hsub v hv)) ?_
          by_contra hzero
          have := hf.edge j0 e he hed ht ws hws fun v hv d s hd hsd => by
            by_contra hs0
            exact hzero ⟨v, hv, d, s, hd, hsd, fun h0 => hs0 ((sgn hτ).1 h0)⟩
          exact hno e this (hM.wf.ids j0 e he)
        obtain ⟨e', g1, g2⟩ := hside 1 (Or.inl rfl) j0 e hon
        rw [stored_unique hs g1] at hjds
        obtain ⟨l, hl, rfl⟩ := g2.mem (by omega) hjds
        rw [hws] at hl
        obtain rfl : ws = l := by simpa using hl
        rfl
      · -- away from the split vertices
        have hsame : Stored q.cells j0 e := by
          apply h.other j0 e he
          intro k _
          exact ⟨fun g => ht g.2.2.1, fun g => ht g.2.2.1⟩
        rw [stored_unique hs hsame, hws] at hjds
        obtain rfl : ws = jds := by simpa using hjds
        symm
        rw [List.map_congr_left (g := fun x => x), List.map_id']
        intro w hw
        apply newId_of_not_mem
        intro pr hpr hid
        apply ht
        simp only [sidePairs, if_true] at hpr
        exact ⟨pr.1, (List.of_mem_zip hpr).1, ws, hws, hid ▸ hw⟩
  have opp : ∀ k i c, OnSide a b p c2 k (-1) i c → ¬ OnSide a b p c2 k 1 i c := by
    rintro k i c ⟨-, -, -, s, h1, h2⟩ ⟨-, -, -, s', h1', h2'⟩
    rw [h1.unique h1'] at h2
    linarith
  intro i c j s hc hs ⟨ids, hids, hj⟩ e jds hjds
  obtain ⟨m, hm⟩ := List.mem_iff_getElem?.1 hids
  obtain ⟨s', hs', hsd⟩ := h.mesh.wf.subOk i c hc m ids hm j hj
  obtain rfl := stored_unique hs hs'
  have hself := h.mesh.wf.self j s hs
  have hlenc := h.mesh.wf.subLen i c hc
  have hlens := h.mesh.wf.subLen j s hs
  have hmlt := (List.getElem?_eq_some_iff.1 hm).1
  have helt := (List.getElem?_eq_some_iff.1 hjds).1
  -- the entity itself
  by_cases hem : e = m
  · subst hem
    rw [hsd] at hself
    rw [hself] at hjds
    obtain rfl : [j] = jds := by simpa using hjds
    exact ⟨ids, hm, by simpa using hj⟩
  have hem' : e < m := by omega
  by_cases hmc : m = c.dimension
  · rw [hmc, h.mesh.wf.self i c hc] at hm
    obtain rfl : [i] = ids := by simpa using hm
    obtain rfl : j = i := by simpa using hj
    obtain rfl := stored_unique hs hc
    exact ⟨jds, hjds, fun _ hx => hx⟩
  rcases Nat.lt_or_ge i p.cells.length with hi | hi
  · obtain ⟨c0, hc0, hcase⟩ := old hc hi
    have hc0d := hf.dims i c0 hc0
    have hdim : c.dimension = c0.dimension := by
      rcases hcase with ⟨k, -, -, hu⟩ | ⟨k, -, -, hu⟩ | ⟨rfl, -⟩
      · exact hu.dimension
      · exact hu.dimension
      · rfl
    obtain rfl : m = 1 := by omega
    obtain rfl : e = 0 := by omega
    have hd2 : c0.dimension = 2 := by omega
    rcases hcase with ⟨k, -, hon, hu⟩ | ⟨k, -, hon, hu⟩ | ⟨rfl, hno⟩
    · obtain rfl : k = 2 := by rw [← hd2, hon.2.1]
      exact triCase (σ := 1) (Or.inl rfl) h.pos opp h.idsD1 (fun i c hi => by
        obtain ⟨a1, a2, -, a3, a4, a5⟩ := h.edgePos i c hi
        have hd := (hdim1 c (List.mem_of_getElem? hi)).2
        exact ⟨a1, a2, a3.subOther 0 (by omega), a3.dimension.trans hd, a4, a5⟩)
        hon hu hs hm hj hjds
    · obtain rfl : k = 2 := by rw [← hd2, hon.2.1]
      exact triCase (σ := -1) (Or.inr rfl) h.neg (fun k i c h1 h2 => opp k i c h2 (by simpa using h1))
        h.idsF1 (fun i c hi => by
        obtain ⟨a1, a2, -, a3, a4, a5⟩ := h.edgeNeg i c hi
        have hd := (hdim1 c (List.mem_of_getElem? hi)).2
        exact ⟨a1, a2, a3.subOther 0 (by omega), a3.dimension.trans hd, a4, a5⟩)
        hon hu hs hm hj hjds
    · -- a triangle away from the split vertices
      obtain ⟨vs, hvs⟩ : ∃ vs, c.sub[0]? = some vs := ⟨_, List.getElem?_eq_getElem (by omega)⟩
      have hnt : ¬ Touches c2 c := by
        intro ht
        obtain ⟨τ, hτ, hall, v0, hv0, d0, t0, hd0, hs0, hne0⟩ := hf.triangle i c hc0 hd2 ht vs hvs
        have := classify hc0 hvs ht hall
            ⟨v0, hv0, d0, t0, hd0, hs0, fun h0 => hne0 ((sgn hτ).1 h0)⟩
        rw [hd2] at this
        rcases hτ with rfl | rfl
        · exact (hno 2 (Or.inr rfl)).1 this
        · exact (hno 2 (Or.inr rfl)).2 this
      obtain ⟨e, he, hed⟩ := hM.wf.subOk i c hc0 1 ids hm j hj
      have helen := hM.wf.subLen j e he
      obtain ⟨ws, hws⟩ : ∃ ws, e.sub[0]? = some ws := ⟨_, List.getElem?_eq_getElem (by omega)⟩
      obtain ⟨vs2, g1, g2⟩ := hcl i c j e hc0 he ⟨ids, hids, hj⟩ 0 ws hws
      have hsame : Stored q.cells j e := by
        apply h.other j e he
        have hnt' : ¬ Touches c2 e := by
          rintro ⟨v, hv, ws2, hws2, hvw⟩
          rw [hws] at hws2
          obtain rfl : ws = ws2 := by simpa using hws2
          exact hnt ⟨v, hv, vs2, g1, g2 _ hvw⟩
        intro k _
        exact ⟨fun g => hnt' g.2.2.1, fun g => hnt' g.2.2.1⟩
      rw [stored_unique hs hsame, hws] at hjds
      obtain rfl : ws = jds := by simpa using hjds
      exact ⟨vs2, g1, g2⟩
  · have := new hc hi
    omega

end

/-- C58, rejections: only meshes of dimension 2 are cut; without edges with the line's tag numpy
raises `IndexError`; if none of them is on the segment `np.concatenate` raises `ValueError`; a
cut whose vertices all belong to the internal boundary raises `ValueError`. -/
theorem C58_rejects (argsort : List ℝ → List Nat) (onLine : Pt ℝ → Bool) (a b : Pt ℝ)
    (tags : CutTags) (visual : Bool) (dimension : Nat) (p : Parts) :
    (dimension ≠ 2 → cutLine argsort onLine a b tags visual dimension p =
      .error .assertionError) ∧
    (MeshOK p.cells p.points.length →
      (∀ i c, Stored p.cells i c → c.material ≠ tags.line) →
      cutLine argsort onLine a b tags visual 2 p = .error .indexError) ∧
    (MeshOK p.cells p.points.length →
      (∃ i c, Stored p.cells i c ∧ c.material = tags.line) → (∀ c, ¬ IsC1 onLine tags p c) →
      cutLine argsort onLine a b tags visual 2 p = .error .valueError) ∧
    (MeshOK p.cells p.points.length → ∀ c1, selectC1 onLine tags p = .ok c1 → c1 ≠ [] →
      (∀ c, ¬ IsC2 tags p c1 c) →
      cutLine argsort onLine a b tags visual 2 p = .error .valueError) := by
  have graphs : ∀ hM : MeshOK p.cells p.points.length, ∃ g2 g1,
      buildGraph ⟨2, p.cells⟩ 2 2 = .ok g2 ∧ buildGraph ⟨2, p.cells⟩ 1 1 = .ok g1 := by
    intro hM
    obtain ⟨g2, e2, -⟩ := (C07_build_graph ⟨2, p.cells⟩ hM.wf 2 2).1 (le_refl _)
    obtain ⟨g1, e1, -⟩ := (C07_build_graph ⟨2, p.cells⟩ hM.wf 1 1).1 (le_refl _)
    exact ⟨g2, g1, e2, e1⟩
  have stored_mem : ∀ {cs : List Cell}, p.cells = cs.map some → ∀ c ∈ cs, ∃ i, Stored p.cells i c := by
    intro cs hcs c hc
    obtain ⟨i, hi⟩ := List.mem_iff_getElem?.1 hc
    exact ⟨i, by rw [hcs]; exact stored_map.2 hi⟩
  refine ⟨?_, ?_, ?_, ?_⟩
  · intro h; unfold cutLine; rw [if_pos h]
  · intro hM hno
    obtain ⟨cs, hcs⟩ := hM.wf.eq_map
    have : selectC1 onLine tags p = .error .indexError := by
      unfold selectC1
      rw [hcs, selectCells_filled, Res.bind_ok, if_pos]
      rw [List.filter_eq_nil_iff]
      intro c hc
      obtain ⟨i, hi⟩ := stored_mem hcs c hc
      simpa using hno i c hi
    unfold cutLine
    rw [if_neg (by simp), this]; rfl
  · intro hM hex hno
    obtain ⟨cs, hcs⟩ := hM.wf.eq_map
    have hsel : ∃ c1, selectC1 onLine tags p = .ok c1 := by
      unfold selectC1
      obtain ⟨i, c, hc, hm⟩ := hex
      have hne : ¬ cs.filter (fun c => c.material == tags.line) = [] := by
        rw [List.filter_eq_nil_iff]
        push Not
        rw [hcs] at hc
        exact ⟨c, List.mem_of_getElem? (stored_map.1 hc), by simpa using hm⟩
      rw [hcs, selectCells_filled, Res.bind_ok, if_neg hne]
      have : ∀ c ∈ cs.filter (fun c => c.material == tags.line),
          ∃ x, cellCentroid p.points c = .ok x := by
        intro c hc
        obtain ⟨i, hi⟩ := stored_mem hcs c (List.mem_filter.1 hc).1
        have hl := hM.wf.subLen i c hi
        obtain ⟨vs, hvs⟩ : ∃ vs, c.sub[0]? = some vs := ⟨_, List.getElem?_eq_getElem (by omega)⟩
        obtain ⟨ss, -, -, x, hx, -⟩ := hM.side_mean a b hi hvs
        exact ⟨x, hx⟩
      obtain ⟨xs, hxs⟩ := exists_forall₂ this
      rw [mapRes_iff.2 hxs]
      exact ⟨_, rfl⟩
    obtain ⟨c1, hc1⟩ := hsel
    obtain ⟨-, hmem⟩ := selectC1_spec hM.wf hc1
    have hnil : c1 = [] := by
      apply List.eq_nil_iff_forall_not_mem.2
      intro c hc
      exact hno c ((hmem c).1 hc)
    obtain ⟨g2, g1, e2, e1⟩ := graphs hM
    unfold cutLine
    rw [if_neg (by simp), hc1, Res.bind_ok, e2, Res.bind_ok, e1, Res.bind_ok, hnil]
    rfl
  · intro hM c1 hc1 hne hno
    obtain ⟨-, hmem⟩ := selectC1_spec hM.wf hc1
    have hst : ∀ c ∈ c1, Stored p.cells c.id c := fun c hc => ((hmem c).1 hc).1
    obtain ⟨g2, g1, e2, e1⟩ := graphs hM
    have hsel : ∃ c2, selectC2 tags p.cells c1 = .ok c2 := by
      unfold selectC2
      rw [if_neg hne]
      obtain ⟨subs, hs⟩ := exists_forall₂ (R := fun c l => Cell.subIds c 0 = .ok l) (l := c1) (by
        intro c hc
        have hl := hM.wf.subLen _ c (hst c hc)
        obtain ⟨vs, hvs⟩ : ∃ vs, c.sub[0]? = some vs := ⟨_, List.getElem?_eq_getElem (by omega)⟩
        exact ⟨vs, by simpa [Cell.subIds] using hvs⟩)
      rw [mapRes_iff.2 hs, Res.bind_ok]
      obtain ⟨r, hr⟩ := exists_forall₂ (R := fun i c => cellAt p.cells i = .ok c)
        (l := npSort (uniq subs.flatten)) (by
          intro i hi
          obtain ⟨l, hl, hil⟩ := List.mem_flatten.1 (mem_npSort_uniq.1 hi)
          obtain ⟨c, hc, hcl⟩ := forall₂_right hs hl
          have hcl' : c.sub[0]? = some l := by simpa [Cell.subIds] using hcl
          obtain ⟨d, hd, -⟩ := hM.wf.subOk _ c (hst c hc) 0 l hcl' i hil
          exact ⟨d, cellAt_eq_ok.2 hd⟩)
      rw [mapRes_iff.2 hr]
      exact ⟨_, rfl⟩
    obtain ⟨c2, hc2⟩ := hsel
    obtain ⟨-, -, hmem2⟩ := selectC2_spec hM.wf hc2
    have hnil : c2 = [] := by
      apply List.eq_nil_iff_forall_not_mem.2
      intro c hc
      exact hno c ((hmem2 c).1 hc)
    unfold cutLine
    rw [if_neg (by simp), hc1, Res.bind_ok, e2, Res.bind_ok, e1, Res.bind_ok, hc2, Res.bind_ok, hnil]
    rfl

/-- C58, several lines: the cuts are made one after the other, each on the mesh left by the one
before, and the mesh is in order at the end.  The tag of the copied vertices must not be the
line's tag. -/
theorem C58_lines {argsort : List ℝ → List Nat}
    (hsort : ∀ l, (argsort l).Perm (List.range l.length)) {tags : CutTags} {visual : Bool}
    {dimension : Nat} (htag : tags.pointClones ≠ tags.line) :
    ∀ {lines : List ((Pt ℝ → Bool) × Pt ℝ × Pt ℝ)} {p q : Parts} {Is : List Interface},
    MeshOK p.cells p.points.length →
    (∀ i c, Stored p.cells i c → c.material = tags.line → c.dimension = 1) →
    cutLines argsort tags visual dimension lines p = .ok (q, Is) →
    Is.length = lines.length ∧ MeshOK q.cells q.points.length ∧
      (∀ i c, Stored q.cells i c → c.material = tags.line → c.dimension = 1) ∧
      p.cells.length ≤ q.cells.length ∧ p.points.length ≤ q.points.length
  | [], p, q, Is, hM, hline, h => by
    simp only [cutLines, Except.ok.injEq, Prod.mk.injEq] at h
    obtain ⟨rfl, rfl⟩ := h
    exact ⟨rfl, hM, hline, le_refl _, le_refl _⟩
  | (onLine, a, b) :: lines, p, q, Is, hM, hline, h => by
    simp only [cutLines] at h
    obtain ⟨⟨p', I⟩, h1, h⟩ := Res.bind_eq_ok.1 h
    obtain ⟨⟨p'', Is'⟩, h2, h⟩ := Res.bind_eq_ok.1 h
    simp only [Res.pure_eq, Except.ok.injEq, Prod.mk.injEq] at h
    obtain ⟨rfl, rfl⟩ := h
    obtain ⟨-, c1, c2, d1, d2, f1, f2, hc, -⟩ := C58_cut hsort hM hline h1
    obtain ⟨g1, g2, g3, g4, g5⟩ := C58_lines hsort htag hc.mesh (hc.keeps_line hM htag hline) h2
    have hlen := hc.length
    obtain ⟨ps, ps', hps, -⟩ := hc.points
    have hpl : p'.points.length = p.points.length + ps.length + ps'.length := by
      rw [hps]; simp [Nat.add_assoc]
    exact ⟨by simp [g1], g2, g3, by omega, by omega⟩

/-- C58.  The value that decides the side is the signed distance to the line through `a` and `b`,
positive on the left. -/
theorem C58_side {a b : Pt ℝ} (hab : a ≠ b) (hz : a 2 = b 2) {points : Points ℝ} {c : Cell}
    {s : ℝ} :
    SideIs a b points c s ↔ ∃ x, cellCentroid points c = .ok x ∧
      s = ((b 0 - a 0) * (x 1 - a 1) - (b 1 - a 1) * (x 0 - a 0)) /
        Real.sqrt ((b 0 - a 0) ^ 2 + (b 1 - a 1) ^ 2) := by
  have hn : norm3 (b - a) = Real.sqrt ((b 0 - a 0) ^ 2 + (b 1 - a 1) ^ 2) := by
    simp [norm3, hz]
  have hpos : Real.sqrt ((b 0 - a 0) ^ 2 + (b 1 - a 1) ^ 2) ≠ 0 := by
    intro h
    rw [Real.sqrt_eq_zero (by positivity)] at h
    have h0 : b 0 - a 0 = 0 := by nlinarith [sq_nonneg (b 0 - a 0), sq_nonneg (b 1 - a 1)]
    have h1 : b 1 - a 1 = 0 := by nlinarith [sq_nonneg (b 0 - a 0), sq_nonneg (b 1 - a 1)]
    apply hab
    funext k
    fin_cases k
    · simpa using (sub_eq_zero.1 h0).symm
    · simpa using (sub_eq_zero.1 h1).symm
    · simpa using hz
  have key : ∀ x : Pt ℝ, dot3 (x - midpoint a b) (normalDir a b) =
      ((b 0 - a 0) * (x 1 - a 1) - (b 1 - a 1) * (x 0 - a 0)) /
        Real.sqrt ((b 0 - a 0) ^ 2 + (b 1 - a 1) ^ 2) := by
    intro x
    simp only [dot3, midpoint, normalDir, hn, Pi.sub_apply, Matrix.cons_val_zero,
      Matrix.cons_val_one, Matrix.cons_val, hz]
    field_simp
    ring
  simp only [SideIs, key]

example : (![0, 0, 0] : Pt ℝ) ≠ ![1, 0, 0] := fun h => by simpa using congrFun h 0

/-! ### A mesh of two triangles -/

/-- Two triangles sharing the edge 4. -/
def twoTriangles : List Cell := [⟨0, 0, none, [0], [[0]]⟩, ⟨0, 1, none, [1], [[1]]⟩,
  ⟨0, 2, none, [2], [[2]]⟩, ⟨0, 3, none, [3], [[3]]⟩,
  ⟨1, 4, some 10, [0, 1], [[0, 1], [4]]⟩, ⟨1, 5, none, [0, 2], [[0, 2], [5]]⟩,
  ⟨1, 6, none, [1, 2], [[1, 2], [6]]⟩, ⟨1, 7, none, [0, 3], [[0, 3], [7]]⟩,
  ⟨1, 8, none, [1, 3], [[1, 3], [8]]⟩,
  ⟨2, 9, some 1, [0, 1, 2], [[0, 1, 2], [4, 6, 5], [9]]⟩,
  ⟨2, 10, some 1, [0, 1, 3], [[0, 1, 3], [4, 8, 7], [10]]⟩]

noncomputable def twoPoints : Points ℝ := [![0, 0, 0], ![1, 0, 0], ![1 / 2, 1, 0], ![1 / 2, -1, 0]]

noncomputable def twoParts : Parts := ⟨twoTriangles.map some, twoPoints⟩

def twoTags : CutTags := ⟨some 10, some 11, some 20, some 21, some 30⟩

theorem twoNormal : normalDir ![0, 0, 0] ![1, 0, 0] = ![0, 1, 0] := by
  funext k
  fin_cases k <;> simp [normalDir, norm3]

theorem twoMid : midpoint ![0, 0, 0] ![1, 0, 0] = ![1 / 2, 0, 0] := by
  funext k
  fin_cases k <;> simp [midpoint]

/-- The cut of the two triangles along their common edge, and its result. -/
theorem twoCut : ∃ q I, cutLine (fun l => List.range l.length) (fun _ => true) ![0, 0, 0]
    ![1, 0, 0] twoTags false 2 twoParts = .ok (q, I) ∧
    q.cells = [⟨0, 0, none, [0], [[0]]⟩, ⟨0, 1, none, [1], [[1]]⟩, ⟨0, 2, none, [2], [[2]]⟩,
      ⟨0, 3, none, [3], [[3]]⟩, ⟨1, 4, some 10, [0, 1], [[0, 1], [4]]⟩,
      ⟨1, 5, none, [4, 2], [[12, 2], [5]]⟩, ⟨1, 6, none, [5, 2], [[13, 2], [6]]⟩,
      ⟨1, 7, none, [6, 3], [[15, 3], [7]]⟩, ⟨1, 8, none, [7, 3], [[16, 3], [8]]⟩,
      ⟨2, 9, some 1, [4, 5, 2], [[12, 13, 2], [11, 6, 5], [9]]⟩,
      ⟨2, 10, some 1, [6, 7, 3], [[15, 16, 3], [14, 8, 7], [10]]⟩,
      ⟨1, 11, some 11, [4, 5], [[12, 13], [11]]⟩, ⟨0, 12, none, [4], [[12]]⟩,
      ⟨0, 13, none, [5], [[13]]⟩, ⟨1, 14, some 11, [6, 7], [[15, 16], [14]]⟩,
      ⟨0, 15, none, [6], [[15]]⟩, ⟨0, 16, none, [7], [[16]]⟩].map some := by
  have s1 : selectC1 (fun _ => true) twoTags twoParts =
      .ok [⟨1, 4, some 10, [0, 1], [[0, 1], [4]]⟩] := rfl
  have s0 : sideCells ![0, 0, 0] ![1, 0, 0] twoPoints
      [⟨2, 9, some 1, [0, 1, 2], [[0, 1, 2], [4, 6, 5], [9]]⟩,
       ⟨2, 10, some 1, [0, 1, 3], [[0, 1, 3], [4, 8, 7], [10]]⟩] =
      .ok ([⟨2, 9, some 1, [0, 1, 2], [[0, 1, 2], [4, 6, 5], [9]]⟩],
       [⟨2, 10, some 1, [0, 1, 3], [[0, 1, 3], [4, 8, 7], [10]]⟩]) := by
    unfold sideCells
    rw [twoNormal, twoMid, if_neg (by simp)]
    simp [mapRes, cellCentroid, fancy, getIdx, twoPoints, dot3, bind, Except.bind, pure, Except.pure]
    norm_num
  have g2 : buildGraph ⟨2, twoParts.cells⟩ 2 2 = .ok (DiGraph.ofEdges
      [((2, 9), (0, 0)), ((2, 9), (0, 1)), ((2, 9), (0, 2)), ((2, 10), (0, 0)), ((2, 10), (0, 1)),
       ((2, 10), (0, 3))]) := rfl
  have g1 : buildGraph ⟨2, twoParts.cells⟩ 1 1 = .ok (DiGraph.ofEdges
      [((1, 4), (0, 0)), ((1, 4), (0, 1)), ((1, 5), (0, 0)), ((1, 5), (0, 2)), ((1, 6), (0, 1)),
       ((1, 6), (0, 2)), ((1, 7), (0, 0)), ((1, 7), (0, 3)), ((1, 8), (0, 1)),
       ((1, 8), (0, 3))]) := rfl
  have s2 : selectC2 twoTags twoParts.cells [⟨1, 4, some 10, [0, 1], [[0, 1], [4]]⟩] =
    .ok [⟨0, 0, none, [0], [[0]]⟩, ⟨0, 1, none, [1], [[1]]⟩] := rfl
  have se : ∀ qs, sideCells ![0, 0, 0] ![1, 0, 0] (twoPoints ++ qs)
      [⟨1, 4, some 10, [0, 1], [[0, 1], [4]]⟩, ⟨1, 5, none, [0, 2], [[0, 2], [5]]⟩,
       ⟨1, 6, none, [1, 2], [[1, 2], [6]]⟩, ⟨1, 7, none, [0, 3], [[0, 3], [7]]⟩,
       ⟨1, 8, none, [1, 3], [[1, 3], [8]]⟩] =
      .ok ([⟨1, 5, none, [0, 2], [[0, 2], [5]]⟩, ⟨1, 6, none, [1, 2], [[1, 2], [6]]⟩],
       [⟨1, 7, none, [0, 3], [[0, 3], [7]]⟩, ⟨1, 8, none, [1, 3], [[1, 3], [8]]⟩]) := by
    intro qs
    unfold sideCells
    rw [twoNormal, twoMid, if_neg (by simp)]
    simp [mapRes, cellCentroid, fancy, getIdx, twoPoints, dot3, bind, Except.bind, pure, Except.pure]
    norm_num
  unfold cutLine
  rw [if_neg (by simp), s1, Res.bind_ok, g2, Res.bind_ok, g1, Res.bind_ok, s2, Res.bind_ok]
  have ar2 : around (DiGraph.ofEdges
      [((2, 9), (0, 0)), ((2, 9), (0, 1)), ((2, 9), (0, 2)), ((2, 10), (0, 0)), ((2, 10), (0, 1)),
       ((2, 10), (0, 3))]) twoParts.cells [⟨0, 0, none, [0], [[0]]⟩, ⟨0, 1, none, [1], [[1]]⟩] =
      .ok [⟨2, 9, some 1, [0, 1, 2], [[0, 1, 2], [4, 6, 5], [9]]⟩,
       ⟨2, 10, some 1, [0, 1, 3], [[0, 1, 3], [4, 8, 7], [10]]⟩] := rfl
  rw [ar2, Res.bind_ok, show twoParts.points = twoPoints from rfl, s0, Res.bind_ok]
  have cp1 : ∀ bump, copySide (fun l => List.range l.length)
      (Dict.ofList [(twoTags.line, twoTags.lineClones), (twoTags.point, twoTags.pointClones)])
      bump twoParts [⟨1, 4, some 10, [0, 1], [[0, 1], [4]]⟩]
      [⟨0, 0, none, [0], [[0]]⟩, ⟨0, 1, none, [1], [[1]]⟩] =
      .ok (⟨(twoTriangles ++ ([⟨1, 11, some 11, [0, 1], [[0, 1], [11]]⟩,
          ⟨0, 12, none, [4], [[12]]⟩, ⟨0, 13, none, [5], [[13]]⟩] : List Cell)).map some,
          twoPoints ++ [bumped bump ![0, 0, 0], bumped bump ![1, 0, 0]]⟩,
        [⟨1, 11, some 11, [0, 1], [[0, 1], [11]]⟩],
        [⟨0, 12, none, [4], [[12]]⟩, ⟨0, 13, none, [5], [[13]]⟩]) := fun _ => rfl
  have cp2 : ∀ bump x y, copySide (fun l => List.range l.length)
      (Dict.ofList [(twoTags.line, twoTags.lineClones), (twoTags.point, twoTags.pointClones)])
      bump ⟨(twoTriangles ++ ([⟨1, 11, some 11, [0, 1], [[0, 1], [11]]⟩,
          ⟨0, 12, none, [4], [[12]]⟩, ⟨0, 13, none, [5], [[13]]⟩] : List Cell)).map some,
          twoPoints ++ [x, y]⟩
      [⟨1, 4, some 10, [0, 1], [[0, 1], [4]]⟩]
      [⟨0, 0, none, [0], [[0]]⟩, ⟨0, 1, none, [1], [[1]]⟩] =
      .ok (⟨(twoTriangles ++ ([⟨1, 11, some 11, [0, 1], [[0, 1], [11]]⟩,
          ⟨0, 12, none, [4], [[12]]⟩, ⟨0, 13, none, [5], [[13]]⟩,
          ⟨1, 14, some 11, [0, 1], [[0, 1], [14]]⟩,
          ⟨0, 15, none, [6], [[15]]⟩, ⟨0, 16, none, [7], [[16]]⟩] : List Cell)).map some,
          twoPoints ++ [x, y, bumped bump ![0, 0, 0], bumped bump ![1, 0, 0]]⟩,
        [⟨1, 14, some 11, [0, 1], [[0, 1], [14]]⟩],
        [⟨0, 15, none, [6], [[15]]⟩, ⟨0, 16, none, [7], [[16]]⟩]) := fun _ _ _ => rfl
  simp only []
  rw [cp1, Res.bind_ok]
  simp only
  rw [cp2, Res.bind_ok]
  have up : cutUpdates (List.map some (twoTriangles ++ ([⟨1, 11, some 11, [0, 1], [[0, 1], [11]]⟩,
          ⟨0, 12, none, [4], [[12]]⟩, ⟨0, 13, none, [5], [[13]]⟩,
          ⟨1, 14, some 11, [0, 1], [[0, 1], [14]]⟩,
          ⟨0, 15, none, [6], [[15]]⟩, ⟨0, 16, none, [7], [[16]]⟩] : List Cell)))
      ([⟨2, 9, some 1, [0, 1, 2], [[0, 1, 2], [4, 6, 5], [9]]⟩],
       [⟨2, 10, some 1, [0, 1, 3], [[0, 1, 3], [4, 8, 7], [10]]⟩])
      [⟨1, 4, some 10, [0, 1], [[0, 1], [4]]⟩] [⟨1, 11, some 11, [0, 1], [[0, 1], [11]]⟩]
      [⟨1, 14, some 11, [0, 1], [[0, 1], [14]]⟩]
      [⟨0, 0, none, [0], [[0]]⟩, ⟨0, 1, none, [1], [[1]]⟩]
      [⟨0, 12, none, [4], [[12]]⟩, ⟨0, 13, none, [5], [[13]]⟩]
      [⟨0, 15, none, [6], [[15]]⟩, ⟨0, 16, none, [7], [[16]]⟩] =
      .ok ((twoTriangles.take 9 ++
        ([⟨2, 9, some 1, [4, 5, 2], [[12, 13, 2], [11, 6, 5], [9]]⟩,
         ⟨2, 10, some 1, [6, 7, 3], [[15, 16, 3], [14, 8, 7], [10]]⟩,
         ⟨1, 11, some 11, [4, 5], [[12, 13], [11]]⟩, ⟨0, 12, none, [4], [[12]]⟩,
         ⟨0, 13, none, [5], [[13]]⟩, ⟨1, 14, some 11, [6, 7], [[15, 16], [14]]⟩,
         ⟨0, 15, none, [6], [[15]]⟩, ⟨0, 16, none, [7], [[16]]⟩] : List Cell)).map some) := rfl
  simp only
  rw [up, Res.bind_ok]
  have ar1 : around (DiGraph.ofEdges
      [((1, 4), (0, 0)), ((1, 4), (0, 1)), ((1, 5), (0, 0)), ((1, 5), (0, 2)), ((1, 6), (0, 1)),
       ((1, 6), (0, 2)), ((1, 7), (0, 0)), ((1, 7), (0, 3)), ((1, 8), (0, 1)),
       ((1, 8), (0, 3))]) (List.map some (twoTriangles.take 9 ++
        ([⟨2, 9, some 1, [4, 5, 2], [[12, 13, 2], [11, 6, 5], [9]]⟩,
         ⟨2, 10, some 1, [6, 7, 3], [[15, 16, 3], [14, 8, 7], [10]]⟩,
         ⟨1, 11, some 11, [4, 5], [[12, 13], [11]]⟩, ⟨0, 12, none, [4], [[12]]⟩,
         ⟨0, 13, none, [5], [[13]]⟩, ⟨1, 14, some 11, [6, 7], [[15, 16], [14]]⟩,
         ⟨0, 15, none, [6], [[15]]⟩, ⟨0, 16, none, [7], [[16]]⟩] : List Cell)))
      [⟨0, 0, none, [0], [[0]]⟩, ⟨0, 1, none, [1], [[1]]⟩] =
      .ok [⟨1, 4, some 10, [0, 1], [[0, 1], [4]]⟩, ⟨1, 5, none, [0, 2], [[0, 2], [5]]⟩,
       ⟨1, 6, none, [1, 2], [[1, 2], [6]]⟩, ⟨1, 7, none, [0, 3], [[0, 3], [7]]⟩,
       ⟨1, 8, none, [1, 3], [[1, 3], [8]]⟩] := rfl
  rw [ar1, Res.bind_ok, se, Res.bind_ok]
  exact ⟨_, _, rfl, rfl⟩

theorem two_meshOK : MeshOK twoParts.cells twoParts.points.length := by
  obtain ⟨h1, h2, h3⟩ := CheckMesh.sound (cs := twoTriangles) (by decide)
  refine ⟨h1, h2, h3, ?_⟩
  rintro v t ⟨c, hc, hd, ht⟩
  have hi := stored_lt hc
  simp only [twoParts, List.length_map] at hi
  change v < 11 at hi
  change t < 4
  interval_cases v <;> simp [Stored, twoParts, twoTriangles] at hc <;> subst hc <;> simp at hd ht <;>
    omega

theorem two_line : ∀ i c, Stored twoParts.cells i c → c.material = twoTags.line →
    c.dimension = 1 := by
  intro i c hc hm
  have hi := stored_lt hc
  change i < 11 at hi
  interval_cases i <;> simp [Stored, twoParts, twoTriangles] at hc <;> subst hc <;>
    simp [twoTags] at hm ⊢

/-- The sides of the four vertices. -/
theorem two_side {v : Nat} {d : Cell} {s : ℝ} (hd : Stored twoParts.cells v d)
    (hs : SideIs ![0, 0, 0] ![1, 0, 0] twoParts.points d s) (hv : v < 4) :
    s = if v = 2 then 1 else if v = 3 then -1 else 0 := by
  obtain ⟨x, hx, rfl⟩ := hs
  rw [twoNormal, twoMid]
  interval_cases v <;> simp [Stored, twoParts, twoTriangles] at hd <;> subst hd <;>
    simp [cellCentroid, fancy, mapRes, getIdx, twoParts, twoPoints, bind, Except.bind, pure,
      Except.pure] at hx <;> subst hx <;> simp [dot3]

theorem two_follows : FollowsLine ![0, 0, 0] ![1, 0, 0] twoParts
    [⟨1, 4, some 10, [0, 1], [[0, 1], [4]]⟩]
    [⟨0, 0, none, [0], [[0]]⟩, ⟨0, 1, none, [1], [[1]]⟩] := by
  have st2 : Stored twoParts.cells 2 ⟨0, 2, none, [2], [[2]]⟩ := rfl
  have st3 : Stored twoParts.cells 3 ⟨0, 3, none, [3], [[3]]⟩ := rfl
  have s2 : SideIs ![0, 0, 0] ![1, 0, 0] twoParts.points ⟨0, 2, none, [2], [[2]]⟩ 1 := by
    refine ⟨![1 / 2, 1, 0], ?_, by rw [twoNormal, twoMid]; simp [dot3]⟩
    simp [cellCentroid, fancy, mapRes, getIdx, twoParts, twoPoints, bind, Except.bind, pure,
      Except.pure]
  have s3 : SideIs ![0, 0, 0] ![1, 0, 0] twoParts.points ⟨0, 3, none, [3], [[3]]⟩ (-1) := by
    refine ⟨![1 / 2, -1, 0], ?_, by rw [twoNormal, twoMid]; simp [dot3]⟩
    simp [cellCentroid, fancy, mapRes, getIdx, twoParts, twoPoints, bind, Except.bind, pure,
      Except.pure]
  refine ⟨?_, ?_, ?_⟩
  · intro i c hc
    have hi := stored_lt hc
    change i < 11 at hi
    interval_cases i <;> simp [Stored, twoParts, twoTriangles] at hc <;> subst hc <;> simp
  · intro i c hc hd _ vs hvs
    have hi := stored_lt hc
    change i < 11 at hi
    obtain rfl | rfl : i = 9 ∨ i = 10 := by
      interval_cases i <;> simp [Stored, twoParts, twoTriangles] at hc <;> subst hc <;>
        simp at hd ⊢
    · simp [Stored, twoParts, twoTriangles] at hc
      subst hc
      simp at hvs
      subst hvs
      refine ⟨1, Or.inl rfl, ?_, 2, by simp, _, 1, st2, s2, by norm_num⟩
      intro v hv d s hd hs
      have hv4 : v = 0 ∨ v = 1 ∨ v = 2 := by simpa using hv
      rw [two_side hd hs (by omega)]
      rcases hv4 with rfl | rfl | rfl <;> norm_num
    · simp [Stored, twoParts, twoTriangles] at hc
      subst hc
      simp at hvs
      subst hvs
      refine ⟨-1, Or.inr rfl, ?_, 3, by simp, _, -1, st3, s3, by norm_num⟩
      intro v hv d s hd hs
      have hv4 : v = 0 ∨ v = 1 ∨ v = 3 := by simpa using hv
      rw [two_side hd hs (by omega)]
      rcases hv4 with rfl | rfl | rfl <;> norm_num
  · intro i c hc hd _ vs hvs hzero
    have hi := stored_lt hc
    change i < 11 at hi
    have h2 : 2 ∉ vs := fun h => by have := hzero 2 h _ _ st2 s2; norm_num at this
    have h3 : 3 ∉ vs := fun h => by have := hzero 3 h _ _ st3 s3; norm_num at this
    interval_cases i <;> simp [Stored, twoParts, twoTriangles] at hc <;> subst hc <;>
      simp at hd hvs ⊢ <;> subst hvs <;> simp at h2 h3

example : ∃ q c1 c2 d1 d2 f1 f2, IsCut (fun _ => true) ![0, 0, 0] ![1, 0, 0] twoTags false twoParts
    q c1 c2 d1 d2 f1 f2 := by
  obtain ⟨q, I, h, -⟩ := twoCut
  obtain ⟨-, c1, c2, d1, d2, f1, f2, hc, -⟩ := C58_cut (by simp) two_meshOK two_line h
  exact ⟨q, c1, c2, d1, d2, f1, f2, hc⟩

example : twoTags.pointClones ≠ twoTags.line := by decide

#print axioms C58_cut
#print axioms C58_separates
#print axioms C58_geometry
#print axioms C58_copies_geometry
#print axioms C58_conforming
#print axioms C58_rejects
#print axioms C58_lines

#print axioms C58_side

end Verif.MeshOps
