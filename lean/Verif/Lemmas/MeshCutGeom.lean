/-
Lemmas for C58: consequences of the description of a cut.
-/
import Verif.Lemmas.MeshCutMain

namespace Verif.MeshOps
open MeshBuild MeshGraph MeshStore Trace MeshMetrics

theorem newId_zip {xs ys : List Cell} {s : Nat} (hn : (xs.map (·.id)).Nodup)
    (hy : ys.map (·.id) = List.range' s xs.length) (x : Nat) :
    (∃ (i : Nat) (c : Cell), xs[i]? = some c ∧ c.id = x ∧ newId (xs.zip ys) x = s + i) ∨
      ((∀ c ∈ xs, c.id ≠ x) ∧ newId (xs.zip ys) x = x) := by
  have hlen : ys.length = xs.length := by simpa using congrArg List.length hy
  by_cases h : ∃ c ∈ xs, c.id = x
  · obtain ⟨c, hc, rfl⟩ := h
    obtain ⟨i, hi⟩ := List.mem_iff_getElem?.1 hc
    have hil := (List.getElem?_eq_some_iff.1 hi).1
    have hil' : i < ys.length := by omega
    have hmem : (c, ys[i]) ∈ xs.zip ys := by
      refine List.mem_of_getElem? (i := i) ?_
      rw [List.getElem?_zip_eq_some]
      exact ⟨hi, List.getElem?_eq_getElem hil'⟩
    refine Or.inl ⟨i, c, hi, rfl, ?_⟩
    have h1 := newId_of_mem (pairs := xs.zip ys) (by rw [zip_fst_ids hlen]; exact hn) hmem
    simp only at h1
    rw [h1]
    have h2 := congrArg (fun l => l[i]?) hy
    simp only [List.getElem?_map, List.getElem?_eq_getElem hil', Option.map_some] at h2
    rw [List.getElem?_eq_getElem (by simpa using hil)] at h2
    simpa using h2
  · push Not at h
    refine Or.inr ⟨h, newId_of_not_mem ?_⟩
    intro p hp
    exact h p.1 (List.of_mem_zip hp).1

section
variable {onLine : Pt ℝ → Bool} {a b : Pt ℝ} {tags : CutTags} {visual : Bool} {p q : Parts}
  {c1 c2 d1 d2 f1 f2 : List Cell}

theorem IsCut.vertex_same (h : IsCut onLine a b tags visual p q c1 c2 d1 d2 f1 f2) {i : Nat}
    {c : Cell} (hc : Stored p.cells i c) (hd : c.dimension = 0) : Stored q.cells i c := by
  apply h.other i c hc
  intro k hk
  constructor
  · rintro ⟨-, h1, -⟩; omega
  · rintro ⟨-, h1, -⟩; omega

/-- The point of a vertex before and after. -/
theorem IsCut.vertex_point (h : IsCut onLine a b tags false p q c1 c2 d1 d2 f1 f2)
    (hM : MeshOK p.cells p.points.length) {x1 x2 : List Cell}
    (hx : (x1, x2) = (d1, d2) ∨ (x1, x2) = (f1, f2)) {v t t' : Nat} (hv : VTag p.cells v t)
    (hv' : VTag q.cells (newId (sidePairs c1 c2 x1 x2 0) v) t') :
    q.points[t']? = p.points[t]? := by
  obtain ⟨ps, ps', hq, lps, lps', hps⟩ := h.points
  have hlt := hM.tags v t hv
  have key : ∀ {s : Nat}, x2.map (·.id) = List.range' s c2.length →
      (∀ (i : Nat) c, c2[i]? = some c → ∃ (c' : Cell) (u : Nat), Stored q.cells (s + i) c' ∧
        c'.nodeTags = [u] ∧ ∃ x, p.points[t]? = some x ∧
          (c.nodeTags = [t] → q.points[u]? = some x)) → q.points[t']? = p.points[t]? := by
    intro s hs hcl
    have hpairs : sidePairs c1 c2 x1 x2 0 = c2.zip x2 := by simp [sidePairs]
    rw [hpairs] at hv'
    rcases newId_zip h.nodup2 hs v with ⟨i, c, hi, rfl, hnew⟩ | ⟨-, hnew⟩
    · rw [hnew] at hv'
      obtain ⟨c', u, h1, h2, x, h3, h4⟩ := hcl i c hi
      obtain ⟨d, hd, -, hdt⟩ := hv'
      rw [← stored_unique h1 hd, h2] at hdt
      obtain rfl : u = t' := by simpa using hdt
      obtain ⟨d', hd', -, hdt'⟩ := hv
      have hst := ((h.mem2 c).1 (List.mem_of_getElem? hi)).1
      rw [← stored_unique hst hd'] at hdt'
      rw [h3, h4 hdt']
    · rw [hnew] at hv'
      obtain ⟨d, hd, hd0, hdt⟩ := hv
      have := VTag.functional hv' ⟨d, h.vertex_same hd hd0, hd0, hdt⟩
      rw [this, hq, List.append_assoc, List.getElem?_append_left hlt]
  have hb : ∀ (σ : ℝ) (x : Pt ℝ), bumped ⟨a, normalDir a b, σ, if false = true then 1 / 20 else 0⟩ x = x :=
    fun σ x => bumped_zero (by simp) x
  rcases hx with hx | hx
  · obtain ⟨rfl, rfl⟩ := Prod.mk.inj hx
    apply key h.idsD2
    intro i c hi
    obtain ⟨c', -, h1, -, h2⟩ := h.vertexPos i c hi
    refine ⟨c', _, h1, h2, _, List.getElem?_eq_getElem hlt, ?_⟩
    intro ht
    obtain ⟨t2, x, ht2, hx, hpi, -⟩ := hps i c hi
    rw [ht] at ht2
    obtain rfl : t = t2 := by simpa using ht2
    rw [List.getElem?_eq_getElem hlt] at hx
    rw [hx, hq, List.append_assoc, List.getElem?_append_right (by omega), Nat.add_sub_cancel_left,
      List.getElem?_append_left (List.getElem?_eq_some_iff.1 hpi).1, hpi, hb]
  · obtain ⟨rfl, rfl⟩ := Prod.mk.inj hx
    apply key h.idsF2
    intro i c hi
    obtain ⟨c', -, h1, -, h2⟩ := h.vertexNeg i c hi
    refine ⟨c', _, h1, h2, _, List.getElem?_eq_getElem hlt, ?_⟩
    intro ht
    obtain ⟨t2, x, ht2, hx, -, hpi⟩ := hps i c hi
    rw [ht] at ht2
    obtain rfl : t = t2 := by simpa using ht2
    rw [List.getElem?_eq_getElem hlt] at hx
    rw [hx, hq, List.getElem?_append_right (by simp [lps])]
    have : p.points.length + c2.length + i - (p.points ++ ps).length = i := by
      simp [lps]
    rw [this, hpi, hb]

theorem fancy_congr {K : Type} {xs ys : Points K} {idx jdx : List Nat}
    (h : List.Forall₂ (fun i j => ys[j]? = xs[i]?) idx jdx) : fancy ys jdx = fancy xs idx := by
  induction h with
  | nil => rfl
  | @cons i j l m h0 _ ih =>
    unfold fancy at ih ⊢
    simp only [mapRes, ih]
    have : getIdx ys j = getIdx xs i := by unfold getIdx; rw [h0]
    rw [this]

/-- Cells whose vertices are replaced keep the coordinates of their nodes. -/
theorem IsCut.same_points (h : IsCut onLine a b tags false p q c1 c2 d1 d2 f1 f2)
    (hM : MeshOK p.cells p.points.length) {x1 x2 : List Cell}
    (hx : (x1, x2) = (d1, d2) ∨ (x1, x2) = (f1, f2)) {i j : Nat} {c c0 c' : Cell}
    (hc : Stored p.cells i c) (hd : 0 < c0.dimension) (h0 : c0.sub[0]? = c.sub[0]?)
    (hc' : Stored q.cells j c') (hu : Updated (sidePairs c1 c2 x1 x2) c0 c') :
    fancy q.points c'.nodeTags = fancy p.points c.nodeTags := by
  have hlen := hM.wf.subLen i c hc
  have hvs : c.sub[0]? = some (c.sub[0]'(by omega)) := List.getElem?_eq_getElem _
  generalize c.sub[0]'(by omega) = vs at hvs
  have hvs' : c'.sub[0]? = some (vs.map (newId (sidePairs c1 c2 x1 x2 0))) := by
    rw [hu.sub 0 hd, h0, hvs]; rfl
  have a1 := hM.nodes.aligned i c hc vs hvs
  have a2 := h.mesh.nodes.aligned j c' hc' _ hvs'
  rw [List.forall₂_map_left_iff] at a2
  apply fancy_congr
  generalize c.nodeTags = l at a1
  generalize c'.nodeTags = l' at a2
  clear hvs hvs' hu hc hc' h0 hlen
  induction a1 generalizing l' with
  | nil => cases a2; exact .nil
  | cons g1 _ ih =>
    obtain ⟨t', m, g2, g3, rfl⟩ := List.forall₂_cons_left_iff.1 a2
    exact .cons (h.vertex_point hM hx g1 g2) (ih m g3)

/-- The sub-cells after an update, in terms of the old ones. -/
theorem Updated.mem {P : Nat → List (Cell × Cell)} {c c' : Cell} (h : Updated P c c') {e : Nat}
    (he : e < c.dimension) {ids : List Nat} (hids : c'.sub[e]? = some ids) :
    ∃ ids0, c.sub[e]? = some ids0 ∧ ids = ids0.map (newId (P e)) := by
  rw [h.sub e he] at hids
  cases h0 : c.sub[e]? with
  | none => rw [h0] at hids; simp at hids
  | some l => rw [h0] at hids; exact ⟨l, rfl, by simpa using hids.symm⟩

theorem cutTagMap_get {tags : CutTags} {m t : Option Int} (hm : m ≠ tags.line)
    (h : Dict.get? (cutTagMap tags) m = some t) : t = tags.pointClones := by
  unfold cutTagMap Dict.ofList at h
  simp only [List.foldl, Dict.set] at h
  by_cases h1 : tags.line = tags.point
  · rw [if_pos h1] at h
    simp only [Dict.get?] at h
    rw [if_neg (by rw [← h1]; exact fun h => hm h.symm)] at h
    simp at h
  · rw [if_neg h1] at h
    simp only [Dict.get?] at h
    rw [if_neg fun h => hm h.symm] at h
    split at h
    · simpa using h.symm
    · simp at h

/-- Only edges carry the line's tag afterwards. -/
theorem IsCut.keeps_line (h : IsCut onLine a b tags visual p q c1 c2 d1 d2 f1 f2)
    (hM : MeshOK p.cells p.points.length) (htag : tags.pointClones ≠ tags.line)
    (hline : ∀ i c, Stored p.cells i c → c.material = tags.line → c.dimension = 1) :
    ∀ i c, Stored q.cells i c → c.material = tags.line → c.dimension = 1 := by
  have hdim1 : ∀ c ∈ c1, Stored p.cells c.id c ∧ c.dimension = 1 := fun c hc =>
    have := (h.mem1 c).1 hc
    ⟨this.1, hline _ c this.1 this.2.1⟩
  have hdim2 : ∀ c ∈ c2, c.dimension = 0 ∧ c.material ≠ tags.line := by
    intro c hc
    obtain ⟨w1, -, d, hd, vs, w2, w3⟩ := (h.mem2 c).1 hc
    obtain ⟨s, w4, w5⟩ := hM.wf.subOk _ d (hdim1 d hd).1 0 vs w2 _ w3
    obtain rfl := stored_unique w1 w4
    exact ⟨w5, fun hm => by have := hline _ c w1 hm; omega⟩
  have vcase : ∀ {n : Nat} {c c' : Cell}, c ∈ c2 →
      IsCopy (cutTagMap tags) n c { c' with nodeTags := c.nodeTags } →
      c'.material ≠ tags.line := by
    intro n c c' hc hh hm
    obtain ⟨-, h2⟩ := hdim2 c hc
    cases hg : Dict.get? (cutTagMap tags) c.material with
    | none =>
      have := hh.unmapped hg
      simp only at this
      exact h2 (this ▸ hm)
    | some t =>
      have h3 := hh.mapped t hg
      simp only at h3
      rw [h3] at hm
      exact htag (cutTagMap_get h2 hg ▸ hm)
  intro i c' hc' hm
  have hlt := stored_lt hc'
  rw [h.length] at hlt
  rcases Nat.lt_or_ge i p.cells.length with h0 | h0
  · obtain ⟨c, hc⟩ := hM.wf.filled i h0
    by_cases hp : ∃ k, (k = 1 ∨ k = 2) ∧ OnSide a b p c2 k 1 i c
    · obtain ⟨k, hk, hs⟩ := hp
      obtain ⟨c'', h1, h2⟩ := h.pos k hk i c hs
      obtain rfl := stored_unique hc' h1
      rw [h2.dimension]
      exact hline i c hc (h2.material ▸ hm)
    · by_cases hn : ∃ k, (k = 1 ∨ k = 2) ∧ OnSide a b p c2 k (-1) i c
      · obtain ⟨k, hk, hs⟩ := hn
        obtain ⟨c'', h1, h2⟩ := h.neg k hk i c hs
        obtain rfl := stored_unique hc' h1
        rw [h2.dimension]
        exact hline i c hc (h2.material ▸ hm)
      · have := h.other i c hc fun k hk => ⟨fun hs => hp ⟨k, hk, hs⟩, fun hs => hn ⟨k, hk, hs⟩⟩
        obtain rfl := stored_unique hc' this
        exact hline i _ hc hm
  rcases Nat.lt_or_ge i (p.cells.length + c1.length) with h1 | h1
  · obtain ⟨c0, c'', -, e1, e2, e3⟩ := h.edgePos (i - p.cells.length) _
      (List.getElem?_eq_getElem (by omega))
    rw [show p.cells.length + (i - p.cells.length) = i by omega] at e2
    rw [stored_unique hc' e2, e3.dimension, e1.dimension, (hdim1 _ (List.getElem_mem _)).2]
  rcases Nat.lt_or_ge i (p.cells.length + c1.length + c2.length) with h2 | h2
  · obtain ⟨c'', -, e2, e3, -⟩ := h.vertexPos (i - (p.cells.length + c1.length)) _
      (List.getElem?_eq_getElem (by omega))
    rw [show p.cells.length + c1.length + (i - (p.cells.length + c1.length)) = i by omega] at e2
    obtain rfl := stored_unique hc' e2
    exact absurd hm (vcase (List.getElem_mem _) e3)
  rcases Nat.lt_or_ge i (p.cells.length + 2 * c1.length + c2.length) with h3 | h3
  · obtain ⟨c0, c'', -, e1, e2, e3⟩ := h.edgeNeg (i - (p.cells.length + c1.length + c2.length)) _
      (List.getElem?_eq_getElem (by omega))
    rw [show p.cells.length + c1.length + c2.length +
      (i - (p.cells.length + c1.length + c2.length)) = i by omega] at e2
    rw [stored_unique hc' e2, e3.dimension, e1.dimension, (hdim1 _ (List.getElem_mem _)).2]
  · obtain ⟨c'', -, e2, e3, -⟩ :=
      h.vertexNeg (i - (p.cells.length + 2 * c1.length + c2.length)) _
        (List.getElem?_eq_getElem (by omega))
    rw [show p.cells.length + 2 * c1.length + c2.length +
      (i - (p.cells.length + 2 * c1.length + c2.length)) = i by omega] at e2
    obtain rfl := stored_unique hc' e2
    exact absurd hm (vcase (List.getElem_mem _) e3)

end

/-- The mean of the sides. -/
theorem dot3_mean (a b : Pt ℝ) (ps : List (Pt ℝ)) (h : ps ≠ []) :
    dot3 ((fun k => (ps.map (· k)).sum / ps.length) - midpoint a b) (normalDir a b) =
      (ps.map fun x => dot3 (x - midpoint a b) (normalDir a b)).sum / ps.length := by
  have hl : (ps.length : ℝ) ≠ 0 := by simpa using h
  have key : (ps.map fun x => dot3 (x - midpoint a b) (normalDir a b)).sum =
      ((ps.map (· 0)).sum - ps.length * midpoint a b 0) * normalDir a b 0 +
      ((ps.map (· 1)).sum - ps.length * midpoint a b 1) * normalDir a b 1 +
      ((ps.map (· 2)).sum - ps.length * midpoint a b 2) * normalDir a b 2 := by
    clear h hl
    induction ps with
    | nil => simp
    | cons x xs ih =>
      simp only [List.map_cons, List.sum_cons, ih, List.length_cons, Nat.cast_add, Nat.cast_one]
      simp only [dot3, Pi.sub_apply]
      ring
  rw [key]
  simp only [dot3, Pi.sub_apply]
  field_simp

theorem sum_sign {l : List ℝ} {σ : ℝ} (h : ∀ x ∈ l, 0 ≤ σ * x) :
    0 ≤ σ * l.sum ∧ (σ * l.sum = 0 → ∀ x ∈ l, σ * x = 0) := by
  induction l with
  | nil => simp
  | cons x xs ih =>
    obtain ⟨h1, h2⟩ := ih fun y hy => h y (List.mem_cons_of_mem _ hy)
    have h3 := h x (by simp)
    rw [List.sum_cons, mul_add]
    refine ⟨by linarith, ?_⟩
    intro h0 y hy
    rcases List.mem_cons.1 hy with rfl | hy
    · linarith
    · exact h2 (by linarith) y hy

/-- The side of a cell is the mean of those of its vertices. -/
theorem MeshOK.side_mean {cells : Cells} {points : Points ℝ} (hM : MeshOK cells points.length)
    (a b : Pt ℝ) {i : Nat} {c : Cell} (hc : Stored cells i c) {vs : List Nat}
    (hvs : c.sub[0]? = some vs) :
    ∃ ss : List ℝ, List.Forall₂ (fun v s => ∃ d, Stored cells v d ∧ SideIs a b points d s) vs ss ∧
      ss ≠ [] ∧ SideIs a b points c (ss.sum / ss.length) := by
  obtain ⟨ps, hps⟩ := fancy_total (hM.nodeTags_lt hc)
  have hal := hM.nodes.aligned i c hc vs hvs
  have hne : vs ≠ [] := hM.wf.subNe i c hc vs (List.mem_of_getElem? hvs)
  have hpn : ps ≠ [] := by
    rintro rfl
    apply hne
    have h1 := hal.length_eq
    have h2 := hps.length_eq
    exact List.eq_nil_of_length_eq_zero (by simpa [h2] using h1)
  refine ⟨ps.map fun x => dot3 (x - midpoint a b) (normalDir a b), ?_, by simpa using hpn, ?_⟩
  · rw [List.forall₂_map_right_iff]
    generalize c.nodeTags = l at hal hps
    clear hvs hne hpn hc
    induction hal generalizing ps with
    | nil => cases hps; exact .nil
    | cons g1 _ ih =>
      obtain ⟨x, m, g2, g3, rfl⟩ := List.forall₂_cons_left_iff.1 hps
      refine .cons ?_ (ih m g3)
      obtain ⟨d, hd, -, ht⟩ := g1
      refine ⟨d, hd, x, ?_, rfl⟩
      unfold cellCentroid
      rw [ht, fancy_iff.2 (.cons g2 .nil), Res.bind_ok, if_neg (by simp)]
      simp only [Res.pure_eq, Except.ok.injEq]
      funext k; simp
  · refine ⟨fun k => (ps.map (· k)).sum / ps.length, ?_, ?_⟩
    · unfold cellCentroid
      rw [fancy_iff.2 hps, Res.bind_ok, if_neg hpn]; rfl
    · rw [dot3_mean a b ps hpn]; simp

end Verif.MeshOps
