/-
Lemmas on the splitting of edges at vertices.
-/
import Verif.Spec.VertexOps
import Verif.Lemmas.FractureSplit

namespace Verif.VertexOps
open MeshBuild MeshGraph Trace MeshMetrics Geometry
open scoped Classical

/-! ### Tags -/

theorem consec_append (tag : Int) (m n : Nat) :
    consec tag (m + n) = consec tag m ++ consec (tag + m) n := by
  unfold consec
  rw [List.range_add, List.map_append, List.map_map]
  congr 1
  apply List.map_congr_left
  intro i _
  simp only [Function.comp_apply, Nat.cast_add]
  ring

theorem mem_consec {tag t : Int} {n : Nat} : t ∈ consec tag n ↔ tag ≤ t ∧ t < tag + n := by
  unfold consec
  rw [List.mem_map]
  constructor
  · rintro ⟨i, hi, rfl⟩
    rw [List.mem_range] at hi
    omega
  · rintro ⟨h1, h2⟩
    exact ⟨(t - tag).toNat, by rw [List.mem_range]; omega, by omega⟩

theorem nodup_consec (tag : Int) (n : Nat) : (consec tag n).Nodup := by
  unfold consec
  refine List.Nodup.map (fun i j h => ?_) List.nodup_range
  simpa using h

/-! ### The new shapes -/

/-- The vertices of the segments. -/
def verts (segs : List Seg) : List Vtx := segs.flatMap fun s => [s.v0, s.v1]

theorem mkEdge_spec (tag : Int) (ph : Option Int) (v w : Vtx) :
    (mkEdge tag ph v w).tag = tag ∧ (mkEdge tag ph v w).physical = ph ∧
    ((mkEdge tag ph v w).first = v ∧ (mkEdge tag ph v w).second = w ∨
      (mkEdge tag ph v w).first = w ∧ (mkEdge tag ph v w).second = v) := by
  unfold mkEdge
  split <;> simp

/-- What holds of a segment between two points. -/
structure SegOK (edge : Edg) (s : Seg) (p : Pt ℝ × Pt ℝ) : Prop where
  v0 : s.v0.point = p.1
  v1 : s.v1.point = p.2
  physical : s.edge.physical = edge.physical
  ends : s.edge.first = s.v0 ∧ s.edge.second = s.v1 ∨ s.edge.first = s.v1 ∧ s.edge.second = s.v0

theorem chainSegs_rest {tol : ℝ} {edge : Edg} {sv ev : Vtx} (hev : ev.point = edge.second.point)
    (htol : Close tol tol edge.second.point edge.second.point) :
    ∀ (inner : List (Pt ℝ)) (x : Pt ℝ) (tag : Int),
      ¬ Close tol tol x edge.first.point →
      (∀ y ∈ inner, ¬ Close tol tol y edge.first.point ∧ ¬ Close tol tol y edge.second.point) →
      ∃ segs, chainSegs tol edge sv ev tag ((x :: inner ++ [edge.second.point]).zip
          (inner ++ [edge.second.point])) = segs ∧
        List.Forall₂ (SegOK edge) segs ((x :: inner ++ [edge.second.point]).zip
          (inner ++ [edge.second.point])) ∧
        (∃ vs, verts segs = vs ++ [ev] ∧ (∀ v ∈ vs, v.physical = edge.physical) ∧
          (vs.map Vtx.tag ++ (segs.map Seg.edge).map Edg.tag).Perm
            (consec tag (3 * inner.length + 2)))
  | [], x, tag, hx, _ => by
    have e := mkEdge_spec (tag + 1) edge.physical ⟨tag, edge.physical, x⟩ ev
    refine ⟨_, rfl, ?_, [⟨tag, edge.physical, x⟩], ?_, ?_, ?_⟩
    · simp only [chainSegs, List.cons_append, List.nil_append, List.zip_cons_cons,
        List.zip_nil_right, if_neg hx, if_pos htol]
      exact .cons ⟨rfl, hev, e.2.1, e.2.2⟩ .nil
    · simp [chainSegs, verts, hx, htol]
    · simp
    · simp [chainSegs, hx, htol, e.1, consec, List.range_succ]
  | y :: inner, x, tag, hx, hin => by
    obtain ⟨hy1, hy2⟩ := hin y (by simp)
    obtain ⟨segs, h1, h2, vs, h3, h4, h5⟩ := chainSegs_rest (sv := sv) hev htol inner y (tag + 3) hy1
      (fun z hz => hin z (List.mem_cons_of_mem _ hz))
    have e := mkEdge_spec (tag + 2) edge.physical ⟨tag, edge.physical, x⟩
      ⟨tag + 1, edge.physical, y⟩
    have ecode : chainSegs tol edge sv ev tag ((x :: (y :: inner) ++ [edge.second.point]).zip
          ((y :: inner) ++ [edge.second.point])) =
        ⟨⟨tag, edge.physical, x⟩, ⟨tag + 1, edge.physical, y⟩,
          mkEdge (tag + 2) edge.physical ⟨tag, edge.physical, x⟩ ⟨tag + 1, edge.physical, y⟩⟩ ::
          segs := by
      rw [← h1]
      simp only [chainSegs, List.cons_append, List.zip_cons_cons, if_neg hx, if_neg hy2]
      rw [show tag + 1 + 1 = tag + 2 by ring, show tag + 2 + 1 = tag + 3 by ring]
    refine ⟨_, ecode, ?_, ⟨tag, edge.physical, x⟩ :: ⟨tag + 1, edge.physical, y⟩ :: vs, ?_, ?_, ?_⟩
    · exact .cons ⟨rfl, rfl, e.2.1, e.2.2⟩ h2
    · unfold verts at h3 ⊢
      rw [List.flatMap_cons, h3]
      rfl
    · intro v hv
      simp only [List.mem_cons] at hv
      rcases hv with rfl | rfl | hv
      · rfl
      · rfl
      · exact h4 v hv
    · rw [show 3 * (y :: inner).length + 2 = 3 + (3 * inner.length + 2) by simp; ring,
        consec_append]
      have e3 : consec tag 3 = [tag, tag + 1, tag + 2] := by simp [consec, List.range_succ]
      rw [e3]
      simp only [List.map_cons, e.1, List.cons_append, List.nil_append]
      refine .cons _ (.cons _ ?_)
      exact List.perm_middle.trans (.cons _ h5)

theorem chainSegs_spec {tol : ℝ} {edge : Edg} {sv ev : Vtx} (hsv : sv.point = edge.first.point)
    (hev : ev.point = edge.second.point) (htol : 0 ≤ tol) (inner : List (Pt ℝ)) (tag : Int)
    (hin : ∀ y ∈ inner, ¬ Close tol tol y edge.first.point ∧ ¬ Close tol tol y edge.second.point) :
      ∃ segs, chainSegs tol edge sv ev tag ((edge.first.point :: inner ++ [edge.second.point]).zip
          (inner ++ [edge.second.point])) = segs ∧
        List.Forall₂ (SegOK edge) segs ((edge.first.point :: inner ++ [edge.second.point]).zip
          (inner ++ [edge.second.point])) ∧
        (∃ vs, verts segs = sv :: vs ++ [ev] ∧ (∀ v ∈ vs, v.physical = edge.physical) ∧
          (vs.map Vtx.tag ++ (segs.map Seg.edge).map Edg.tag).Perm
            (consec tag (3 * inner.length + 1))) := by
  have ca := close_self htol htol edge.first.point
  have cb := close_self htol htol edge.second.point
  cases inner with
  | nil =>
    have e := mkEdge_spec tag edge.physical sv ev
    refine ⟨_, rfl, ?_, [], ?_, ?_, ?_⟩
    · simp only [chainSegs, List.cons_append, List.nil_append, List.zip_cons_cons,
        List.zip_nil_right, if_pos ca, if_pos cb]
      exact .cons ⟨hsv, hev, e.2.1, e.2.2⟩ .nil
    · simp [chainSegs, verts, ca, cb]
    · simp
    · simp [chainSegs, ca, cb, e.1, consec, List.range_succ]
  | cons y inner =>
    obtain ⟨hy1, hy2⟩ := hin y (by simp)
    obtain ⟨segs, h1, h2, vs, h3, h4, h5⟩ := chainSegs_rest (sv := sv) hev cb inner y (tag + 2) hy1
      (fun z hz => hin z (List.mem_cons_of_mem _ hz))
    have e := mkEdge_spec (tag + 1) edge.physical sv ⟨tag, edge.physical, y⟩
    have ecode : chainSegs tol edge sv ev tag
          ((edge.first.point :: (y :: inner) ++ [edge.second.point]).zip
          ((y :: inner) ++ [edge.second.point])) =
        ⟨sv, ⟨tag, edge.physical, y⟩,
          mkEdge (tag + 1) edge.physical sv ⟨tag, edge.physical, y⟩⟩ :: segs := by
      rw [← h1]
      simp only [chainSegs, List.cons_append, List.zip_cons_cons, if_pos ca, if_neg hy2]
      rw [show tag + 1 + 1 = tag + 2 by ring]
    refine ⟨_, ecode, ?_, ⟨tag, edge.physical, y⟩ :: vs, ?_, ?_, ?_⟩
    · exact .cons ⟨hsv, rfl, e.2.1, e.2.2⟩ h2
    · unfold verts at h3 ⊢
      rw [List.flatMap_cons, h3]
      rfl
    · intro v hv
      rcases List.mem_cons.1 hv with rfl | hv
      · rfl
      · exact h4 v hv
    · rw [show 3 * (y :: inner).length + 1 = 2 + (3 * inner.length + 2) by simp; ring,
        consec_append]
      have e3 : consec tag 2 = [tag, tag + 1] := by simp [consec, List.range_succ]
      rw [e3]
      simp only [List.map_cons, e.1, List.cons_append, List.nil_append]
      refine .cons _ ?_
      exact List.perm_middle.trans (.cons _ h5)

/-! ### The points on the edge -/

theorem fancy_map {α β : Type} (f : α → β) {l : List α} {idx : List Nat} {r : List α}
    (h : fancy l idx = .ok r) : fancy (l.map f) idx = .ok (r.map f) := by
  rw [fancy_iff] at h ⊢
  refine List.forall₂_map_right_iff.2 (h.imp fun i b hb => ?_)
  rw [List.getElem?_map, hb]; rfl

theorem argsort_perm {α : Type} {argsort : List ℝ → List Nat} (hs : Fracture.IsArgsort argsort)
    {D : α → ℝ} (l : List α) {r : List α} (h : fancy l (argsort (l.map D)) = .ok r) : r.Perm l := by
  have hp := (hs (l.map D)).1
  rw [List.length_map] at hp
  rw [fancy_iff] at h
  generalize argsort (l.map D) = perm at *
  have h1 : r = perm.filterMap (fun i => l[i]?) := by
    clear hp
    induction h with
    | nil => rfl
    | cons hb _ ih => rw [List.filterMap_cons, hb, ← ih]
  have h2 : (List.range l.length).filterMap (fun i => l[i]?) = l := by
    apply List.ext_getElem?
    intro i
    have : ∀ m : List α, (List.range m.length).filterMap (fun i => m[i]?) = m := by
      intro m
      induction m with
      | nil => rfl
      | cons a m ih =>
        rw [List.length_cons, List.range_succ_eq_map, List.filterMap_cons]
        simp only [List.getElem?_cons_zero]
        rw [List.filterMap_map]
        simp only [Function.comp_def, List.getElem?_cons_succ]
        rw [ih]
    rw [this]
  rw [h1]
  exact (hp.filterMap _).trans (by rw [h2])

/-- The indices chosen by `np.unique`. -/
theorem unique_spec {f : List (Pt ℝ) → List Nat} {tools : List Vtx}
    (h : UniqueOn f (tools.map Vtx.point)) :
    ∃ u, fancy tools (f (tools.map Vtx.point)) = .ok u ∧ (u.map Vtx.point).Nodup ∧
      (∀ v ∈ u, v ∈ tools) ∧ ∀ v ∈ tools, ∃ w ∈ u, w.point = v.point := by
  obtain ⟨h1, h2, h3⟩ := h
  generalize f (tools.map Vtx.point) = idx at *
  have key : ∀ idx : List Nat, (∀ i ∈ idx, i < (tools.map Vtx.point).length) →
      idx.Pairwise (fun i j => (tools.map Vtx.point)[i]? ≠ (tools.map Vtx.point)[j]?) →
      ∃ u, List.Forall₂ (fun i b => tools[i]? = some b) idx u ∧ (u.map Vtx.point).Nodup := by
    intro idx
    induction idx with
    | nil => exact fun _ _ => ⟨[], .nil, by simp⟩
    | cons i idx ih =>
      intro g1 g2
      obtain ⟨g3, g4⟩ := List.pairwise_cons.1 g2
      obtain ⟨u, k1, k2⟩ := ih (fun j hj => g1 j (List.mem_cons_of_mem _ hj)) g4
      have hi : i < tools.length := by simpa using g1 i (by simp)
      have hi' := List.getElem?_eq_getElem hi
      refine ⟨tools[i] :: u, .cons hi' k1, ?_⟩
      rw [List.map_cons, List.nodup_cons]
      refine ⟨fun hm => ?_, k2⟩
      obtain ⟨w, hw, hw'⟩ := List.mem_map.1 hm
      obtain ⟨k, hk, rfl⟩ := List.getElem_of_mem hw
      have hlen := k1.length_eq
      have := List.Forall₂.get k1 (i := k) (by omega) hk
      simp only [List.get_eq_getElem] at this
      refine g3 _ (List.getElem_mem (by omega : k < idx.length)) ?_
      rw [List.getElem?_map, List.getElem?_map, hi', this, Option.map_some, Option.map_some, hw']
  obtain ⟨u, k1, k2⟩ := key idx h1 h3
  refine ⟨u, fancy_iff.2 k1, k2, ?_, ?_⟩
  · intro v hv
    obtain ⟨k, hk, rfl⟩ := List.getElem_of_mem hv
    have := List.Forall₂.get k1 (i := k) (by rw [k1.length_eq]; exact hk) hk
    exact List.mem_of_getElem? this
  · intro v hv
    obtain ⟨i, hi, hx⟩ := h2 v.point (List.mem_map_of_mem hv)
    obtain ⟨k, hk, rfl⟩ := List.getElem_of_mem hi
    have := List.Forall₂.get k1 (i := k) hk (by rw [← k1.length_eq]; exact hk)
    simp only [List.get_eq_getElem] at this
    refine ⟨_, List.getElem_mem (by rw [← k1.length_eq]; exact hk : k < u.length), ?_⟩
    rw [List.getElem?_map, this, Option.map_some] at hx
    exact Option.some.inj hx

/-- On clear tools the intersection with the edge is exact. -/
theorem Clear.point {P : Params} {tools : List Vtx} {edge : Edg} {eps : ℝ}
    (h : Clear P tools edge eps) {v : Vtx} (hv : v ∈ tools) :
    pointLineIntersection P.collapse v.point edge.first.point edge.second.point eps =
      if v.point ∈ segment ℝ edge.first.point edge.second.point then some v.point else none := by
  split
  · rename_i hs
    by_cases ha : v.point = edge.first.point
    · obtain ⟨x, hx, hx'⟩ := pointLine_complete (ctol := P.collapse) hs h.eps_nonneg
      rw [hx]
      unfold pointLineIntersection at hx
      split at hx
      · rw [ha]; exact hx.symm
      · split at hx
        · rename_i hc
          by_contra
          refine (h.second v hv ?_).2.2 hc
          rw [ha]; exact h.ne
        · split at hx
          · dsimp only at hx
            split at hx
            · exact hx.symm
            · cases hx
          · cases hx
    · by_cases hb : v.point = edge.second.point
      · obtain ⟨x, hx, hx'⟩ := pointLine_complete (ctol := P.collapse) hs h.eps_nonneg
        rw [hx]
        unfold pointLineIntersection at hx
        rw [if_neg (h.first v hv ha).2.2] at hx
        split at hx
        · rw [hb]; exact hx.symm
        · split at hx
          · dsimp only at hx
            split at hx
            · exact hx.symm
            · cases hx
          · cases hx
      · obtain ⟨x, hx, hx'⟩ := pointLine_complete (ctol := P.collapse) hs h.eps_nonneg
        rw [hx]
        unfold pointLineIntersection at hx
        rw [if_neg (h.first v hv ha).2.2, if_neg (h.second v hv hb).2.2] at hx
        split at hx
        · dsimp only at hx
          split at hx
          · exact hx.symm
          · cases hx
        · cases hx
  · rename_i hs
    exact h.off v hv hs

/-- The tools on the edge, and their points. -/
theorem Clear.filter {P : Params} {tools : List Vtx} {edge : Edg} {eps : ℝ}
    (h : Clear P tools edge eps) : ∀ u : List Vtx, (∀ v ∈ u, v ∈ tools) →
      let r := pointsLineIntersection P.collapse (u.map Vtx.point) edge.first.point
        edge.second.point eps
      let s := u.filter fun v => decide (v.point ∈ segment ℝ edge.first.point edge.second.point)
      r.1.filterMap Out.toOption = s.map Vtx.point ∧ maskFilter u r.2 = s
  | [], _ => ⟨rfl, rfl⟩
  | v :: u, hu => by
    obtain ⟨h1, h2⟩ := Clear.filter h u fun w hw => hu w (List.mem_cons_of_mem _ hw)
    have hp := h.point (hu v (by simp))
    simp only [pointsLineIntersection, withMask, List.map_cons, List.filter_cons, maskFilter,
      List.zip_cons_cons] at h1 h2 ⊢
    rw [hp]
    by_cases hs : v.point ∈ segment ℝ edge.first.point edge.second.point
    · simp only [hs, if_true, Out.ofOption, Out.isNotNone, Out.isArray, decide_true,
        List.filterMap_cons, Out.toOption, List.map_cons]
      exact ⟨congrArg _ h1, congrArg _ h2⟩
    · simp only [hs, if_false, Out.ofOption, Out.isNotNone, Out.isArray, decide_false,
        Bool.false_eq_true]
      exact ⟨h1, h2⟩

/-! ### Removing the ends -/

theorem trim_front {D : Pt ℝ → ℝ} {a : Pt ℝ} {l : List (Pt ℝ)} {x : Pt ℝ}
    (hx : l.head? = some x) (hl : l.Pairwise fun v w => D v < D w)
    (ha : ∀ v ∈ l, v ≠ a → D a < D v) :
    (if x = a then l.tail else l).Pairwise (fun v w => D v < D w) ∧
    (x = a ↔ a ∈ l) ∧
    ∀ v, v ∈ (if x = a then l.tail else l) ↔ v ∈ l ∧ v ≠ a := by
  cases l with
  | nil => cases hx
  | cons y l =>
    cases hx
    obtain ⟨h1, h2⟩ := List.pairwise_cons.1 hl
    split
    · rename_i hxa
      subst hxa
      refine ⟨h2, by simp, fun v => ?_⟩
      constructor
      · intro hv
        exact ⟨List.mem_cons_of_mem _ hv, fun e => absurd (h1 v hv) (by rw [e]; exact lt_irrefl _)⟩
      · rintro ⟨hv, hne⟩
        exact (List.mem_cons.1 hv).resolve_left hne
    · rename_i hxa
      have hnot : a ∉ x :: l := by
        intro hm
        rcases List.mem_cons.1 hm with rfl | hm
        · exact hxa rfl
        · exact absurd (h1 a hm) (not_lt.2 (ha x (by simp) hxa).le)
      refine ⟨hl, ⟨fun e => absurd e hxa, fun e => absurd e hnot⟩, fun v => ⟨fun hv => ⟨hv, ?_⟩, And.left⟩⟩
      rintro rfl; exact hnot hv

theorem trim_back {D : Pt ℝ → ℝ} {b : Pt ℝ} {l : List (Pt ℝ)} {x : Pt ℝ}
    (hx : l.getLast? = some x) (hl : l.Pairwise fun v w => D v < D w)
    (hb : ∀ v ∈ l, v ≠ b → D v < D b) :
    (if x = b then l.dropLast else l).Pairwise (fun v w => D v < D w) ∧
    (x = b ↔ b ∈ l) ∧
    ∀ v, v ∈ (if x = b then l.dropLast else l) ↔ v ∈ l ∧ v ≠ b := by
  rcases List.eq_nil_or_concat l with rfl | ⟨l, y, rfl⟩
  · cases hx
  · rw [List.concat_eq_append] at *
    rw [List.getLast?_concat] at hx
    cases hx
    obtain ⟨h1, -, h2⟩ := List.pairwise_append.1 hl
    split
    · rename_i hxb
      subst hxb
      rw [List.dropLast_concat]
      refine ⟨h1, by simp, fun v => ?_⟩
      constructor
      · intro hv
        exact ⟨List.mem_append_left _ hv,
          fun e => absurd (h2 v hv x (by simp)) (by rw [e]; exact lt_irrefl _)⟩
      · rintro ⟨hv, hne⟩
        exact (List.mem_append.1 hv).resolve_right fun h => hne (List.mem_singleton.1 h)
    · rename_i hxb
      have hnot : b ∉ l ++ [x] := by
        intro hm
        rcases List.mem_append.1 hm with hm | hm
        · exact absurd (h2 b hm x (by simp)) (not_lt.2 (hb x (by simp) hxb).le)
        · exact hxb (List.mem_singleton.1 hm).symm
      refine ⟨hl, ⟨fun e => absurd e hxb, fun e => absurd e hnot⟩, fun v => ⟨fun hv => ⟨hv, ?_⟩, And.left⟩⟩
      rintro rfl; exact hnot hv

/-! ### The function -/

theorem fancy_of_forall₂ {α : Type} {l : List α} {idx : List Nat} {r : List α} :
    fancy l idx = .ok r ↔ List.Forall₂ (fun i b => l[i]? = some b) idx r := fancy_iff

theorem fancy_tail {α : Type} {l : List α} {idx : List Nat} {r : List α} (h : fancy l idx = .ok r) :
    fancy l idx.tail = .ok r.tail := by
  rw [fancy_iff] at h ⊢
  cases h with
  | nil => exact .nil
  | cons _ h => exact h

theorem fancy_dropLast {α : Type} {l : List α} {idx : List Nat} {r : List α}
    (h : fancy l idx = .ok r) : fancy l idx.dropLast = .ok r.dropLast := by
  rw [fancy_iff] at h ⊢
  rw [List.dropLast_eq_take, List.dropLast_eq_take, h.length_eq]
  exact List.forall₂_take _ h

theorem fancy_length {α : Type} {l : List α} {idx : List Nat} {r : List α}
    (h : fancy l idx = .ok r) : idx.length = r.length := (fancy_iff.1 h).length_eq

theorem getIdx_last {α : Type} {l : List α} {x : α} (h : l.getLast? = some x) :
    getIdx l (l.length - 1) = .ok x := by
  apply getIdx_of
  rw [← List.getLast?_eq_getElem?, h]

theorem getIdx_head {α : Type} {l : List α} {x : α} (h : l.head? = some x) :
    getIdx l 0 = .ok x := by
  apply getIdx_of
  rw [← List.head?_eq_getElem?, h]

theorem verts_get (segs : List Seg) (i : Nat) :
    (verts segs)[2 * i]? = segs[i]?.map Seg.v0 ∧ (verts segs)[2 * i + 1]? = segs[i]?.map Seg.v1 := by
  unfold verts
  induction segs generalizing i with
  | nil => simp
  | cons s segs ih =>
    cases i with
    | zero => simp
    | succ i =>
      rw [show 2 * (i + 1) = 2 * i + 1 + 1 by ring]
      simpa using ih i

theorem difference_spec {P : Params} {tools : List Vtx} {edge : Edg} {tag : Int} {eps : ℝ}
    (h : Clear P tools edge eps) :
    ((¬ ∃ v, OnEdge tools edge v) ∧
      verticesEdgeDifference P tools edge tag eps = .ok ([], [])) ∨
    ((∃ v, OnEdge tools edge v) ∧ ∃ chain edges vertices, IsChain tools edge chain ∧
      verticesEdgeDifference P tools edge tag eps = .ok (edges, vertices) ∧
      IsSplitting tools edge tag chain edges vertices) := by
  obtain ⟨u, u1, u2, u3, u4⟩ := unique_spec h.unique
  obtain ⟨f1, f2⟩ := h.filter u u3
  have hcode : verticesEdgeDifference P tools edge tag eps = verticesEdgeDifference P tools edge tag eps := rfl
  conv_rhs at hcode => unfold verticesEdgeDifference
  dsimp only at hcode
  rw [fancy_map Vtx.point u1] at hcode
  simp only [Res.bind_ok] at hcode
  rw [f1] at hcode
  set on := u.filter fun v => decide (v.point ∈ segment ℝ edge.first.point edge.second.point) with hon
  have on_mem : ∀ v, v ∈ on ↔ v ∈ u ∧ v.point ∈ segment ℝ edge.first.point edge.second.point := by
    intro v; rw [hon, List.mem_filter, decide_eq_true_eq]
  have on_edge : ∀ x, (∃ v, OnEdge tools edge v ∧ v.point = x) ↔ ∃ v ∈ on, v.point = x := by
    intro x
    constructor
    · rintro ⟨v, ⟨h1, h2⟩, rfl⟩
      obtain ⟨w, hw, hw'⟩ := u4 v h1
      exact ⟨w, (on_mem w).2 ⟨hw, hw' ▸ h2⟩, hw'⟩
    · rintro ⟨v, h1, rfl⟩
      obtain ⟨h1, h2⟩ := (on_mem v).1 h1
      exact ⟨v, ⟨u3 v h1, h2⟩, rfl⟩
  by_cases hne : on = []
  · left
    refine ⟨?_, ?_⟩
    · rintro ⟨v, hv⟩
      obtain ⟨w, hw, -⟩ := (on_edge v.point).1 ⟨v, hv, rfl⟩
      rw [hne] at hw; cases hw
    · rw [hcode, hne]; simp [Res.pure_eq]
  right
  obtain ⟨w0, hw0⟩ := List.exists_mem_of_ne_nil _ hne
  refine ⟨by obtain ⟨v, hv, -⟩ := (on_edge w0.point).2 ⟨w0, hw0, rfl⟩; exact ⟨v, hv⟩, ?_⟩
  set a := edge.first.point with ha
  set b := edge.second.point with hb
  set D : Pt ℝ → ℝ := fun x => norm3 (x - a) with hD
  rw [if_neg (by simpa using hne)] at hcode
  have hargs : (on.map Vtx.point).map (fun x => norm3 (x - a)) = on.map (fun v => D v.point) := by
    rw [List.map_map]; rfl
  rw [hargs] at hcode
  obtain ⟨t, t1, t2, t3⟩ := Fracture.argsort_spec h.argsort (D := fun v : Vtx => D v.point) on
  have tperm := argsort_perm h.argsort on t1
  set idx := P.argsort (on.map fun v => D v.point) with hidx
  have on_nodup : (on.map Vtx.point).Nodup := u2.sublist (List.filter_sublist.map _)
  have t_nodup : (t.map Vtx.point).Nodup := (tperm.map _).nodup_iff.2 on_nodup
  set l := t.map Vtx.point with hl
  have l_mem : ∀ x, x ∈ l ↔ ∃ v, OnEdge tools edge v ∧ v.point = x := by
    intro x
    rw [on_edge, hl, List.mem_map]
    exact exists_congr fun v => by rw [t2]
  have l_seg : ∀ x ∈ l, x ∈ segment ℝ a b := by
    intro x hx
    obtain ⟨v, hv, rfl⟩ := (l_mem x).1 hx
    exact hv.2
  have seg_a : a ∈ segment ℝ a b := left_mem_segment ℝ a b
  have seg_b : b ∈ segment ℝ a b := right_mem_segment ℝ a b
  have Dinj : ∀ {x y}, x ∈ segment ℝ a b → y ∈ segment ℝ a b → D x = D y → x = y :=
    fun hx hy => (Fracture.segment_dist hx hy).1
  have Da : D a = 0 := by simp only [hD, sub_self, norm3_zero]
  have D_a : ∀ x ∈ segment ℝ a b, x ≠ a → D a < D x := by
    intro x hx hxa
    refine lt_of_le_of_ne ?_ fun e => hxa (Dinj seg_a hx e).symm
    rw [Da]; exact norm3_nonneg _
  have D_b : ∀ x ∈ segment ℝ a b, x ≠ b → D x < D b := by
    intro x hx hxb
    exact lt_of_le_of_ne (Fracture.segment_dist hx hx).2 fun e => hxb (Dinj hx seg_b e)
  have l_sorted : l.Pairwise fun x y => D x < D y := by
    have g1 : l.Pairwise fun x y => D x ≤ D y := List.pairwise_map.2 t3
    refine List.Pairwise.imp_of_mem ?_ (g1.and t_nodup)
    rintro x y hx hy ⟨g2, g3⟩
    exact lt_of_le_of_ne g2 fun e => g3 (Dinj (l_seg x hx) (l_seg y hy) e)
  have t_ne : t ≠ [] := by
    rintro rfl
    have := (t2 w0).2 hw0
    cases this
  obtain ⟨tf, htf⟩ : ∃ x, t.head? = some x := by
    cases ht : t with
    | nil => exact absurd ht t_ne
    | cons x _ => exact ⟨x, rfl⟩
  obtain ⟨tl, htl⟩ : ∃ x, t.getLast? = some x :=
    ⟨_, List.getLast?_eq_some_getLast t_ne⟩
  have lhead : l.head? = some tf.point := by rw [hl, List.head?_map, htf]; rfl
  have llast : l.getLast? = some tl.point := by rw [hl, List.getLast?_map, htl]; rfl
  have mem_tf : tf ∈ tools := u3 _ ((on_mem _).1 ((t2 _).1 (List.mem_of_head? htf))).1
  have mem_tl : tl ∈ tools := u3 _ ((on_mem _).1 ((t2 _).1 (List.mem_of_getLast? htl))).1
  rw [fancy_map Vtx.point t1, ← hl] at hcode
  simp only [Res.bind_ok] at hcode
  rw [getIdx_head lhead, Res.bind_ok, getIdx_last llast, Res.bind_ok] at hcode
  have d0 : (0 : ℝ) ≤ 1 / 10 ^ 5 ∧ (0 : ℝ) ≤ 1 / 10 ^ 8 := by constructor <;> norm_num
  have onA : DefaultClose tf.point a ↔ tf.point = a :=
    ⟨fun hc => by_contra fun hn => (h.first tf mem_tf hn).1 hc,
      fun e => by rw [e]; exact close_self d0.1 d0.2 a⟩
  have onB : DefaultClose tl.point b ↔ tl.point = b :=
    ⟨fun hc => by_contra fun hn => (h.second tl mem_tl hn).1 hc,
      fun e => by rw [e]; exact close_self d0.1 d0.2 b⟩
  simp only [onA, onB] at hcode
  obtain ⟨a1, a2, a3⟩ := trim_front (a := a) lhead l_sorted fun v hv => D_a v (l_seg v hv)
  set l1 := (if tf.point = a then l.tail else l) with hl1
  set idx1 := (if tf.point = a then idx.tail else idx) with hidx1
  have hf1 : fancy (on.map Vtx.point) idx1 = .ok l1 := by
    rw [hidx1, hl1]
    split
    · exact fancy_tail (fancy_map Vtx.point t1)
    · exact fancy_map Vtx.point t1
  have hnot : ¬ (tl.point = b ∧ idx1 = []) := by
    rintro ⟨e1, e2⟩
    rw [e2] at hf1
    have hlen := fancy_length hf1
    have : l1 = [] := List.length_eq_zero_iff.1 hlen.symm
    have hm := (a3 b).2 ⟨by rw [← e1]; exact List.mem_of_getLast? llast, fun e => h.ne e.symm⟩
    rw [this] at hm; cases hm
  rw [if_neg hnot] at hcode
  -- the last point
  set l2 := (if tl.point = b then l1.dropLast else l1) with hl2
  set idx2 := (if tl.point = b then idx1.dropLast else idx1) with hidx2
  have hf2 : fancy (on.map Vtx.point) idx2 = .ok l2 := by
    rw [hidx2, hl2]
    split
    · exact fancy_dropLast hf1
    · exact hf1
  have l2_spec : l2.Pairwise (fun x y => D x < D y) ∧ ∀ x, x ∈ l2 ↔ (x ∈ l ∧ x ≠ a) ∧ x ≠ b := by
    by_cases hl1e : l1 = []
    · have : l2 = [] := by rw [hl2, hl1e]; simp
      rw [this]
      refine ⟨List.Pairwise.nil, fun x => ?_⟩
      rw [← a3, hl1e]; simp
    · have hlast : l1.getLast? = some tl.point := by
        rw [← llast, hl1]
        split
        · rename_i e
          rw [hl1, if_pos e] at hl1e
          cases hlc : l with
          | nil => rw [hlc] at hl1e; exact absurd rfl hl1e
          | cons x m =>
            rw [hlc] at hl1e
            cases m with
            | nil => exact absurd rfl hl1e
            | cons y m => simp
        · rfl
      obtain ⟨b1, -, b3⟩ := trim_back (b := b) hlast a1 fun v hv =>
        D_b v (l_seg v ((a3 v).1 hv).1)
      exact ⟨b1, fun x => by rw [b3, a3]⟩
  rw [hf2, Res.bind_ok, u1, Res.bind_ok, f2, t1, Res.bind_ok, getIdx_head htf, Res.bind_ok,
    getIdx_last htl, Res.bind_ok] at hcode
  -- the new shapes
  set sv := (if tf.point = a then tf else edge.first) with hsv
  set ev := (if tl.point = b then tl else edge.second) with hev
  have sv_point : sv.point = edge.first.point := by
    rw [hsv]; split
    · assumption
    · rfl
  have ev_point : ev.point = edge.second.point := by
    rw [hev]; split
    · assumption
    · rfl
  obtain ⟨segs, s1, s2, vs, s3, s4, s5⟩ := chainSegs_spec sv_point ev_point h.incidence l2 tag (by
    intro y hy
    obtain ⟨⟨g1, g2⟩, g3⟩ := (l2_spec.2 y).1 hy
    obtain ⟨v, hv, rfl⟩ := (l_mem y).1 g1
    exact ⟨(h.first v hv.1 g2).2.1, (h.second v hv.1 g3).2.1⟩)
  have htail : (a :: l2 ++ [b]).tail = l2 ++ [b] := rfl
  rw [htail, s1] at hcode
  have hcode' : verticesEdgeDifference P tools edge tag eps = .ok (segs.map Seg.edge, verts segs) :=
    hcode
  have hlen : segs.length = l2.length + 1 := by
    rw [s2.length_eq, List.length_zip]; simp
  have hvl : (verts segs).length = 2 * segs.length := by
    unfold verts
    clear * -
    induction segs with
    | nil => rfl
    | cons s segs ih => rw [List.flatMap_cons, List.length_append, ih]; simp; ring
  have hcr : created (verts segs) = vs := by
    unfold created
    rw [s3]
    simp
  have isEnd : ∀ (old v : Vtx) (x : Pt ℝ), old.point = x → v ∈ tools → v.point ∈ l →
      (v.point = x ↔ x ∈ l) → x ∈ segment ℝ a b →
      IsEnd tools old (if v.point = x then v else old) := by
    intro old v x ho hv hvl' hx hxs
    subst ho
    by_cases e : v.point = old.point
    · rw [if_pos e]
      exact ⟨e, by rw [if_pos ⟨v, hv, e⟩]; exact hv⟩
    · rw [if_neg e]
      refine ⟨rfl, ?_⟩
      rw [if_neg]
      rintro ⟨t', ht', e'⟩
      exact e (hx.2 ((l_mem _).2 ⟨t', ⟨ht', by rw [e']; exact hxs⟩, e'⟩))
  have hback : tl.point = b ↔ b ∈ l :=
    (trim_back llast l_sorted fun v hv => D_b v (l_seg v hv)).2.1
  refine ⟨a :: l2 ++ [b], _, _, ⟨rfl, List.getLast?_concat, ?_, ?_⟩, hcode', ⟨?_, ?_, ?_, ?_, ?_, ?_, ?_⟩⟩
  · intro x
    rw [← l_mem]
    simp only [List.cons_append, List.mem_cons, List.mem_append, List.not_mem_nil, or_false]
    rw [l2_spec.2]
    constructor
    · rintro (e | ⟨⟨e, -⟩, -⟩ | e)
      · exact Or.inl e
      · exact Or.inr (Or.inr e)
      · exact Or.inr (Or.inl e)
    · rintro (e | e | e)
      · exact Or.inl e
      · exact Or.inr (Or.inr e)
      · by_cases e1 : x = a
        · exact Or.inl e1
        · by_cases e2 : x = b
          · exact Or.inr (Or.inr e2)
          · exact Or.inr (Or.inl ⟨⟨e, e1⟩, e2⟩)
  · rw [List.cons_append, List.pairwise_cons, List.pairwise_append]
    refine ⟨?_, l2_spec.1, List.pairwise_singleton _ _, ?_⟩
    · intro x hx
      rcases List.mem_append.1 hx with hx | hx
      · obtain ⟨⟨g1, g2⟩, -⟩ := (l2_spec.2 x).1 hx
        exact D_a x (l_seg x g1) g2
      · rw [List.mem_singleton.1 hx]
        exact D_a b seg_b fun e => h.ne e.symm
    · intro x hx y hy
      rw [List.mem_singleton.1 hy]
      obtain ⟨⟨g1, -⟩, g3⟩ := (l2_spec.2 x).1 hx
      exact D_b x (l_seg x g1) g3
  · rw [List.length_map, hlen]; simp
  · rw [hvl, List.length_map]
  · intro i e hi
    rw [List.getElem?_map, Option.map_eq_some_iff] at hi
    obtain ⟨s, hs, rfl⟩ := hi
    obtain ⟨hi, rfl⟩ := List.getElem?_eq_some_iff.1 hs
    have hok := List.Forall₂.get s2 hi (by rw [← s2.length_eq]; exact hi)
    simp only [List.get_eq_getElem, List.getElem_zip] at hok
    refine ⟨hok.physical, _, _, by rw [(verts_get segs i).1, hs]; rfl,
      by rw [(verts_get segs i).2, hs]; rfl, ?_, ?_, hok.ends⟩
    · rw [hok.v0]; exact List.getElem?_eq_getElem _
    · rw [hok.v1]
      show (a :: (l2 ++ [b]))[i + 1]? = _
      rw [List.getElem?_cons_succ]
      exact List.getElem?_eq_getElem _
  · refine ⟨sv, by rw [s3]; rfl, ?_⟩
    exact isEnd edge.first tf a rfl mem_tf (List.mem_of_head? lhead) a2 seg_a
  · refine ⟨ev, by rw [s3]; exact List.getLast?_concat, ?_⟩
    exact isEnd edge.second tl b rfl mem_tl (List.mem_of_getLast? llast) hback seg_b
  · rw [hcr]; exact s4
  · rw [hcr, List.length_map, hlen]
    exact s5

/-! ### Several edges -/

theorem foldl_max_le (l : List Int) (t : Int) : t ≤ l.foldl max t ∧ ∀ x ∈ l, x ≤ l.foldl max t := by
  induction l generalizing t with
  | nil => simp
  | cons y l ih =>
    obtain ⟨h1, h2⟩ := ih (max t y)
    rw [List.foldl_cons]
    refine ⟨(le_max_left _ _).trans h1, fun x hx => ?_⟩
    rcases List.mem_cons.1 hx with rfl | hx
    · exact (le_max_right _ _).trans h1
    · exact h2 x hx

theorem foldl_max_mem (l : List Int) (t : Int) : l.foldl max t = t ∨ l.foldl max t ∈ l := by
  induction l generalizing t with
  | nil => simp
  | cons y l ih =>
    rw [List.foldl_cons]
    rcases ih (max t y) with h | h
    · rw [h]
      rcases max_choice t y with h | h
      · left; exact h
      · right; rw [h]; simp
    · right; exact List.mem_cons_of_mem _ h

theorem maxTag_spec {l : List Int} (h : l ≠ []) : ∃ t, maxTag l = .ok t ∧ t ∈ l ∧ ∀ x ∈ l, x ≤ t := by
  cases l with
  | nil => exact absurd rfl h
  | cons y l =>
    obtain ⟨h1, h2⟩ := foldl_max_le l y
    refine ⟨_, rfl, ?_, ?_⟩
    · rcases foldl_max_mem l y with h | h
      · rw [h]; simp
      · exact List.mem_cons_of_mem _ h
    · intro x hx
      rcases List.mem_cons.1 hx with rfl | hx
      · exact h1
      · exact h2 x hx

theorem differences_spec {P : Params} {tools : List Vtx} {eps : ℝ} :
    ∀ (edges : List Edg) (tag : Int), (∀ e ∈ edges, Clear P tools e eps) →
      ∃ out, verticesEdgesDifference P tools eps tag edges = .ok out ∧
        List.Forall₂ (IsResult tools) edges out ∧
        (out.flatMap newTags).Nodup ∧ ∀ t ∈ out.flatMap newTags, tag ≤ t
  | [], tag, _ => ⟨[], rfl, .nil, by simp, by simp⟩
  | edge :: edges, tag, h => by
    have htail : ∀ e ∈ edges, Clear P tools e eps := fun e he => h e (List.mem_cons_of_mem _ he)
    rcases difference_spec (tag := tag) (h edge (by simp)) with
      ⟨h1, h2⟩ | ⟨h1, chain, es, vs, h2, h3, h4⟩
    · obtain ⟨out, g1, g2, g3, g4⟩ := differences_spec edges tag htail
      refine ⟨(edge, [], []) :: out, ?_, .cons ⟨rfl, Or.inl ⟨h1, rfl, rfl⟩⟩ g2, ?_, ?_⟩
      · unfold verticesEdgesDifference
        rw [h2, Res.bind_ok]
        simp only [List.length_nil, ne_eq, not_true_eq_false, and_self, if_false, Res.pure_eq,
          Res.bind_ok]
        rw [g1, Res.bind_ok]
      · rw [List.flatMap_cons]; simpa [newTags, created] using g3
      · rw [List.flatMap_cons]; simpa [newTags, created] using g4
    · have hes : es.length ≠ 0 := by
        have hc := h4.count
        intro h0
        have hf := h2.first
        have hl := h2.last
        rw [h0] at hc
        obtain ⟨x, hx⟩ := List.length_eq_one_iff.1 hc.symm
        rw [hx] at hf hl
        simp only [List.head?_cons, List.getLast?_singleton, Option.some.injEq] at hf hl
        exact (h edge (by simp)).ne (hf.symm.trans hl)
      have hvs : vs.length ≠ 0 := by rw [h4.size]; omega
      obtain ⟨t, t1, t2, t3⟩ := maxTag_spec (l := vs.map Vtx.tag ++ es.map Edg.tag) (by
        intro e
        have := congrArg List.length e
        simp at this
        rw [this.1] at hvs; exact hvs rfl)
      obtain ⟨out, g1, g2, g3, g4⟩ := differences_spec edges (t + 1) htail
      have hle : ∀ x ∈ newTags (edge, es, vs), tag ≤ x ∧ x ≤ t := by
        intro x hx
        refine ⟨(mem_consec.1 (h4.tags.mem_iff.1 hx)).1, t3 x ?_⟩
        rcases List.mem_append.1 hx with hx | hx
        · obtain ⟨v, hv, rfl⟩ := List.mem_map.1 hx
          exact List.mem_append_left _ (List.mem_map_of_mem
            (List.mem_of_mem_tail (List.mem_of_mem_dropLast hv)))
        · exact List.mem_append_right _ hx
      have htag : tag ≤ t := by
        cases es with
        | nil => exact absurd rfl hes
        | cons e es =>
          have := hle e.tag (List.mem_append_right _ (by simp))
          exact this.1.trans this.2
      refine ⟨(edge, es, vs) :: out, ?_,
        .cons ⟨rfl, Or.inr ⟨h1, tag, chain, h2, h4⟩⟩ g2, ?_, ?_⟩
      · unfold verticesEdgesDifference
        rw [h3, Res.bind_ok]
        simp only
        rw [if_pos ⟨hvs, hes⟩, t1, Res.bind_ok, Res.pure_eq, Res.bind_ok, g1, Res.bind_ok]
        rfl
      · rw [List.flatMap_cons, List.nodup_append]
        refine ⟨h4.tags.nodup_iff.2 (nodup_consec _ _), g3, ?_⟩
        intro x hx y hy e
        have := (hle x hx).2
        have := g4 y hy
        omega
      · intro x hx
        rw [List.flatMap_cons, List.mem_append] at hx
        rcases hx with hx | hx
        · exact (hle x hx).1
        · have := g4 x hx
          omega

end Verif.VertexOps
