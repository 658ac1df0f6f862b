/-
Property theorem C98: the intersection of two quadrilaterals (`PolygonPolygonIntersectionTest`,
src/geometry/operations/polygon_polygon_intersection_test.py:10-15, 43-113).
-/
import Verif.Lemmas.PolygonPolygon

namespace Verif.Geometry
open Trace MeshMetrics MeshBuild MeshGraph
open scoped Classical

/-- What is left once all pairs of triangles have been tested -/
theorem polygon_run {eps : ℝ} {p q : Fin 4 → Pt ℝ} {o' t' : List (Pt ℝ)} {data}
    (hdata : [(cut1 p, cut1 q), (cut1 p, cut2 q), (cut2 p, cut1 q), (cut2 p, cut2 q)].mapM (testPair eps)
      = .ok data) : polygonPolygon eps (corners p ++ o') (corners q ++ t') =
    (if data.all fun r => decide (r = .inl none) then pure none
      else do
        let points ← asFault (mapRes chunkPoints data)
        let first ← asFault (getIdx [cut1 p, cut2 p] 0)
        let r ← asFault (reducePolyLine first points.flatten)
        pure (some r) : Except Fault (Option (Pt ℝ × Pt ℝ))) := by
  have ho : asFault (halves (corners p ++ o')) = .ok [cut1 p, cut2 p] := rfl
  have ht : asFault (halves (corners q ++ t')) = .ok [cut1 q, cut2 q] := rfl
  unfold polygonPolygon
  rw [ho]
  show (do
    let ts ← asFault (halves (corners q ++ t'))
    _) = _
  rw [ht]
  show (do
    let data ← [(cut1 p, cut1 q), (cut1 p, cut2 q), (cut2 p, cut1 q), (cut2 p, cut2 q)].mapM (testPair eps)
    _) = _
  rw [hdata]
  rfl

/-- **C98**.  For two plane quadrilaterals in general position and a small tolerance the answer is what the two
pairs of triangles have in common: nothing, or two common points with all common points between them.  Corners
after the fourth are not used. -/
theorem C98_quads_partial {p q : Fin 4 → Pt ℝ} (hp : height (cut1 p) (p 2) = 0) (hq : height (cut1 q) (q 2) = 0)
    (g : GeneralQuads p q) : ∃ δ > 0, ∀ eps, 0 < eps → eps < δ → ∀ o' t',
      ∃ r, polygonPolygon eps (corners p ++ o') (corners q ++ t') = .ok r ∧ Spans r (cutPoints p ∩ cutPoints q) := by
  set l : List (Triangle × Triangle) := [(cut1 p, cut1 q), (cut1 p, cut2 q), (cut2 p, cut1 q), (cut2 p, cut2 q)]
    with hl
  have hg : ∀ x ∈ l, GeneralPair x.1 x.2 := by
    intro x hx
    simp only [hl, List.mem_cons, List.not_mem_nil, or_false] at hx
    rcases hx with rfl | rfl | rfl | rfl
    exacts [g.g11, g.g12, g.g21, g.g22]
  have hS : ∀ z, z ∈ cutPoints p ∩ cutPoints q ↔ ∃ x ∈ l, z ∈ pointsOf x.1 ∩ pointsOf x.2 := by
    intro z
    simp only [hl, cutPoints, Set.mem_inter_iff, Set.mem_union, List.mem_cons, List.not_mem_nil, or_false,
      exists_eq_or_imp, exists_eq_left]
    tauto
  obtain ⟨δ, hδ, H⟩ := answers_small l hg
  refine ⟨δ, hδ, fun eps h0 he o' t' => ?_⟩
  obtain ⟨data, hm, hf⟩ := H eps h0 he
  obtain ⟨pts, c1, c2, c3, c4⟩ := chunks_spec hf hg
  have key := polygon_run (o' := o') (t' := t') hm
  by_cases hall : ∀ r ∈ data, r = .inl none
  · refine ⟨none, key.trans ?_, ?_⟩
    · rw [if_pos (by simpa using hall)]
      rfl
    · refine Set.eq_empty_of_forall_notMem fun z hz => ?_
      obtain ⟨x, hx, hz⟩ := (hS z).1 hz
      obtain ⟨i, hi, rfl⟩ := List.mem_iff_getElem.1 hx
      have hi' : i < data.length := hf.length_eq ▸ hi
      obtain ⟨a, ha, hd⟩ := (List.forall₂_iff_get.1 hf).2 i hi hi'
      rw [show data.get ⟨i, hi'⟩ = .inl none from hall _ (List.get_mem _ _)] at ha
      obtain rfl : none = a := Sum.inl.inj ha
      have : z ∈ (∅ : Set (Pt ℝ)) := by
        rw [← show pointsOf (l.get ⟨i, hi⟩).1 ∩ pointsOf (l.get ⟨i, hi⟩).2 = ∅ from hd]
        exact hz
      exact this
  · obtain ⟨a, b, rest, hpts, hab⟩ := c4.resolve_left hall
    have hheights : ∀ z, z ∈ cutPoints p ∩ cutPoints q → height (cut1 p) z = 0 ∧ height (cut1 q) z = 0 :=
      fun z hz => ⟨half_plane hp hz.1, half_plane hq hz.2⟩
    have inS : ∀ w ∈ a :: b :: rest, w ∈ cutPoints p ∩ cutPoints q := by
      intro w hw
      rw [← hpts] at hw
      exact (hS w).2 (c2 w hw)
    have hha := hheights a (inS a (by simp))
    have hD := planes_cross g.g11 hha.1 hha.2
    obtain ⟨x, y, hr, hx, hy, hw⟩ := reduce_spec (normal_ne g.g11).1 hD
      (by simp only [dot, cross_eq, Matrix.cons_val]; ring) hab
      (fun w hw => on_line hD hha (hheights w (inS w hw)))
    refine ⟨some (x, y), key.trans ?_, inS x hx, inS y hy, ?_⟩
    · rw [if_neg (by simpa using hall), c1]
      show (do
        let r ← asFault (reducePolyLine (cut1 p) pts.flatten)
        pure (some r) : Except Fault (Option (Pt ℝ × Pt ℝ))) = _
      rw [hpts, hr]
      rfl
    · intro z hz
      obtain ⟨x', hx', hz⟩ := (hS z).1 hz
      obtain ⟨u, hu, v, hv, hz⟩ := c3 x' hx' z hz
      rw [hpts] at hu hv
      exact (convex_segment x y).segment_subset (hw u hu) (hw v hv) hz

/-- **C98**.  For two convex quadrilaterals in general position and a small tolerance the answer is exactly their
intersection. -/
theorem C98_convex_partial {p q : Fin 4 → Pt ℝ} (hp : DiagonalsMeet (p 0) (p 1) (p 2) (p 3))
    (hq : DiagonalsMeet (q 0) (q 1) (q 2) (q 3)) (g : GeneralQuads p q) :
    ∃ δ > 0, ∀ eps, 0 < eps → eps < δ → ∃ r, polygonPolygon eps (corners p) (corners q) = .ok r ∧
      DescribesLine r (convexHull ℝ (Set.range p) ∩ convexHull ℝ (Set.range q)) := by
  obtain ⟨n1, n2⟩ := normal_ne g.g11
  have hr : ∀ f : Fin 4 → Pt ℝ, Set.range f = {f 0, f 1, f 2, f 3} := by
    intro f
    ext z
    simp [Fin.exists_fin_succ, eq_comm]
  have e1 : convexHull ℝ (Set.range p) = cutPoints p := by rw [hr p]; exact quad_eq hp
  have e2 : convexHull ℝ (Set.range q) = cutPoints q := by rw [hr q]; exact quad_eq hq
  obtain ⟨δ, hδ, H⟩ := C98_quads_partial (diagonals_plane hp n1) (diagonals_plane hq n2) g
  refine ⟨δ, hδ, fun eps h0 he => ?_⟩
  obtain ⟨r, hr', hs⟩ := H eps h0 he [] []
  refine ⟨r, by simpa using hr', ?_⟩
  have hc : Convex ℝ (cutPoints p ∩ cutPoints q) := by
    rw [← e1, ← e2]
    exact (convex_convexHull ℝ _).inter (convex_convexHull ℝ _)
  rw [e1, e2]
  match r, hs with
  | none, hs => exact hs
  | some (x, y), ⟨hx, hy, hsub⟩ => exact Set.Subset.antisymm hsub (hc.segment_subset hx hy)

/-- **C98**.  A polygon with fewer than four corners is an `IndexError`, whatever the other one is, unless the first
one already is. -/
theorem C98_corners (eps : ℝ) (o t : List (Pt ℝ)) (h : o.length < 4 ∨ t.length < 4) :
    polygonPolygon eps o t = .error (.err .indexError) := by
  have short : ∀ {l : List (Pt ℝ)}, l.length < 4 → halves l = .error .indexError := by
    intro l hl
    match l, hl with
    | [], _ => rfl
    | [_], _ => rfl
    | [_, _], _ => rfl
    | [_, _, _], _ => rfl
  have long : ∀ {l : List (Pt ℝ)}, ¬ l.length < 4 → ∃ ts, halves l = .ok ts := by
    intro l hl
    match l, hl with
    | a :: b :: c :: d :: _, _ => exact ⟨_, rfl⟩
    | [], h => simp at h
    | [_], h => simp at h
    | [_, _], h => simp at h
    | [_, _, _], h => simp at h
  by_cases ho : o.length < 4
  · unfold polygonPolygon
    rw [short ho]
    rfl
  · obtain ⟨ts, hts⟩ := long ho
    unfold polygonPolygon
    rw [hts, short (h.resolve_left ho)]
    rfl

/-- **C98**.  The corners after the fourth play no part. -/
theorem C98_first_four (eps : ℝ) (p q : Fin 4 → Pt ℝ) (o' t' : List (Pt ℝ)) :
    polygonPolygon eps (corners p ++ o') (corners q ++ t') = polygonPolygon eps (corners p) (corners q) := rfl

/-- **C98**.  With four corners or more there is an answer, or a `ValueError` where one of the tests of triangles
gave a single point. -/
theorem C98_answers (eps : ℝ) (p q : Fin 4 → Pt ℝ) :
    (∃ r, polygonPolygon eps (corners p) (corners q) = .ok r) ∨
      (polygonPolygon eps (corners p) (corners q) = .error (.err .valueError) ∧
        ∃ o ∈ [cut1 p, cut2 p], ∃ t ∈ [cut1 q, cut2 q], ∃ x, triangleTriangle eps o t = .ok (.inl (some (x, none)))) := by
  have hm : ∀ l : List (Triangle × Triangle), ∃ data : List Answer, l.mapM (testPair eps) = .ok (data.map .inl) ∧
      List.Forall₂ (fun x a => triangleTriangle eps x.1 x.2 = .ok (.inl a)) l data := by
    intro l
    induction l with
    | nil => exact ⟨[], rfl, .nil⟩
    | cons x l ih =>
      obtain ⟨data, h1, h2⟩ := ih
      obtain ⟨a, ha⟩ := C97_answers eps x.1 x.2
      refine ⟨a :: data, ?_, .cons ha h2⟩
      rw [List.mapM_cons, h1]
      simp only [testPair, ha]
      rfl
  obtain ⟨data, h1, h2⟩ := hm [(cut1 p, cut1 q), (cut1 p, cut2 q), (cut2 p, cut1 q), (cut2 p, cut2 q)]
  have key := polygon_run (o' := []) (t' := []) h1
  simp only [List.append_nil] at key
  rw [key]
  by_cases hall : ∀ r ∈ data, r = none
  · left
    refine ⟨none, ?_⟩
    rw [if_pos (by simpa using hall)]
    rfl
  · rw [if_neg (by simpa using hall)]
    have chunks : ∀ l : List Answer, (∃ pts, mapRes chunkPoints (l.map .inl) = .ok pts ∧
        ((∀ r ∈ l, r = none) ∨ ∃ a b rest, pts.flatten = a :: b :: rest)) ∨
        (mapRes chunkPoints (l.map .inl) = .error .valueError ∧ ∃ x, some (x, none) ∈ l) := by
      intro l
      induction l with
      | nil => exact Or.inl ⟨[], rfl, Or.inl (by simp)⟩
      | cons r l ih =>
        match r with
        | some (x, none) => exact Or.inr ⟨rfl, x, by simp⟩
        | none =>
          rcases ih with ⟨pts, e, h⟩ | ⟨e, x, h⟩
          · refine Or.inl ⟨[] :: pts, by simp [mapRes, chunkPoints, e], ?_⟩
            rcases h with h | h
            · exact Or.inl (by simpa using h)
            · exact Or.inr (by simpa using h)
          · exact Or.inr ⟨by simp only [List.map_cons, mapRes, chunkPoints, Res.bind_ok, e]; rfl, x, by simp [h]⟩
        | some (x, some y) =>
          rcases ih with ⟨pts, e, h⟩ | ⟨e, x, h⟩
          · exact Or.inl ⟨[x, y] :: pts, by simp [mapRes, chunkPoints, e], Or.inr ⟨x, y, pts.flatten, rfl⟩⟩
          · exact Or.inr ⟨by simp only [List.map_cons, mapRes, chunkPoints, Res.bind_ok, e]; rfl, x, by simp [h]⟩
    rcases chunks data with ⟨pts, e, h⟩ | ⟨e, x, hx⟩
    · left
      obtain ⟨a, b, rest, hpts⟩ := h.resolve_left hall
      have hr : ∃ r, reducePolyLine (cut1 p) (a :: b :: rest) = .ok r := by
        have tot : ∀ k : Fin 3, ∃ r, (do
            let x ← getIdx (a :: b :: rest) (Polygon.argmin ((a :: b :: rest).map (· k)))
            let y ← getIdx (a :: b :: rest) (Polygon.argmax ((a :: b :: rest).map (· k)))
            pure (x, y) : Res (Pt ℝ × Pt ℝ)) = .ok r := by
          intro k
          obtain ⟨m, hm, -⟩ := argmin_get (l := (a :: b :: rest).map (· k)) (by simp)
          obtain ⟨m', hm', -⟩ := argmax_get (l := (a :: b :: rest).map (· k)) (by simp)
          rw [List.getElem?_map] at hm hm'
          obtain ⟨u, hu, -⟩ := Option.map_eq_some_iff.1 hm
          obtain ⟨v, hv, -⟩ := Option.map_eq_some_iff.1 hm'
          exact ⟨(u, v), by rw [getIdx_get hu, getIdx_get hv]; rfl⟩
        exact tot _
      obtain ⟨r, hr⟩ := hr
      refine ⟨some r, ?_⟩
      rw [e]
      show (do
        let r ← asFault (reducePolyLine (cut1 p) pts.flatten)
        pure (some r) : Except Fault (Option (Pt ℝ × Pt ℝ))) = _
      rw [hpts, hr]
      rfl
    · right
      refine ⟨by rw [e]; rfl, ?_⟩
      obtain ⟨i, hi, hxi⟩ := List.mem_iff_getElem.1 hx
      have hi' := hi
      rw [← h2.length_eq] at hi'
      have H := (List.forall₂_iff_get.1 h2).2 i hi' hi
      rw [show data.get ⟨i, hi⟩ = some (x, none) from hxi] at H
      simp only [List.length_cons, List.length_nil] at hi'
      match i, hi', H with
      | 0, _, H => exact ⟨_, by simp, _, by simp, x, H⟩
      | 1, _, H => exact ⟨_, by simp, cut2 q, by simp, x, H⟩
      | 2, _, H => exact ⟨cut2 p, by simp, _, by simp, x, H⟩
      | 3, _, H => exact ⟨cut2 p, by simp, cut2 q, by simp, x, H⟩

/-- Two crossing rectangles, the second one in the plane z = 0 -/
noncomputable def upright : Fin 4 → Pt ℝ := ![![1, 1 / 2, -1], ![6, 1 / 2, -1], ![6, 1 / 2, 1], ![1, 1 / 2, 1]]
def lying : Fin 4 → Pt ℝ := ![![0, 0, 0], ![4, 0, 0], ![4, 2, 0], ![0, 2, 0]]

/-- An arrowhead in the plane z = 0 with its reflex corner third, and a rectangle in the plane x = 3/2 -/
def arrow : Fin 4 → Pt ℝ := ![![0, 0, 0], ![4, 0, 0], ![1, 1, 0], ![0, 4, 0]]
noncomputable def screen : Fin 4 → Pt ℝ := ![![3 / 2, 1, -1], ![3 / 2, 2, -1], ![3 / 2, 2, 1], ![3 / 2, 1, 1]]

/-- Pairs of triangles with given planes -/
theorem general_of {o t : Triangle} {i j : Fin 3} {a b c d : ℝ} (ha : a ≠ 0) (hc : c ≠ 0)
    (ho : ∀ x, height o x = a * (x i - b)) (ht : ∀ x, height t x = c * (x j - d))
    (h1 : o.1 j ≠ d ∧ o.2.1 j ≠ d ∧ o.2.2 j ≠ d) (h2 : t.1 i ≠ b ∧ t.2.1 i ≠ b ∧ t.2.2 i ≠ b)
    (hone : b ≠ 1)
    (off : ∀ s : ℝ, ∀ e ∈ [(o.1, o.2.1), (o.2.1, o.2.2), (o.2.2, o.1)], e.1 j + s * (e.2 j - e.1 j) = d →
      0 ≤ s → s ≤ 1 → ∀ f ∈ [(t.1, t.2.1), (t.2.1, t.2.2), (t.2.2, t.1)],
        cross (f.1 - (e.1 + s • (e.2 - e.1))) (f.2 - (e.1 + s • (e.2 - e.1))) ≠ 0) : GeneralPair o t := by
  refine ⟨?_, ?_, ?_, ?_⟩
  · intro x hx
    rw [ht]
    simp only [List.mem_cons, List.not_mem_nil, or_false] at hx
    refine mul_ne_zero hc (sub_ne_zero.2 ?_)
    rcases hx with rfl | rfl | rfl
    exacts [h1.1, h1.2.1, h1.2.2]
  · intro x hx
    rw [ho]
    simp only [List.mem_cons, List.not_mem_nil, or_false] at hx
    refine mul_ne_zero ha (sub_ne_zero.2 ?_)
    rcases hx with rfl | rfl | rfl
    exacts [h2.1, h2.2.1, h2.2.2]
  · intro x hx h0
    rw [ht] at h0
    have hx' : ∃ e ∈ [(o.1, o.2.1), (o.2.1, o.2.2), (o.2.2, o.1)], x ∈ segment ℝ e.1 e.2 := by
      rcases hx with h | h | h
      exacts [⟨_, .head _, h⟩, ⟨_, .tail _ (.head _), h⟩, ⟨_, .tail _ (.tail _ (.head _)), h⟩]
    obtain ⟨e, he, hx⟩ := hx'
    obtain ⟨s, s0, s1, rfl⟩ := mem_segment_iff.1 hx
    have hd := sub_eq_zero.1 ((mul_eq_zero.1 h0).resolve_left hc)
    have H := off s e he (by simpa using hd) s0 s1
    exact ⟨H _ (.head _), H _ (.tail _ (.head _)), H _ (.tail _ (.tail _ (.head _)))⟩
  · intro h
    have := height_self h
    rw [ho] at this
    rcases mul_eq_zero.1 this with h | h
    · exact ha h
    · refine hone ?_
      have : (![1, 1, 1] : Pt ℝ) i = 1 := by fin_cases i <;> rfl
      rw [this] at h
      linarith

theorem ne_of_coord {v : Pt ℝ} (k : Fin 3) (h : v k ≠ 0) : v ≠ 0 := fun e => h (by rw [e]; rfl)

theorem height_upright : (∀ x, height (cut1 upright) x = (-10) * (x 1 - 1 / 2)) ∧
    ∀ x, height (cut2 upright) x = (-10) * (x 1 - 1 / 2) := by
  constructor <;> intro x <;> simp [height, normalOf, cross_eq, dot, cut1, cut2, upright] <;> ring

theorem height_lying : (∀ x, height (cut1 lying) x = 8 * (x 2 - 0)) ∧ ∀ x, height (cut2 lying) x = 8 * (x 2 - 0) := by
  constructor <;> intro x <;> simp [height, normalOf, cross_eq, dot, cut1, cut2, lying] <;> ring

theorem height_arrow : (∀ x, height (cut1 arrow) x = 16 * (x 2 - 0)) ∧
    ∀ x, height (cut2 arrow) x = (-8) * (x 2 - 0) := by
  constructor <;> intro x <;> simp [height, normalOf, cross_eq, dot, cut1, cut2, arrow] <;> ring

theorem height_screen : (∀ x, height (cut1 screen) x = 2 * (x 0 - 3 / 2)) ∧
    ∀ x, height (cut2 screen) x = 2 * (x 0 - 3 / 2) := by
  constructor <;> intro x <;> simp [height, normalOf, cross_eq, dot, cut1, cut2, screen] <;> ring

theorem general_rectangles : GeneralQuads upright lying := by
  constructor
  · refine general_of (by norm_num) (by norm_num) height_upright.1 height_lying.1 ?_ ?_ (by norm_num) ?_
    · simp [cut1, upright] <;> norm_num
    · simp [cut1, lying] <;> norm_num
    · intro s e he hs s0 s1 f hf
      apply ne_of_coord 2
      simp only [cut1, cut2, upright, lying, List.mem_cons, List.not_mem_nil, or_false] at he hf
      rcases he with rfl | rfl | rfl <;> simp at hs <;>
        first
        | (exfalso; linarith)
        | (have hs' : s = 1 / 2 := by linarith
           subst hs'
           rcases hf with rfl | rfl | rfl <;> simp [cross_eq] <;> norm_num)
  · refine general_of (by norm_num) (by norm_num) height_upright.1 height_lying.2 ?_ ?_ (by norm_num) ?_
    · simp [cut1, upright] <;> norm_num
    · simp [cut2, lying] <;> norm_num
    · intro s e he hs s0 s1 f hf
      apply ne_of_coord 2
      simp only [cut1, cut2, upright, lying, List.mem_cons, List.not_mem_nil, or_false] at he hf
      rcases he with rfl | rfl | rfl <;> simp at hs <;>
        first
        | (exfalso; linarith)
        | (have hs' : s = 1 / 2 := by linarith
           subst hs'
           rcases hf with rfl | rfl | rfl <;> simp [cross_eq] <;> norm_num)
  · refine general_of (by norm_num) (by norm_num) height_upright.2 height_lying.1 ?_ ?_ (by norm_num) ?_
    · simp [cut2, upright] <;> norm_num
    · simp [cut1, lying] <;> norm_num
    · intro s e he hs s0 s1 f hf
      apply ne_of_coord 2
      simp only [cut1, cut2, upright, lying, List.mem_cons, List.not_mem_nil, or_false] at he hf
      rcases he with rfl | rfl | rfl <;> simp at hs <;>
        first
        | (exfalso; linarith)
        | (have hs' : s = 1 / 2 := by linarith
           subst hs'
           rcases hf with rfl | rfl | rfl <;> simp [cross_eq] <;> norm_num)
  · refine general_of (by norm_num) (by norm_num) height_upright.2 height_lying.2 ?_ ?_ (by norm_num) ?_
    · simp [cut2, upright] <;> norm_num
    · simp [cut2, lying] <;> norm_num
    · intro s e he hs s0 s1 f hf
      apply ne_of_coord 2
      simp only [cut1, cut2, upright, lying, List.mem_cons, List.not_mem_nil, or_false] at he hf
      rcases he with rfl | rfl | rfl <;> simp at hs <;>
        first
        | (exfalso; linarith)
        | (have hs' : s = 1 / 2 := by linarith
           subst hs'
           rcases hf with rfl | rfl | rfl <;> simp [cross_eq] <;> norm_num)

theorem general_arrow : GeneralQuads arrow screen := by
  constructor
  · refine general_of (by norm_num) (by norm_num) height_arrow.1 height_screen.1 ?_ ?_ (by norm_num) ?_
    · simp [cut1, arrow] <;> norm_num
    · simp [cut1, screen] <;> norm_num
    · intro s e he hs s0 s1 f hf
      apply ne_of_coord 0
      simp only [cut1, cut2, arrow, screen, List.mem_cons, List.not_mem_nil, or_false] at he hf
      rcases he with rfl | rfl | rfl <;> simp at hs <;>
        first
        | (exfalso; linarith)
        | (have hs' : s = 3 / 8 := by linarith
           subst hs'
           rcases hf with rfl | rfl | rfl <;> simp [cross_eq] <;> norm_num)
        | (have hs' : s = 5 / 8 := by linarith
           subst hs'
           rcases hf with rfl | rfl | rfl <;> simp [cross_eq] <;> norm_num)
        | (have hs' : s = 5 / 6 := by linarith
           subst hs'
           rcases hf with rfl | rfl | rfl <;> simp [cross_eq] <;> norm_num)
  · refine general_of (by norm_num) (by norm_num) height_arrow.1 height_screen.2 ?_ ?_ (by norm_num) ?_
    · simp [cut1, arrow] <;> norm_num
    · simp [cut2, screen] <;> norm_num
    · intro s e he hs s0 s1 f hf
      apply ne_of_coord 0
      simp only [cut1, cut2, arrow, screen, List.mem_cons, List.not_mem_nil, or_false] at he hf
      rcases he with rfl | rfl | rfl <;> simp at hs <;>
        first
        | (exfalso; linarith)
        | (have hs' : s = 3 / 8 := by linarith
           subst hs'
           rcases hf with rfl | rfl | rfl <;> simp [cross_eq] <;> norm_num)
        | (have hs' : s = 5 / 8 := by linarith
           subst hs'
           rcases hf with rfl | rfl | rfl <;> simp [cross_eq] <;> norm_num)
        | (have hs' : s = 5 / 6 := by linarith
           subst hs'
           rcases hf with rfl | rfl | rfl <;> simp [cross_eq] <;> norm_num)
  · refine general_of (by norm_num) (by norm_num) height_arrow.2 height_screen.1 ?_ ?_ (by norm_num) ?_
    · simp [cut2, arrow] <;> norm_num
    · simp [cut1, screen] <;> norm_num
    · intro s e he hs s0 s1 f hf
      apply ne_of_coord 0
      simp only [cut1, cut2, arrow, screen, List.mem_cons, List.not_mem_nil, or_false] at he hf
      rcases he with rfl | rfl | rfl <;> simp at hs <;>
        first
        | (exfalso; linarith)
        | (have hs' : s = 3 / 8 := by linarith
           subst hs'
           rcases hf with rfl | rfl | rfl <;> simp [cross_eq] <;> norm_num)
        | (have hs' : s = 5 / 8 := by linarith
           subst hs'
           rcases hf with rfl | rfl | rfl <;> simp [cross_eq] <;> norm_num)
        | (have hs' : s = 5 / 6 := by linarith
           subst hs'
           rcases hf with rfl | rfl | rfl <;> simp [cross_eq] <;> norm_num)
  · refine general_of (by norm_num) (by norm_num) height_arrow.2 height_screen.2 ?_ ?_ (by norm_num) ?_
    · simp [cut2, arrow] <;> norm_num
    · simp [cut2, screen] <;> norm_num
    · intro s e he hs s0 s1 f hf
      apply ne_of_coord 0
      simp only [cut1, cut2, arrow, screen, List.mem_cons, List.not_mem_nil, or_false] at he hf
      rcases he with rfl | rfl | rfl <;> simp at hs <;>
        first
        | (exfalso; linarith)
        | (have hs' : s = 3 / 8 := by linarith
           subst hs'
           rcases hf with rfl | rfl | rfl <;> simp [cross_eq] <;> norm_num)
        | (have hs' : s = 5 / 8 := by linarith
           subst hs'
           rcases hf with rfl | rfl | rfl <;> simp [cross_eq] <;> norm_num)
        | (have hs' : s = 5 / 6 := by linarith
           subst hs'
           rcases hf with rfl | rfl | rfl <;> simp [cross_eq] <;> norm_num)

/-- **C98 is violated** by polygons with more than four corners: this pentagon is reported not to meet a rectangle
that cuts off its tip, for every tolerance. -/
theorem C98_pentagon_violated : ∃ o t : List (Pt ℝ), o.length = 5 ∧ t.length = 4 ∧
    (convexHull ℝ {x | x ∈ o} ∩ convexHull ℝ {x | x ∈ t}).Nonempty ∧
    ∀ eps, polygonPolygon eps o t = .ok none := by
  refine ⟨[![0, 0, 0], ![4, 0, 0], ![4, 1, 0], ![0, 1, 0], ![-4, 1 / 2, 0]],
    [![-1, -1, -1], ![-1, 2, -1], ![-1, 2, 1], ![-1, -1, 1]], rfl, rfl, ⟨![-1, 1 / 2, 0], ?_, ?_⟩, ?_⟩
  · have c := convex_convexHull ℝ {x : Pt ℝ | x ∈ [![0, 0, 0], ![4, 0, 0], ![4, 1, 0], ![0, 1, 0], ![-4, 1 / 2, 0]]}
    have sub := subset_convexHull ℝ {x : Pt ℝ | x ∈ [![0, 0, 0], ![4, 0, 0], ![4, 1, 0], ![0, 1, 0], ![-4, 1 / 2, 0]]}
    have k1 := c (sub (.head _)) (sub (.tail _ (.tail _ (.tail _ (.head _))))) (a := 1 / 2) (b := 1 / 2)
      (by norm_num) (by norm_num) (by norm_num)
    have k2 := c k1 (sub (.tail _ (.tail _ (.tail _ (.tail _ (.head _)))))) (a := 3 / 4) (b := 1 / 4)
      (by norm_num) (by norm_num) (by norm_num)
    convert k2 using 1
    refine pt_ext ?_ ?_ ?_ <;> simp <;> norm_num
  · have c := convex_convexHull ℝ {x : Pt ℝ | x ∈ [![-1, -1, -1], ![-1, 2, -1], ![-1, 2, 1], ![-1, -1, 1]]}
    have sub := subset_convexHull ℝ {x : Pt ℝ | x ∈ [![-1, -1, -1], ![-1, 2, -1], ![-1, 2, 1], ![-1, -1, 1]]}
    have k := c (sub (.head _)) (sub (.tail _ (.tail _ (.head _)))) (a := 1 / 2) (b := 1 / 2)
      (by norm_num) (by norm_num) (by norm_num)
    convert k using 1
    refine pt_ext ?_ ?_ ?_ <;> simp <;> norm_num
  · intro eps
    have hn : ∀ z ∈ [(((![0, 0, 0], ![4, 0, 0], ![0, 1, 0]) : Triangle), ((![-1, -1, -1], ![-1, 2, -1], ![-1, -1, 1]) : Triangle)),
        ((![0, 0, 0], ![4, 0, 0], ![0, 1, 0]), (![-1, 2, -1], ![-1, 2, 1], ![-1, -1, 1])),
        ((![4, 0, 0], ![4, 1, 0], ![0, 1, 0]), (![-1, -1, -1], ![-1, 2, -1], ![-1, -1, 1])),
        ((![4, 0, 0], ![4, 1, 0], ![0, 1, 0]), (![-1, 2, -1], ![-1, 2, 1], ![-1, -1, 1]))],
        triangleTriangle eps z.1 z.2 = .ok (.inl none) := by
      intro z hz
      simp only [List.mem_cons, List.not_mem_nil, or_false] at hz
      have low : ∀ a b c d : Pt ℝ, 0 < height (a, b, c) d → signOf (coplanarTest a b c d) = -1 := by
        intro a b c d h
        rw [show coplanarTest a b c d = coplanarTest (a, b, c).1 (a, b, c).2.1 (a, b, c).2.2 d from rfl, volume_eq]
        exact if_pos (by linarith)
      rcases hz with rfl | rfl | rfl | rfl <;> refine tt_reject (Or.inl ?_) <;> simp only <;>
        rw [low _ _ _ _ (by simp [height, normalOf, cross_eq, dot] <;> norm_num),
          low _ _ _ _ (by simp [height, normalOf, cross_eq, dot] <;> norm_num),
          low _ _ _ _ (by simp [height, normalOf, cross_eq, dot] <;> norm_num)] <;> exact ⟨rfl, rfl⟩
    have h1 := hn _ (.head _)
    have h2 := hn _ (.tail _ (.head _))
    have h3 := hn _ (.tail _ (.tail _ (.head _)))
    have h4 := hn _ (.tail _ (.tail _ (.tail _ (.head _))))
    simp only at h1 h2 h3 h4
    refine (polygon_run (p := ![![0, 0, 0], ![4, 0, 0], ![4, 1, 0], ![0, 1, 0]])
      (q := ![![-1, -1, -1], ![-1, 2, -1], ![-1, 2, 1], ![-1, -1, 1]]) (o' := [![-4, 1 / 2, 0]]) (t' := [])
      (data := [.inl none, .inl none, .inl none, .inl none]) ?_).trans (if_pos (by simp))
    have k1 : testPair eps ((![0, 0, 0], ![4, 0, 0], ![0, 1, 0]), (![-1, -1, -1], ![-1, 2, -1], ![-1, -1, 1])) =
        .ok (.inl none) := by unfold testPair; simp only; rw [h1]
    have k2 : testPair eps ((![0, 0, 0], ![4, 0, 0], ![0, 1, 0]), (![-1, 2, -1], ![-1, 2, 1], ![-1, -1, 1])) =
        .ok (.inl none) := by unfold testPair; simp only; rw [h2]
    have k3 : testPair eps ((![4, 0, 0], ![4, 1, 0], ![0, 1, 0]), (![-1, -1, -1], ![-1, 2, -1], ![-1, -1, 1])) =
        .ok (.inl none) := by unfold testPair; simp only; rw [h3]
    have k4 : testPair eps ((![4, 0, 0], ![4, 1, 0], ![0, 1, 0]), (![-1, 2, -1], ![-1, 2, 1], ![-1, -1, 1])) =
        .ok (.inl none) := by unfold testPair; simp only; rw [h4]
    show List.mapM (testPair eps) [((![0, 0, 0], ![4, 0, 0], ![0, 1, 0]), (![-1, -1, -1], ![-1, 2, -1], ![-1, -1, 1])),
      ((![0, 0, 0], ![4, 0, 0], ![0, 1, 0]), (![-1, 2, -1], ![-1, 2, 1], ![-1, -1, 1])),
      ((![4, 0, 0], ![4, 1, 0], ![0, 1, 0]), (![-1, -1, -1], ![-1, 2, -1], ![-1, -1, 1])),
      ((![4, 0, 0], ![4, 1, 0], ![0, 1, 0]), (![-1, 2, -1], ![-1, 2, 1], ![-1, -1, 1]))] = _
    rw [List.mapM_cons, List.mapM_cons, List.mapM_cons, List.mapM_cons, List.mapM_nil, k1, k2, k3, k4]
    rfl

/-- **C98 is violated** by quadrilaterals whose second diagonal is outside: this rectangle does not meet the
arrowhead but a segment is reported. -/
theorem C98_reflex_violated :
    (pointsOf (arrow 0, arrow 1, arrow 2) ∪ pointsOf (arrow 0, arrow 2, arrow 3)) ∩
      convexHull ℝ (Set.range screen) = ∅ ∧
    ∃ δ > 0, ∀ eps, 0 < eps → eps < δ →
      ∃ x y, polygonPolygon eps (corners arrow) (corners screen) = .ok (some (x, y)) := by
  have hscreen : DiagonalsMeet (screen 0) (screen 1) (screen 2) (screen 3) := by
    refine ⟨![3 / 2, 3 / 2, 0], mem_segment_iff.2 ⟨1 / 2, by norm_num, by norm_num, ?_⟩,
      mem_segment_iff.2 ⟨1 / 2, by norm_num, by norm_num, ?_⟩⟩ <;>
    refine pt_ext ?_ ?_ ?_ <;> simp [screen] <;> norm_num
  have hr : Set.range screen = {screen 0, screen 1, screen 2, screen 3} := by
    ext z
    simp [Fin.exists_fin_succ, eq_comm]
  constructor
  · rw [hr, quad_eq hscreen]
    refine Set.eq_empty_of_forall_notMem fun z hz => ?_
    obtain ⟨hz1, hz2⟩ := hz
    have hx : z 0 = 3 / 2 ∧ 1 ≤ z 1 := by
      rcases hz2 with ⟨u, v, hu, hv, huv, rfl⟩ | ⟨u, v, hu, hv, huv, rfl⟩ <;> simp [screen] <;> linarith
    rcases hz1 with ⟨u, v, hu, hv, huv, rfl⟩ | ⟨u, v, hu, hv, huv, rfl⟩ <;> simp [arrow] at hx <;> linarith
  · obtain ⟨δ, hδ, H⟩ := C98_quads_partial (p := arrow) (q := screen)
      (by rw [height_arrow.1]; simp [arrow]) (by rw [height_screen.1]; simp [screen]) general_arrow
    refine ⟨δ, hδ, fun eps h0 he => ?_⟩
    obtain ⟨r, hr, hs⟩ := H eps h0 he [] []
    simp only [List.append_nil] at hr
    match r, hs with
    | some (x, y), _ => exact ⟨x, y, hr⟩
    | none, hs =>
      have : (![3 / 2, 3 / 2, 0] : Pt ℝ) ∈ cutPoints arrow ∩ cutPoints screen := by
        refine ⟨Or.inl ⟨3 / 8, 3 / 8, by norm_num, by norm_num, by norm_num, ?_⟩,
          Or.inl ⟨1 / 2, 1 / 2, by norm_num, by norm_num, by norm_num, ?_⟩⟩ <;>
        refine pt_ext ?_ ?_ ?_ <;> simp [cut1, arrow, screen] <;> norm_num
      rw [show cutPoints arrow ∩ cutPoints screen = ∅ from hs] at this
      exact this.elim

/-- The hypotheses of `C98_convex_partial` hold for two rectangles that cross. -/
example : DiagonalsMeet (upright 0) (upright 1) (upright 2) (upright 3) ∧
    DiagonalsMeet (lying 0) (lying 1) (lying 2) (lying 3) ∧ GeneralQuads upright lying ∧
    (cutPoints upright ∩ cutPoints lying).Nonempty := by
  refine ⟨⟨![7 / 2, 1 / 2, 0], mem_segment_iff.2 ⟨1 / 2, by norm_num, by norm_num, ?_⟩,
      mem_segment_iff.2 ⟨1 / 2, by norm_num, by norm_num, ?_⟩⟩,
    ⟨![2, 1, 0], mem_segment_iff.2 ⟨1 / 2, by norm_num, by norm_num, ?_⟩,
      mem_segment_iff.2 ⟨1 / 2, by norm_num, by norm_num, ?_⟩⟩, general_rectangles,
    ⟨![2, 1 / 2, 0], Or.inl ⟨1 / 5, 1 / 2, by norm_num, by norm_num, by norm_num, ?_⟩,
      Or.inl ⟨1 / 2, 1 / 4, by norm_num, by norm_num, by norm_num, ?_⟩⟩⟩ <;>
  refine pt_ext ?_ ?_ ?_ <;> simp [upright, lying, cut1] <;> norm_num

/-- The hypotheses of `C98_quads_partial` hold for the arrowhead. -/
example : height (cut1 arrow) (arrow 2) = 0 ∧ height (cut1 screen) (screen 2) = 0 ∧ GeneralQuads arrow screen :=
  ⟨by rw [height_arrow.1]; simp [arrow], by rw [height_screen.1]; simp [screen], general_arrow⟩

#print axioms C98_quads_partial
#print axioms C98_convex_partial
#print axioms C98_corners
#print axioms C98_first_four
#print axioms C98_answers
#print axioms C98_pentagon_violated
#print axioms C98_reflex_violated

end Verif.Geometry
