/-
Property theorem C97: the intersection of two triangles (`TriangleTriangleIntersectionTest`,
src/geometry/operations/triangle_triangle_intersection_test.py:148-443).
-/
import Verif.Lemmas.TrianglePlane

namespace Verif.Geometry
open Trace MeshMetrics
open scoped Classical

theorem det2_of_mem {pos : Fin 3 × Fin 3} {a b p : Pt ℝ} (h : p ∈ segment ℝ a b) :
    det2 (proj pos (a - p)) (proj pos (b - p)) = 0 := by
  obtain ⟨t, -, -, rfl⟩ := mem_segment_iff.1 h
  simp only [det2, proj, Pi.add_apply, Pi.smul_apply, Pi.sub_apply, smul_eq_mul]
  ring

/-- All that is needed of the test of one side -/
theorem side_small {pos : Fin 3 × Fin 3} {n : Pt ℝ} (hn : Keeps pos n)
    {h : ℝ} {a b p q : Pt ℝ} (ha : dot n a = h) (hb : dot n b = h) (hp : dot n p = h) (hq : dot n q = h)
    (hdp : det2 (proj pos (a - p)) (proj pos (b - p)) ≠ 0)
    (hdq : det2 (proj pos (a - q)) (proj pos (b - q)) ≠ 0) (h1 : ![1, 1, 1] ∉ segment ℝ p q) :
    ∃ δ > 0, ∀ eps, 0 < eps → eps < δ → SideTest pos a b p q eps ∧
      (∀ z ∈ [p, q, ![1, 1, 1]], ∀ y, y ∈ segment ℝ p q → y ∈ segment ℝ a b → eps ≤ norm3 (y - z)) ∧
      ∀ z ∈ [p, q], eps ≤ colinearTest pos a b z := by
  have H := C52_test_partial hn ha hb hp hq (Or.inr ⟨hdp, hdq⟩)
  obtain ⟨δ1, d1, H1⟩ := side_far (z := p) H fun hz => hdp (det2_of_mem hz.1)
  obtain ⟨δ2, d2, H2⟩ := side_far (z := q) H fun hz => hdq (det2_of_mem hz.1)
  obtain ⟨δ3, d3, H3⟩ := side_far (z := ![1, 1, 1]) H fun hz => h1 hz.2
  have cp : 0 < colinearTest pos a b p := by unfold colinearTest; positivity
  have cq : 0 < colinearTest pos a b q := by unfold colinearTest; positivity
  refine ⟨min (min δ1 (min δ2 δ3)) (min (colinearTest pos a b p) (colinearTest pos a b q)),
    lt_min (lt_min d1 (lt_min d2 d3)) (lt_min cp cq), fun eps h0 he => ?_⟩
  simp only [lt_min_iff] at he
  obtain ⟨⟨e1, e2, e3⟩, e4, e5⟩ := he
  refine ⟨(H1 eps h0 e1).1, ?_, ?_⟩
  · intro z hz y hy1 hy2
    simp only [List.mem_cons, List.not_mem_nil, or_false] at hz
    rcases hz with rfl | rfl | rfl
    · exact (H1 eps h0 e1).2 y hy2 hy1
    · exact (H2 eps h0 e2).2 y hy2 hy1
    · exact (H3 eps h0 e3).2 y hy2 hy1
  · intro z hz
    simp only [List.mem_cons, List.not_mem_nil, or_false] at hz
    rcases hz with rfl | rfl
    · exact e4.le
    · exact e5.le

/-- The test of one point for small tolerances -/
theorem point_small {pos : Fin 3 × Fin 3} {n : Pt ℝ} (hn : Keeps pos n) {h : ℝ}
    {a b c p : Pt ℝ} (ha : dot n a = h) (hb : dot n b = h) (hc : dot n c = h) (hp : dot n p = h)
    (hab : det2 (proj pos (a - p)) (proj pos (b - p)) ≠ 0)
    (hbc : det2 (proj pos (b - p)) (proj pos (c - p)) ≠ 0)
    (hca : det2 (proj pos (c - p)) (proj pos (a - p)) ≠ 0) :
    ∃ δ > 0, ∀ eps, 0 < eps → eps < δ → (pointInTriangle eps pos a b c p = true ↔ InTriangle p a b c) := by
  by_cases hin : InTriangle p a b c
  · exact ⟨1, one_pos, fun eps h0 _ => ⟨fun _ => hin, fun _ => C62_accepts h0 pos hin⟩⟩
  · obtain ⟨δ, d, H⟩ := C62_rejects_partial hn ha hb hc hp hab hbc hca hin
    refine ⟨δ, d, fun eps _ he => ⟨fun h1 => ?_, fun h1 => absurd h1 hin⟩⟩
    rw [H eps he] at h1
    cases h1

/-- C97: for a segment in the plane of the triangle in general position, and small tolerances, the answer is the
part of the segment in the triangle. -/
theorem C97_segment_partial {pos : Fin 3 × Fin 3} {n : Pt ℝ} (hn : Keeps pos n) {h : ℝ} {a b c p q : Pt ℝ}
    (ha : dot n a = h) (hb : dot n b = h) (hc : dot n c = h) (hp : dot n p = h) (hq : dot n q = h)
    (hD : det2 (proj pos (b - a)) (proj pos (c - a)) ≠ 0) (g : General pos a b c p q) :
    ∃ δ > 0, ∀ eps, 0 < eps → eps < δ → Describes (coplanarSegment eps pos (a, b, c) p q)
      {x | x ∈ segment ℝ p q ∧ InTriangle x a b c} := by
  obtain ⟨δ1, d1, H1⟩ := side_small hn ha hb hp hq g.abP g.abQ g.one
  obtain ⟨δ2, d2, H2⟩ := side_small hn hb hc hp hq g.bcP g.bcQ g.one
  obtain ⟨δ3, d3, H3⟩ := side_small hn hc ha hp hq g.caP g.caQ g.one
  obtain ⟨δ4, d4, H4⟩ := point_small hn ha hb hc hp g.abP g.bcP g.caP
  obtain ⟨δ5, d5, H5⟩ := point_small hn ha hb hc hq g.abQ g.bcQ g.caQ
  refine ⟨min (min δ1 (min δ2 δ3)) (min δ4 δ5), lt_min (lt_min d1 (lt_min d2 d3)) (lt_min d4 d5),
    fun eps h0 he => ?_⟩
  simp only [lt_min_iff] at he
  obtain ⟨⟨e1, e2, e3⟩, e4, e5⟩ := he
  obtain ⟨s1, f1, o1⟩ := H1 eps h0 e1
  obtain ⟨s2, f2, o2⟩ := H2 eps h0 e2
  obtain ⟨s3, f3, o3⟩ := H3 eps h0 e3
  refine coplanarSegment_describes hn ha hb hc hp hq hD g s1 s2 s3 (fun z hz => ⟨o1 z hz, o2 z hz, o3 z hz⟩) ?_ ?_
  · intro z hz
    simp only [List.mem_cons, List.not_mem_nil, or_false] at hz
    rcases hz with rfl | rfl
    · exact H4 eps h0 e4
    · exact H5 eps h0 e5
  · intro z hz y hy hyy
    rcases hyy with h1 | h1 | h1
    · exact f1 z hz y hy h1
    · exact f2 z hz y hy h1
    · exact f3 z hz y hy h1

/-! ### Two triangles -/

theorem tt_reject {eps : ℝ} {o t : Triangle}
    (h : (signOf (coplanarTest t.1 t.2.1 t.2.2 o.1) = signOf (coplanarTest t.1 t.2.1 t.2.2 o.2.1) ∧
      signOf (coplanarTest t.1 t.2.1 t.2.2 o.2.1) = signOf (coplanarTest t.1 t.2.1 t.2.2 o.2.2)) ∨
      (signOf (coplanarTest o.1 o.2.1 o.2.2 t.1) = signOf (coplanarTest o.1 o.2.1 o.2.2 t.2.1) ∧
      signOf (coplanarTest o.1 o.2.1 o.2.2 t.2.1) = signOf (coplanarTest o.1 o.2.1 o.2.2 t.2.2))) :
    triangleTriangle eps o t = .ok (.inl none) := by
  unfold triangleTriangle
  simp only
  rw [if_pos h]

theorem tt_segment {eps : ℝ} {o t : Triangle} {u v : Pt ℝ}
    (h1 : ¬ (signOf (coplanarTest t.1 t.2.1 t.2.2 o.1) = signOf (coplanarTest t.1 t.2.1 t.2.2 o.2.1) ∧
      signOf (coplanarTest t.1 t.2.1 t.2.2 o.2.1) = signOf (coplanarTest t.1 t.2.1 t.2.2 o.2.2)))
    (h2 : ¬ (signOf (coplanarTest o.1 o.2.1 o.2.2 t.1) = signOf (coplanarTest o.1 o.2.1 o.2.2 t.2.1) ∧
      signOf (coplanarTest o.1 o.2.1 o.2.2 t.2.1) = signOf (coplanarTest o.1 o.2.1 o.2.2 t.2.2)))
    (h : planeSegment o t (signOf (coplanarTest t.1 t.2.1 t.2.2 o.1))
        (signOf (coplanarTest t.1 t.2.1 t.2.2 o.2.1)) (signOf (coplanarTest t.1 t.2.1 t.2.2 o.2.2))
        = .ok (some (u, v))) :
    triangleTriangle eps o t =
      .ok (.inl (coplanarSegment eps (keptAxes (cross (t.1 - t.2.1) (t.2.2 - t.2.1))) t u v)) := by
  unfold triangleTriangle
  simp only
  rw [if_neg (by rintro (h | h); exacts [h1 h, h2 h]), h]

theorem height_point (t : Triangle) {x a b c : Pt ℝ} (hx : InTriangle x a b c) :
    ∃ u v w : ℝ, 0 ≤ u ∧ 0 ≤ v ∧ 0 ≤ w ∧ u + v + w = 1 ∧
      height t x = u * height t a + v * height t b + w * height t c := by
  obtain ⟨v, w, hv, hw, hvw, rfl⟩ := hx
  refine ⟨1 - v - w, v, w, by linarith, hv, hw, by ring, ?_⟩
  simp only [height, dot, Pi.add_apply, Pi.smul_apply, Pi.sub_apply, smul_eq_mul]
  ring

/-- A triangle on one side of a plane has no point in it. -/
theorem no_point_in_plane {t : Triangle} {a b c x : Pt ℝ} (hab : 0 < height t a * height t b)
    (hbc : 0 < height t b * height t c) (hx : InTriangle x a b c) : height t x ≠ 0 := by
  obtain ⟨u, v, w, hu, hv, hw, hsum, e⟩ := height_point t hx
  rw [e]
  generalize height t a = A at *
  generalize height t b = B at *
  generalize height t c = C at *
  intro h0
  have hB : 0 < B * B := by
    refine mul_self_pos.2 ?_
    rintro rfl
    simp at hab
  have : u * (A * B) + v * (B * B) + w * (B * C) = 0 := by linear_combination B * h0
  have p1 := mul_nonneg hu hab.le
  have p2 := mul_nonneg hv hB.le
  have p3 := mul_nonneg hw hbc.le
  rcases hu.eq_or_lt with h1 | h1
  · rcases hv.eq_or_lt with h2 | h2
    · have : w = 1 := by linarith
      rw [this] at p3
      have : w * (B * C) = B * C := by rw [‹w = 1›, one_mul]
      linarith
    · have := mul_pos h2 hB
      linarith
  · have := mul_pos h1 hab
    linarith

theorem height_self {t : Triangle} {x : Pt ℝ} (hx : x ∈ pointsOf t) : height t x = 0 := by
  obtain ⟨u, v, -, -, -, rfl⟩ := hx
  simp only [height, normalOf, dot, cross, Pi.add_apply, Pi.smul_apply, Pi.sub_apply, smul_eq_mul,
    Matrix.cons_val]
  ring

theorem volume_eq (t : Triangle) (x : Pt ℝ) : coplanarTest t.1 t.2.1 t.2.2 x = -height t x / 6 :=
  coplanarTest_eq _ _ _ _

theorem volume_ne {t : Triangle} {x : Pt ℝ} (h : height t x ≠ 0) : coplanarTest t.1 t.2.1 t.2.2 x ≠ 0 := by
  rw [volume_eq]
  exact div_ne_zero (neg_ne_zero.2 h) (by norm_num)

theorem volume_mul (t : Triangle) (x y : Pt ℝ) : coplanarTest t.1 t.2.1 t.2.2 x * coplanarTest t.1 t.2.1 t.2.2 y
    = height t x * height t y / 36 := by
  rw [volume_eq, volume_eq]; ring

/-- The segment of the first triangle in the plane of the second one -/
theorem planeSegment_eq (o t : Triangle) (hf : ∀ x ∈ [o.1, o.2.1, o.2.2], height t x ≠ 0)
    (hs : ¬ (signOf (coplanarTest t.1 t.2.1 t.2.2 o.1) = signOf (coplanarTest t.1 t.2.1 t.2.2 o.2.1) ∧
      signOf (coplanarTest t.1 t.2.1 t.2.2 o.2.1) = signOf (coplanarTest t.1 t.2.1 t.2.2 o.2.2))) :
    ∃ u v, planeSegment o t (signOf (coplanarTest t.1 t.2.1 t.2.2 o.1))
        (signOf (coplanarTest t.1 t.2.1 t.2.2 o.2.1)) (signOf (coplanarTest t.1 t.2.1 t.2.2 o.2.2))
        = .ok (some (u, v)) ∧
      (∀ x ∈ [u, v], height t x = 0 ∧
        (x ∈ segment ℝ o.1 o.2.1 ∨ x ∈ segment ℝ o.2.1 o.2.2 ∨ x ∈ segment ℝ o.2.2 o.1)) ∧
      {x | x ∈ pointsOf o ∧ height t x = 0} = segment ℝ u v := by
  obtain ⟨p, q, r⟩ := o
  obtain ⟨a, b, c⟩ := t
  have hp := hf p (by simp)
  have hq := hf q (by simp)
  have hr := hf r (by simp)
  simp only at hs ⊢
  have vne := fun {x} (h : height (a, b, c) x ≠ 0) => volume_ne (t := (a, b, c)) h
  have neg : ∀ {x y}, height (a, b, c) x ≠ 0 → height (a, b, c) y ≠ 0 →
      signOf (coplanarTest a b c x) ≠ signOf (coplanarTest a b c y) →
      height (a, b, c) x * height (a, b, c) y < 0 := by
    intro x y hx hy h1
    have h2 := signOf_ne (vne hx) (vne hy) h1
    rw [volume_mul] at h2
    linarith
  have one : ∀ x, signOf x ≠ 0 := fun x => by rcases signOf_cases x with h | h <;> rw [h] <;> decide
  have two : ∀ {i j k : ℝ}, signOf i ≠ signOf j → signOf j ≠ signOf k → signOf i = signOf k := by
    intro i j k h1 h2
    rcases signOf_cases i with e1 | e1 <;> rcases signOf_cases j with e2 | e2 <;>
      rcases signOf_cases k with e3 | e3 <;> simp_all
  unfold planeSegment
  simp only
  by_cases h1 : signOf (coplanarTest a b c r) = signOf (coplanarTest a b c p)
  · rw [if_pos ⟨h1, one _⟩]
    have hqp : signOf (coplanarTest a b c p) ≠ signOf (coplanarTest a b c q) := fun h2 =>
      hs ⟨h2, by rw [← h2, h1]⟩
    obtain ⟨u, hu, hu1, hu2⟩ := linePlane_segment (neg hp hq hqp)
    obtain ⟨v, hv, hv1, hv2⟩ := linePlane_segment (neg hq hr (by rw [h1]; exact hqp.symm))
    refine ⟨u, v, by rw [hu, hv], ?_, triangle_plane (neg hp hq hqp)
      (neg hr hq (by rw [h1]; exact hqp)) hu1 hu2 hv1 hv2⟩
    intro x hx
    simp only [List.mem_cons, List.not_mem_nil, or_false] at hx
    rcases hx with rfl | rfl
    · exact ⟨hu2, Or.inl hu1⟩
    · exact ⟨hv2, Or.inr (Or.inl hv1)⟩
  · rw [if_neg fun h2 => h1 h2.1]
    by_cases h2 : signOf (coplanarTest a b c q) = signOf (coplanarTest a b c r)
    · rw [if_pos ⟨h2, one _⟩]
      have hqp : signOf (coplanarTest a b c p) ≠ signOf (coplanarTest a b c q) := by
        rw [h2]; exact fun h => h1 h.symm
      obtain ⟨u, hu, hu1, hu2⟩ := linePlane_segment (neg hp hq hqp)
      obtain ⟨v, hv, hv1, hv2⟩ := linePlane_segment (neg hr hp h1)
      refine ⟨u, v, by rw [hu, hv], ?_, ?_⟩
      · intro x hx
        simp only [List.mem_cons, List.not_mem_nil, or_false] at hx
        rcases hx with rfl | rfl
        · exact ⟨hu2, Or.inl hu1⟩
        · exact ⟨hv2, Or.inr (Or.inr hv1)⟩
      · have e := triangle_plane (neg hr hp h1) (neg hq hp hqp.symm) hv1 hv2
          hu1 hu2
        rw [segment_symm, ← e]
        ext x
        exact and_congr_left' ⟨inTriangle_rotate, fun h => inTriangle_rotate (inTriangle_rotate h)⟩
    · rw [if_neg fun h3 => h2 h3.1]
      have h3 := two h2 h1
      rw [if_pos ⟨h3.symm, one _⟩]
      obtain ⟨u, hu, hu1, hu2⟩ := linePlane_segment (neg hq hr h2)
      obtain ⟨v, hv, hv1, hv2⟩ := linePlane_segment (neg hr hp h1)
      refine ⟨u, v, by rw [hu, hv], ?_, ?_⟩
      · intro x hx
        simp only [List.mem_cons, List.not_mem_nil, or_false] at hx
        rcases hx with rfl | rfl
        · exact ⟨hu2, Or.inr (Or.inl hu1)⟩
        · exact ⟨hv2, Or.inr (Or.inr hv1)⟩
      · rw [← triangle_plane (neg hq hr h2) (neg hp hr (Ne.symm h1)) hu1 hu2 hv1 hv2]
        ext x
        exact and_congr_left' ⟨fun h => inTriangle_rotate (inTriangle_rotate h), inTriangle_rotate⟩

/-- C97: for triangles in general position and small tolerances the answer describes their common points. -/
theorem C97_triangles_partial (o t : Triangle) (g : GeneralPair o t) :
    ∃ δ > 0, ∀ eps, 0 < eps → eps < δ → ∃ r, triangleTriangle eps o t = .ok (.inl r) ∧
      Describes r (pointsOf o ∩ pointsOf t) := by
  have hside : ∀ {o t : Triangle}, (∀ x ∈ [o.1, o.2.1, o.2.2], height t x ≠ 0) →
      signOf (coplanarTest t.1 t.2.1 t.2.2 o.1) = signOf (coplanarTest t.1 t.2.1 t.2.2 o.2.1) ∧
        signOf (coplanarTest t.1 t.2.1 t.2.2 o.2.1) = signOf (coplanarTest t.1 t.2.1 t.2.2 o.2.2) →
      pointsOf o ∩ pointsOf t = ∅ := by
    intro o t hf hs
    have v := fun {x} (hx : x ∈ [o.1, o.2.1, o.2.2]) => volume_ne (hf x hx)
    have h1 := signOf_eq (v (by simp)) (v (by simp)) hs.1
    have h2 := signOf_eq (v (by simp)) (v (by simp)) hs.2
    rw [volume_mul] at h1 h2
    ext x
    simp only [Set.mem_inter_iff, Set.mem_empty_iff_false, iff_false, not_and]
    intro hxo hxt
    exact no_point_in_plane (by linarith) (by linarith) hxo (height_self hxt)
  by_cases h1 : signOf (coplanarTest t.1 t.2.1 t.2.2 o.1) = signOf (coplanarTest t.1 t.2.1 t.2.2 o.2.1) ∧
      signOf (coplanarTest t.1 t.2.1 t.2.2 o.2.1) = signOf (coplanarTest t.1 t.2.1 t.2.2 o.2.2)
  · refine ⟨1, one_pos, fun eps _ _ => ⟨none, ?_, hside g.first h1⟩⟩
    unfold triangleTriangle
    simp only
    rw [if_pos (Or.inl h1)]
  by_cases h2 : signOf (coplanarTest o.1 o.2.1 o.2.2 t.1) = signOf (coplanarTest o.1 o.2.1 o.2.2 t.2.1) ∧
      signOf (coplanarTest o.1 o.2.1 o.2.2 t.2.1) = signOf (coplanarTest o.1 o.2.1 o.2.2 t.2.2)
  · refine ⟨1, one_pos, fun eps _ _ => ⟨none, ?_, by rw [Set.inter_comm]; exact hside g.second h2⟩⟩
    unfold triangleTriangle
    simp only
    rw [if_pos (Or.inr h2)]
  obtain ⟨u, v, huv, hends, hseg⟩ := planeSegment_eq o t g.first h1
  set w := normalOf t with hw
  have hv' : cross (t.1 - t.2.1) (t.2.2 - t.2.1) = -w := by
    rw [hw]
    unfold normalOf
    refine pt_ext ?_ ?_ ?_ <;> simp only [cross, Pi.sub_apply, Pi.neg_apply, Matrix.cons_val] <;> ring
  have hw0 : w ≠ 0 := by
    intro h0
    refine g.first o.1 (by simp) ?_
    unfold height
    rw [← hw, h0]
    simp [dot]
  set pos := keptAxes (cross (t.1 - t.2.1) (t.2.2 - t.2.1)) with hpos
  have hk : Keeps pos w := by
    have := keptAxes_keeps (v := -w) (neg_ne_zero.2 hw0)
    rw [← hv'] at this
    exact ⟨this.1, fun k hk1 hk2 => by
      have := this.2 k hk1 hk2
      rw [hv'] at this
      simpa using this⟩
  have plane : ∀ {x}, height t x = 0 → dot w x = dot w t.1 := by
    intro x hx
    unfold height at hx
    rw [← hw] at hx
    simp only [dot, Pi.sub_apply] at *
    linarith
  have perp : ∀ {x y}, dot w x = dot w t.1 → dot w y = dot w t.1 → dot w (x - y) = 0 := by
    intro x y hx hy
    simp only [dot, Pi.sub_apply] at *
    linarith
  have hb : dot w t.2.1 = dot w t.1 := plane (height_self ⟨1, 0, by norm_num, le_rfl, by norm_num, by simp⟩)
  have hc : dot w t.2.2 = dot w t.1 := plane (height_self ⟨0, 1, le_rfl, by norm_num, by norm_num, by simp⟩)
  have hu := hends u (by simp)
  have hv := hends v (by simp)
  have hD : det2 (proj pos (t.2.1 - t.1)) (proj pos (t.2.2 - t.1)) ≠ 0 :=
    det2_ne hk (perp hb rfl) (perp hc rfl) hw0
  have off := fun {x} (hx : height t x = 0 ∧ (x ∈ segment ℝ o.1 o.2.1 ∨ x ∈ segment ℝ o.2.1 o.2.2 ∨
      x ∈ segment ℝ o.2.2 o.1)) => g.off x hx.2 hx.1
  have corner : ∀ x ∈ [t.1, t.2.1, t.2.2], x ∉ segment ℝ u v := by
    intro x hx hm
    rw [← hseg] at hm
    exact g.second x hx (height_self hm.1)
  have gen : General pos t.1 t.2.1 t.2.2 u v :=
    ⟨det2_ne hk (perp rfl (plane hu.1)) (perp hb (plane hu.1)) (off hu).1,
     det2_ne hk (perp hb (plane hu.1)) (perp hc (plane hu.1)) (off hu).2.1,
     det2_ne hk (perp hc (plane hu.1)) (perp rfl (plane hu.1)) (off hu).2.2,
     det2_ne hk (perp rfl (plane hv.1)) (perp hb (plane hv.1)) (off hv).1,
     det2_ne hk (perp hb (plane hv.1)) (perp hc (plane hv.1)) (off hv).2.1,
     det2_ne hk (perp hc (plane hv.1)) (perp rfl (plane hv.1)) (off hv).2.2,
     corner _ (by simp), corner _ (by simp), corner _ (by simp), fun hm => by
      rw [← hseg] at hm
      exact g.one hm.1⟩
  obtain ⟨δ, hδ, H⟩ := C97_segment_partial hk rfl hb hc (plane hu.1) (plane hv.1) hD gen
  refine ⟨δ, hδ, fun eps h0 he => ⟨coplanarSegment eps pos t u v, ?_, ?_⟩⟩
  · unfold triangleTriangle
    simp only
    rw [if_neg (by rintro (h | h); exacts [h1 h, h2 h]), huv]
  · have := H eps h0 he
    rwa [show {x | x ∈ segment ℝ u v ∧ InTriangle x t.1 t.2.1 t.2.2} = pointsOf o ∩ pointsOf t by
      ext x
      rw [← hseg]
      refine ⟨fun h => ⟨h.1.1, h.2⟩, fun h => ⟨⟨h.1, height_self h.2⟩, h.2⟩⟩] at this

/-- C97: two of three signs agree, so that the code never gets to its cases for corners and sides in the plane;
there is always an answer. -/
theorem C97_answers (eps : ℝ) (o t : Triangle) : ∃ r, triangleTriangle eps o t = .ok (.inl r) := by
  obtain ⟨p, q, r⟩ := o
  obtain ⟨a, b, c⟩ := t
  have meet : ∀ {x y}, signOf (coplanarTest a b c x) ≠ signOf (coplanarTest a b c y) →
      ∃ u, linePlaneIntersection (a, b, c) x y = some u := by
    intro x y hxy
    cases hu : linePlaneIntersection (a, b, c) x y with
    | some u => exact ⟨u, rfl⟩
    | none =>
      refine absurd ?_ hxy
      have h0 := (C63_line_plane a b c x y).1.1 hu
      have : dot (y - a) (cross (b - a) (c - a)) = dot (x - a) (cross (b - a) (c - a)) := by
        simp only [dot, Pi.sub_apply] at *
        linarith
      rw [coplanarTest_eq, coplanarTest_eq, this]
  have one : ∀ x, signOf x ≠ 0 := fun x => by rcases signOf_cases x with h | h <;> rw [h] <;> decide
  have two : ∀ {i j k : ℝ}, signOf i ≠ signOf j → signOf j ≠ signOf k → signOf i = signOf k := by
    intro i j k h1 h2
    rcases signOf_cases i with e1 | e1 <;> rcases signOf_cases j with e2 | e2 <;>
      rcases signOf_cases k with e3 | e3 <;> simp_all
  unfold triangleTriangle
  simp only
  by_cases hs : (signOf (coplanarTest a b c p) = signOf (coplanarTest a b c q) ∧
      signOf (coplanarTest a b c q) = signOf (coplanarTest a b c r)) ∨
      (signOf (coplanarTest p q r a) = signOf (coplanarTest p q r b) ∧
      signOf (coplanarTest p q r b) = signOf (coplanarTest p q r c))
  · rw [if_pos hs]
    exact ⟨none, rfl⟩
  · rw [if_neg hs]
    have hs1 := fun h => hs (Or.inl h)
    have key : ∃ u v, planeSegment (p, q, r) (a, b, c) (signOf (coplanarTest a b c p))
        (signOf (coplanarTest a b c q)) (signOf (coplanarTest a b c r)) = .ok (some (u, v)) := by
      unfold planeSegment
      simp only
      by_cases h1 : signOf (coplanarTest a b c r) = signOf (coplanarTest a b c p)
      · rw [if_pos ⟨h1, one _⟩]
        have hqp : signOf (coplanarTest a b c p) ≠ signOf (coplanarTest a b c q) := fun h2 =>
          hs1 ⟨h2, by rw [← h2, h1]⟩
        obtain ⟨u, hu⟩ := meet hqp
        obtain ⟨v, hv⟩ := meet (x := q) (y := r) (by rw [h1]; exact hqp.symm)
        exact ⟨u, v, by rw [hu, hv]⟩
      · rw [if_neg fun h2 => h1 h2.1]
        obtain ⟨v, hv⟩ := meet h1
        by_cases h2 : signOf (coplanarTest a b c q) = signOf (coplanarTest a b c r)
        · rw [if_pos ⟨h2, one _⟩]
          obtain ⟨u, hu⟩ := meet (x := p) (y := q) (by rw [h2]; exact Ne.symm h1)
          exact ⟨u, v, by rw [hu, hv]⟩
        · rw [if_neg fun h3 => h2 h3.1, if_pos ⟨(two h2 h1).symm, one _⟩]
          obtain ⟨u, hu⟩ := meet h2
          exact ⟨u, v, by rw [hu, hv]⟩
    obtain ⟨u, v, e⟩ := key
    rw [e]
    exact ⟨_, rfl⟩

/-- C97 violated: coplanar triangles are reported not to intersect, also a triangle and itself. -/
theorem C97_coplanar_violated (eps : ℝ) (o t : Triangle) (h : ∀ x ∈ [o.1, o.2.1, o.2.2], height t x = 0) :
    triangleTriangle eps o t = .ok (.inl none) := by
  have v : ∀ x ∈ [o.1, o.2.1, o.2.2], coplanarTest t.1 t.2.1 t.2.2 x = 0 := fun x hx => by
    rw [volume_eq, h x hx]; simp
  unfold triangleTriangle
  simp only
  rw [if_pos]
  left
  rw [v _ (by simp), v _ (by simp), v _ (by simp)]
  exact ⟨rfl, rfl⟩

/-! ### Witnesses -/

/-- The triangle used by the witnesses -/
def tri0 : Triangle := (![0, 0, 0], ![2, 0, 0], ![0, 2, 0])

theorem cross_eq (u v : Pt ℝ) : cross u v = ![u 1 * v 2 - u 2 * v 1, u 2 * v 0 - u 0 * v 2,
    u 0 * v 1 - u 1 * v 0] := rfl

theorem height_tri0 (x : Pt ℝ) : height tri0 x = 4 * x 2 := by
  simp [height, normalOf, tri0, cross_eq, dot]
  ring

/-- C97 violated: a corner of the first triangle inside the second one, the rest of it below: the common point is
missed. -/
theorem C97_touching_violated (eps : ℝ) :
    triangleTriangle eps (![1/2, 1/2, 0], ![0, 0, -1], ![1, 0, -1]) tri0 = .ok (.inl none) ∧
    ![1/2, 1/2, 0] ∈ pointsOf (![1/2, 1/2, 0], ![0, 0, -1], ![1, 0, -1]) ∩ pointsOf tri0 := by
  refine ⟨tt_reject (Or.inl ?_), ⟨0, 0, le_rfl, le_rfl, by norm_num, by simp⟩,
    ⟨1/4, 1/4, by norm_num, by norm_num, by norm_num, ?_⟩⟩
  · rw [volume_eq, volume_eq, volume_eq, height_tri0, height_tri0, height_tri0]
    simp [signOf]
    norm_num
  · refine pt_ext ?_ ?_ ?_ <;> simp [tri0] <;> norm_num

/-- Both ends outside: the crossings decide. -/
theorem outside_eq {eps : ℝ} {pos : Fin 3 × Fin 3} {a b c p q : Pt ℝ}
    (hoff : eps ≤ colinearTest pos a b p ∧ eps ≤ colinearTest pos b c p ∧ eps ≤ colinearTest pos c a p)
    (hp : pointInTriangle eps pos a b c p = false) (hq : pointInTriangle eps pos a b c q = false)
    {r1 r2 r3 : Answer} (h1 : lineLineTest eps pos a b p q = r1) (h2 : lineLineTest eps pos b c p q = r2)
    (h3 : lineLineTest eps pos c a p q = r3) :
    coplanarSegment eps pos (a, b, c) p q = match [r1, r2, r3].filterMap (Option.map Prod.fst) with
      | [x, y] => if norm3 (x - ![1, 1, 1]) < eps then none else some (x, some y)
      | _ => none := by
  have off : ∀ {x y}, eps ≤ colinearTest pos x y p → ¬ |colinearTest pos x y p| < eps := fun h1 =>
    not_lt.2 (h1.trans (le_abs_self _))
  unfold coplanarSegment
  simp only
  rw [if_neg fun h0 => off hoff.1 h0.1, if_neg fun h0 => off hoff.2.1 h0.1,
    if_neg fun h0 => off hoff.2.2 h0.1, if_neg (by rw [hp]; simp), if_pos (by rw [hp, hq]; simp), h1, h2, h3]
  rfl

theorem linePlane_mid {t : Triangle} {p q u : Pt ℝ} (h : height t q = -height t p) (h0 : height t p ≠ 0)
    (hu : p + (1 / 2 : ℝ) • (q - p) = u) : linePlaneIntersection t p q = some u := by
  obtain ⟨a, b, c⟩ := t
  have C := C63_line_plane a b c p q
  have hq : height (a, b, c) q = dot (q - a) (cross (b - a) (c - a)) := rfl
  have hp : height (a, b, c) p = dot (p - a) (cross (b - a) (c - a)) := rfl
  rw [hq, hp] at h
  rw [hp] at h0
  cases e : linePlaneIntersection (a, b, c) p q with
  | none =>
    have := C.1.1 e
    refine absurd ?_ h0
    simp only [dot, Pi.sub_apply] at *
    linarith
  | some x =>
    rw [← hu, ← (C.2 x e).2.2 (1 / 2) ?_]
    rw [dot_affine, h]
    ring

/-- The middle corner of the first triangle as far from the plane as the others, on the other side -/
theorem tt_mid {eps k : ℝ} {o t : Triangle} (hk : 0 < k) (hp : height t o.1 = k) (hq : height t o.2.1 = -k)
    (hr : height t o.2.2 = k) {x y : Pt ℝ} (hx : x ∈ [t.1, t.2.1, t.2.2]) (hy : y ∈ [t.1, t.2.1, t.2.2])
    (hx1 : 0 < height o x) (hy1 : height o y < 0) {u v : Pt ℝ} (hu : o.1 + (1 / 2 : ℝ) • (o.2.1 - o.1) = u)
    (hv : o.2.1 + (1 / 2 : ℝ) • (o.2.2 - o.2.1) = v) :
    triangleTriangle eps o t =
      .ok (.inl (coplanarSegment eps (keptAxes (cross (t.1 - t.2.1) (t.2.2 - t.2.1))) t u v)) := by
  have sp : ∀ {o : Triangle} {z}, 0 < height o z → signOf (coplanarTest o.1 o.2.1 o.2.2 z) = -1 := by
    intro o z hz
    rw [volume_eq]
    exact if_pos (by linarith)
  have sn : ∀ {o : Triangle} {z}, height o z < 0 → signOf (coplanarTest o.1 o.2.1 o.2.2 z) = 1 := by
    intro o z hz
    rw [volume_eq]
    exact if_neg (by linarith)
  have s1 := sp (o := t) (z := o.1) (by rw [hp]; exact hk)
  have s2 := sn (o := t) (z := o.2.1) (by rw [hq]; linarith)
  have s3 := sp (o := t) (z := o.2.2) (by rw [hr]; exact hk)
  have s4 := sp hx1
  have s5 := sn hy1
  apply tt_segment
  · rw [s1, s2]
    simp
  · rintro ⟨e1, e2⟩
    have e3 : ∀ z ∈ [t.1, t.2.1, t.2.2],
        signOf (coplanarTest o.1 o.2.1 o.2.2 z) = signOf (coplanarTest o.1 o.2.1 o.2.2 t.1) := by
      intro z hz
      simp only [List.mem_cons, List.not_mem_nil, or_false] at hz
      rcases hz with rfl | rfl | rfl
      · rfl
      · exact e1.symm
      · rw [e1, e2]
    have := (e3 x hx).trans (e3 y hy).symm
    rw [s4, s5] at this
    simp at this
  · rw [s1, s2, s3]
    unfold planeSegment
    simp only
    rw [if_pos ⟨trivial, by decide⟩, linePlane_mid (by rw [hp, hq]) (by rw [hp]; exact hk.ne') hu,
      linePlane_mid (by rw [hr, hq]; ring) (by rw [hq]; linarith) hv]

theorem keeps_flat : Keeps (0, 1) (![0, 0, 1] : Pt ℝ) := by
  refine ⟨by decide, fun k h1 h2 => ?_⟩
  fin_cases k
  · exact absurd rfl h1
  · exact absurd rfl h2
  · simp

theorem kept_tri0 : keptAxes (cross (tri0.1 - tri0.2.1) (tri0.2.2 - tri0.2.1)) = (0, 1) := by
  have e : cross (tri0.1 - tri0.2.1) (tri0.2.2 - tri0.2.1) = ![0, 0, -4] := by
    refine pt_ext ?_ ?_ ?_ <;> simp [tri0, cross_eq] <;> norm_num
  rw [e]
  unfold keptAxes
  rw [if_neg (by simp), if_neg (by simp)]

theorem colinear_pos {pos : Fin 3 × Fin 3} {x y z : Pt ℝ} (h : det2 (proj pos (x - z)) (proj pos (y - z)) ≠ 0) :
    0 < colinearTest pos x y z := by
  unfold colinearTest; positivity

/-- C97 violated: a segment through a corner and the opposite side crosses all three sides; three crossings are
taken for none. -/
theorem C97_corner_violated : ∃ o : Triangle, (∃ δ > 0, ∀ eps, 0 < eps → eps < δ →
    triangleTriangle eps o tri0 = .ok (.inl none)) ∧
    segment ℝ ![0, 0, 0] ![1, 1, 0] ⊆ pointsOf o ∩ pointsOf tri0 := by
  have n := keeps_flat
  obtain ⟨δ1, d1, H1⟩ := C52_test_partial (a := ![0, 0, 0]) (b := ![2, 0, 0]) (p := ![-1, -1, 0])
    (q := ![3, 3, 0]) n rfl (by simp [dot]) (by simp [dot]) (by simp [dot])
    (Or.inl (by simp [det2, proj]; norm_num))
  obtain ⟨δ2, d2, H2⟩ := C52_test_partial (a := ![2, 0, 0]) (b := ![0, 2, 0]) (p := ![-1, -1, 0])
    (q := ![3, 3, 0]) n rfl (by simp [dot]) (by simp [dot]) (by simp [dot])
    (Or.inl (by simp [det2, proj]; norm_num))
  obtain ⟨δ3, d3, H3⟩ := C52_test_partial (a := ![0, 2, 0]) (b := ![0, 0, 0]) (p := ![-1, -1, 0])
    (q := ![3, 3, 0]) n rfl (by simp [dot]) (by simp [dot]) (by simp [dot])
    (Or.inl (by simp [det2, proj]; norm_num))
  obtain ⟨δ4, d4, H4⟩ := C62_rejects_partial (a := ![0, 0, 0]) (b := ![2, 0, 0]) (c := ![0, 2, 0])
    (p := ![-1, -1, 0]) n rfl (by simp [dot]) (by simp [dot]) (by simp [dot])
    (by simp [det2, proj]) (by simp [det2, proj]; norm_num) (by simp [det2, proj])
    (by
      rintro ⟨u, v, hu, hv, -, h⟩
      have := congrFun h 0
      simp at this
      linarith)
  obtain ⟨δ5, d5, H5⟩ := C62_rejects_partial (a := ![0, 0, 0]) (b := ![2, 0, 0]) (c := ![0, 2, 0])
    (p := ![3, 3, 0]) n rfl (by simp [dot]) (by simp [dot]) (by simp [dot])
    (by simp [det2, proj]; norm_num) (by simp [det2, proj]; norm_num) (by simp [det2, proj]; norm_num)
    (by
      rintro ⟨u, v, hu, hv, huv, h⟩
      have h0 := congrFun h 0
      have h1 := congrFun h 1
      simp at h0 h1
      linarith)
  have k1 := colinear_pos (pos := (0, 1)) (x := ![0, 0, 0]) (y := ![2, 0, 0]) (z := ![-1, -1, 0])
    (by simp [det2, proj])
  have k2 := colinear_pos (pos := (0, 1)) (x := ![2, 0, 0]) (y := ![0, 2, 0]) (z := ![-1, -1, 0])
    (by simp [det2, proj]; norm_num)
  have k3 := colinear_pos (pos := (0, 1)) (x := ![0, 2, 0]) (y := ![0, 0, 0]) (z := ![-1, -1, 0])
    (by simp [det2, proj])
  refine ⟨(![-3, -3, 1], ![1, 1, -1], ![5, 5, 1]), ⟨min (min (min δ1 (min δ2 δ3)) (min δ4 δ5)) (min _ (min _ _)),
    lt_min (lt_min (lt_min d1 (lt_min d2 d3)) (lt_min d4 d5)) (lt_min k1 (lt_min k2 k3)), fun eps h0 he => ?_⟩, ?_⟩
  · simp only [lt_min_iff] at he
    obtain ⟨⟨⟨e1, e2, e3⟩, e4, e5⟩, e6, e7, e8⟩ := he
    have m : ∀ x : ℝ, ∀ t : ℝ, 0 ≤ t → t ≤ 1 → x = -1 + t * 4 → ![x, x, 0] ∈ segment ℝ (![-1, -1, 0] : Pt ℝ) ![3, 3, 0] := by
      rintro x t t0 t1 rfl
      refine mem_segment_iff.2 ⟨t, t0, t1, ?_⟩
      refine pt_ext ?_ ?_ ?_ <;> simp <;> norm_num
    have m0 := m 0 (1 / 4) (by norm_num) (by norm_num) (by norm_num)
    have m1 := m 1 (1 / 2) (by norm_num) (by norm_num) (by norm_num)
    have r1 := (H1 eps h0 e1).1 ![0, 0, 0] (left_mem_segment ℝ _ _) m0
    have r2 := (H2 eps h0 e2).1 ![1, 1, 0] (mem_segment_iff.2 ⟨1 / 2, by norm_num, by norm_num, by
      refine pt_ext ?_ ?_ ?_ <;> simp <;> norm_num⟩) m1
    have r3 := (H3 eps h0 e3).1 ![0, 0, 0] (right_mem_segment ℝ _ _) m0
    rw [tt_mid (k := 4) (x := ![2, 0, 0]) (y := ![0, 2, 0]) (u := ![-1, -1, 0]) (v := ![3, 3, 0]) (by norm_num)
      (by rw [height_tri0]; simp) (by rw [height_tri0]; simp) (by rw [height_tri0]; simp)
      (by simp [tri0]) (by simp [tri0]) (by simp [height, normalOf, cross_eq, dot]; norm_num)
      (by simp [height, normalOf, cross_eq, dot]; norm_num)
      (by refine pt_ext ?_ ?_ ?_ <;> simp <;> norm_num) (by refine pt_ext ?_ ?_ ?_ <;> simp <;> norm_num),
      kept_tri0, tri0, outside_eq ⟨e6.le, e7.le, e8.le⟩ (H4 eps e4) (H5 eps e5) r1 r2 r3]
    rfl
  · intro x hx
    obtain ⟨t, t0, t1, rfl⟩ := mem_segment_iff.1 hx
    refine ⟨⟨1 / 2, (1 + t) / 8, by norm_num, by linarith, by linarith, ?_⟩,
      ⟨t / 2, t / 2, by linarith, by linarith, by linarith, ?_⟩⟩
    · refine pt_ext ?_ ?_ ?_ <;> simp <;> ring
    · refine pt_ext ?_ ?_ ?_ <;> simp [tri0] <;> ring

/-- C97 violated: where two sides are crossed, the first crossing is compared with (1, 1, 1), which is
`intersections[0] - [1]` under numpy's rules, and not with the second crossing: a common segment
that begins there is missed. -/
theorem C97_one_violated : ∃ o t : Triangle, (∃ δ > 0, ∀ eps, 0 < eps → eps < δ →
    triangleTriangle eps o t = .ok (.inl none)) ∧
    segment ℝ ![1, 1, 1] ![2, 1, 1] ⊆ pointsOf o ∩ pointsOf t := by
  have n := keeps_flat
  obtain ⟨δ1, d1, H1⟩ := C52_test_partial (a := ![1, 2, 1]) (b := ![1, 0, 1]) (p := ![0, 1, 1])
    (q := ![5, 1, 1]) (h := 1) n (by simp [dot]) (by simp [dot]) (by simp [dot]) (by simp [dot])
    (Or.inl (by simp [det2, proj]))
  obtain ⟨δ2, d2, H2⟩ := C52_test_partial (a := ![1, 0, 1]) (b := ![3, 0, 1]) (p := ![0, 1, 1])
    (q := ![5, 1, 1]) (h := 1) n (by simp [dot]) (by simp [dot]) (by simp [dot]) (by simp [dot])
    (Or.inr ⟨by simp [det2, proj]; norm_num, by simp [det2, proj]; norm_num⟩)
  obtain ⟨δ3, d3, H3⟩ := C52_test_partial (a := ![3, 0, 1]) (b := ![1, 2, 1]) (p := ![0, 1, 1])
    (q := ![5, 1, 1]) (h := 1) n (by simp [dot]) (by simp [dot]) (by simp [dot]) (by simp [dot])
    (Or.inl (by simp [det2, proj]))
  obtain ⟨δ4, d4, H4⟩ := C62_rejects_partial (a := ![1, 2, 1]) (b := ![1, 0, 1]) (c := ![3, 0, 1])
    (p := ![0, 1, 1]) (h := 1) n (by simp [dot]) (by simp [dot]) (by simp [dot]) (by simp [dot])
    (by simp [det2, proj]; norm_num) (by simp [det2, proj]; norm_num) (by simp [det2, proj]; norm_num)
    (by
      rintro ⟨u, v, hu, hv, -, h⟩
      have := congrFun h 0
      simp at this
      linarith)
  obtain ⟨δ5, d5, H5⟩ := C62_rejects_partial (a := ![1, 2, 1]) (b := ![1, 0, 1]) (c := ![3, 0, 1])
    (p := ![5, 1, 1]) (h := 1) n (by simp [dot]) (by simp [dot]) (by simp [dot]) (by simp [dot])
    (by simp [det2, proj]; norm_num) (by simp [det2, proj]; norm_num) (by simp [det2, proj]; norm_num)
    (by
      rintro ⟨u, v, hu, hv, huv, h⟩
      have h0 := congrFun h 0
      have h1 := congrFun h 1
      simp at h0 h1
      linarith)
  have k1 := colinear_pos (pos := (0, 1)) (x := ![1, 2, 1]) (y := ![1, 0, 1]) (z := ![0, 1, 1])
    (by simp [det2, proj]; norm_num)
  have k2 := colinear_pos (pos := (0, 1)) (x := ![1, 0, 1]) (y := ![3, 0, 1]) (z := ![0, 1, 1])
    (by simp [det2, proj]; norm_num)
  have k3 := colinear_pos (pos := (0, 1)) (x := ![3, 0, 1]) (y := ![1, 2, 1]) (z := ![0, 1, 1])
    (by simp [det2, proj]; norm_num)
  have ht : ∀ x, height (![1, 2, 1], ![1, 0, 1], ![3, 0, 1]) x = 4 * (x 2 - 1) := by
    intro x
    simp [height, normalOf, cross_eq, dot]
    ring
  have kept : keptAxes (cross ((![1, 2, 1] : Pt ℝ) - ![1, 0, 1]) (![3, 0, 1] - ![1, 0, 1])) = (0, 1) := by
    have e : cross ((![1, 2, 1] : Pt ℝ) - ![1, 0, 1]) (![3, 0, 1] - ![1, 0, 1]) = ![0, 0, -4] := by
      refine pt_ext ?_ ?_ ?_ <;> simp <;> norm_num
    rw [e]
    unfold keptAxes
    rw [if_neg (by simp), if_neg (by simp)]
  refine ⟨(![-3, 1, 2], ![3, 1, 0], ![7, 1, 2]), (![1, 2, 1], ![1, 0, 1], ![3, 0, 1]),
    ⟨min (min (min δ1 (min δ2 δ3)) (min δ4 δ5)) (min _ (min _ _)),
    lt_min (lt_min (lt_min d1 (lt_min d2 d3)) (lt_min d4 d5)) (lt_min k1 (lt_min k2 k3)), fun eps h0 he => ?_⟩, ?_⟩
  · simp only [lt_min_iff] at he
    obtain ⟨⟨⟨e1, e2, e3⟩, e4, e5⟩, e6, e7, e8⟩ := he
    have r1 := (H1 eps h0 e1).1 ![1, 1, 1] (mem_segment_iff.2 ⟨1 / 2, by norm_num, by norm_num, by
      refine pt_ext ?_ ?_ ?_ <;> simp <;> norm_num⟩) (mem_segment_iff.2 ⟨1 / 5, by norm_num, by norm_num, by
      refine pt_ext ?_ ?_ ?_ <;> simp⟩)
    have r2 := (H2 eps h0 e2).2 (by
      rintro x ⟨h1, h2⟩
      obtain ⟨t, -, -, rfl⟩ := mem_segment_iff.1 h1
      obtain ⟨s, -, -, h⟩ := mem_segment_iff.1 h2
      have := congrFun h 1
      simp at this)
    have r3 := (H3 eps h0 e3).1 ![2, 1, 1] (mem_segment_iff.2 ⟨1 / 2, by norm_num, by norm_num, by
      refine pt_ext ?_ ?_ ?_ <;> simp <;> norm_num⟩) (mem_segment_iff.2 ⟨2 / 5, by norm_num, by norm_num, by
      refine pt_ext ?_ ?_ ?_ <;> simp⟩)
    rw [tt_mid (k := 4) (x := ![1, 0, 1]) (y := ![1, 2, 1]) (u := ![0, 1, 1]) (v := ![5, 1, 1]) (by norm_num)
      (by rw [ht]; simp; norm_num) (by rw [ht]; simp) (by rw [ht]; simp; norm_num)
      (by simp) (by simp) (by simp [height, normalOf, dot]; norm_num)
      (by simp [height, normalOf, dot]; norm_num)
      (by refine pt_ext ?_ ?_ ?_ <;> simp <;> norm_num) (by refine pt_ext ?_ ?_ ?_ <;> simp <;> norm_num),
      kept, outside_eq ⟨e6.le, e7.le, e8.le⟩ (H4 eps e4) (H5 eps e5) r1 r2 r3]
    simp only [List.filterMap_cons, List.filterMap_nil, Option.map_some, Option.map_none]
    rw [if_pos (by rw [sub_self]; simpa [norm3] using h0)]
  · intro x hx
    obtain ⟨s, s0, s1, rfl⟩ := mem_segment_iff.1 hx
    refine ⟨⟨1 / 2, (1 + s) / 10, by norm_num, by linarith, by linarith, ?_⟩,
      ⟨1 / 2 - s / 2, s / 2, by linarith, by linarith, by linarith, ?_⟩⟩
    · refine pt_ext ?_ ?_ ?_ <;> simp <;> ring
    · refine pt_ext ?_ ?_ ?_ <;> simp <;> ring

/-- C97 violated: an end of the segment on the extension of a side is taken for a point of the triangle, and
the answer begins there, outside the triangle. -/
theorem C97_extension_violated : ∃ o : Triangle, (∃ δ > 0, ∀ eps, 0 < eps → eps < δ →
    triangleTriangle eps o tri0 = .ok (.inl (some (![3, 0, 0], some ![0, 3 / 2, 0])))) ∧
    ![3, 0, 0] ∉ pointsOf tri0 := by
  have n := keeps_flat
  obtain ⟨δ1, d1, H1⟩ := C52_test_partial (a := ![0, 0, 0]) (b := ![2, 0, 0]) (p := ![3, 0, 0])
    (q := ![-1, 2, 0]) n rfl (by simp [dot]) (by simp [dot]) (by simp [dot])
    (Or.inl (by simp [det2, proj]))
  obtain ⟨δ2, d2, H2⟩ := C52_test_partial (a := ![2, 0, 0]) (b := ![0, 2, 0]) (p := ![3, 0, 0])
    (q := ![-1, 2, 0]) n rfl (by simp [dot]) (by simp [dot]) (by simp [dot])
    (Or.inl (by simp [det2, proj]; norm_num))
  obtain ⟨δ3, d3, H3⟩ := C52_test_partial (a := ![0, 2, 0]) (b := ![0, 0, 0]) (p := ![3, 0, 0])
    (q := ![-1, 2, 0]) n rfl (by simp [dot]) (by simp [dot]) (by simp [dot])
    (Or.inl (by simp [det2, proj]; norm_num))
  obtain ⟨δ5, d5, H5⟩ := C62_rejects_partial (a := ![0, 0, 0]) (b := ![2, 0, 0]) (c := ![0, 2, 0])
    (p := ![-1, 2, 0]) n rfl (by simp [dot]) (by simp [dot]) (by simp [dot])
    (by simp [det2, proj]; norm_num) (by simp [det2, proj]) (by simp [det2, proj])
    (by
      rintro ⟨u, v, hu, hv, huv, h⟩
      have h0 := congrFun h 0
      simp at h0
      linarith)
  have k1 := colinear_pos (pos := (0, 1)) (x := ![0, 0, 0]) (y := ![2, 0, 0]) (z := ![-1, 2, 0])
    (by simp [det2, proj]; norm_num)
  have k2 := colinear_pos (pos := (0, 1)) (x := ![2, 0, 0]) (y := ![0, 2, 0]) (z := ![3, 0, 0])
    (by simp [det2, proj]; norm_num)
  have k3 := colinear_pos (pos := (0, 1)) (x := ![0, 2, 0]) (y := ![0, 0, 0]) (z := ![3, 0, 0])
    (by simp [det2, proj])
  have f : ∀ {x y : Pt ℝ}, x ≠ y → 0 < norm3 (x - y) := by
    intro x y h
    refine lt_of_le_of_ne (norm3_nonneg _) fun h0 => h ?_
    exact sub_eq_zero.1 (norm3_eq_zero.1 h0.symm)
  have k4 : 0 < norm3 ((![3, 0, 0] : Pt ℝ) - ![1, 1, 0]) := f fun h => by
    have := congrFun h 1
    simp at this
  have k5 : 0 < norm3 ((![3, 0, 0] : Pt ℝ) - ![0, 3 / 2, 0]) := f fun h => by
    have := congrFun h 0
    simp at this
  refine ⟨(![5, -1, 1], ![1, 1, -1], ![-3, 3, 1]), ⟨min (min (min δ1 (min δ2 δ3)) δ5)
    (min (min _ (min _ _)) (min _ _)), lt_min (lt_min (lt_min d1 (lt_min d2 d3)) d5)
    (lt_min (lt_min k1 (lt_min k2 k3)) (lt_min k4 k5)), fun eps h0 he => ?_⟩, ?_⟩
  · simp only [lt_min_iff] at he
    obtain ⟨⟨⟨e1, e2, e3⟩, e5⟩, ⟨e6, e7, e8⟩, e9, e10⟩ := he
    have r1 := (H1 eps h0 e1).2 (by
      rintro x ⟨h1, h2⟩
      obtain ⟨t, -, t1, rfl⟩ := mem_segment_iff.1 h1
      obtain ⟨s, -, -, h⟩ := mem_segment_iff.1 h2
      have g0 := congrFun h 0
      have g1 := congrFun h 1
      simp at g0 g1
      rw [g1] at g0
      linarith)
    have r2 := (H2 eps h0 e2).1 ![1, 1, 0] (mem_segment_iff.2 ⟨1 / 2, by norm_num, by norm_num, by
      refine pt_ext ?_ ?_ ?_ <;> simp <;> norm_num⟩) (mem_segment_iff.2 ⟨1 / 2, by norm_num, by norm_num, by
      refine pt_ext ?_ ?_ ?_ <;> simp; norm_num⟩)
    have r3 := (H3 eps h0 e3).1 ![0, 3 / 2, 0] (mem_segment_iff.2 ⟨1 / 4, by norm_num, by norm_num, by
      refine pt_ext ?_ ?_ ?_ <;> simp; norm_num⟩) (mem_segment_iff.2 ⟨3 / 4, by norm_num, by norm_num, by
      refine pt_ext ?_ ?_ ?_ <;> simp <;> norm_num⟩)
    rw [tt_mid (k := 4) (x := ![0, 2, 0]) (y := ![0, 0, 0]) (u := ![3, 0, 0]) (v := ![-1, 2, 0]) (by norm_num)
      (by rw [height_tri0]; simp) (by rw [height_tri0]; simp) (by rw [height_tri0]; simp)
      (by simp [tri0]) (by simp [tri0]) (by simp [height, normalOf, dot]; norm_num)
      (by simp [height, normalOf, dot]; norm_num)
      (by refine pt_ext ?_ ?_ ?_ <;> simp <;> norm_num) (by refine pt_ext ?_ ?_ ?_ <;> simp <;> norm_num),
      kept_tri0]
    have off : ∀ {x y z}, eps < colinearTest (0, 1) x y z → ¬ |colinearTest (0, 1) x y z| < eps := fun h1 =>
      not_lt.2 (h1.le.trans (le_abs_self _))
    have pin : pointInTriangle eps (0, 1) ![0, 0, 0] ![2, 0, 0] ![0, 2, 0] ![3, 0, 0] = true := by
      unfold pointInTriangle
      split
      · rfl
      rw [if_pos]
      left
      simpa [colinearTest, det2, proj] using h0
    unfold coplanarSegment tri0
    simp only
    rw [if_neg fun h => off e6 h.2, if_neg fun h => off e7 h.1, if_neg fun h => off e8 h.1,
      if_neg (by rw [H5 eps e5]; simp), if_neg (by rw [pin]; simp), if_pos pin, r1, r2, r3]
    simp only [lastOther, List.foldl_cons, List.foldl_nil]
    rw [if_neg (not_lt.2 e10.le)]
  · rintro ⟨u, v, hu, hv, huv, h⟩
    have h0 := congrFun h 0
    simp [tri0] at h0
    linarith

/-! ### General position is possible -/

theorem general_example : GeneralPair (![-3, 1 / 2, 1], ![1, 1 / 2, -1], ![5, 1 / 2, 1]) tri0 := by
  have ho : ∀ x, height (![-3, 1 / 2, 1], ![1, 1 / 2, -1], ![5, 1 / 2, 1]) x = -16 * (x 1 - 1 / 2) := by
    intro x
    simp [height, normalOf, cross_eq, dot]
    ring
  refine ⟨?_, ?_, ?_, ?_⟩
  · intro x hx
    simp only [List.mem_cons, List.not_mem_nil, or_false] at hx
    rw [height_tri0]
    rcases hx with rfl | rfl | rfl <;> simp
  · intro x hx
    simp only [tri0, List.mem_cons, List.not_mem_nil, or_false] at hx
    rw [ho]
    rcases hx with rfl | rfl | rfl <;> simp <;> norm_num
  · intro x hx h0
    rw [height_tri0] at h0
    have nz : ∀ {v : Pt ℝ}, v 2 ≠ 0 → v ≠ 0 := fun h e => h (by rw [e]; rfl)
    rcases hx with hx | hx | hx <;> obtain ⟨t, t0, t1, rfl⟩ := mem_segment_iff.1 hx <;> simp at h0
    · have : t = 1 / 2 := by linarith
      subst this
      refine ⟨nz ?_, nz ?_, nz ?_⟩ <;> simp [tri0, cross_eq] <;> norm_num
    · have : t = 1 / 2 := by linarith
      subst this
      refine ⟨nz ?_, nz ?_, nz ?_⟩ <;> simp [tri0, cross_eq] <;> norm_num
  · intro h
    have := height_self h
    rw [ho] at this
    simp at this
    norm_num at this

/-- The hypotheses of `C97_triangles_partial` hold for a triangle that cuts another one. -/
example : ∃ o t : Triangle, GeneralPair o t ∧ (pointsOf o ∩ pointsOf t).Nonempty := by
  refine ⟨_, _, general_example, ![0, 1 / 2, 0], ⟨1 / 2, 1 / 8, by norm_num, by norm_num, by norm_num, ?_⟩,
    ⟨0, 1 / 4, by norm_num, by norm_num, by norm_num, ?_⟩⟩
  · refine pt_ext ?_ ?_ ?_ <;> simp <;> norm_num
  · refine pt_ext ?_ ?_ ?_ <;> simp [tri0] <;> norm_num

/-- The hypotheses of `C97_segment_partial` hold for a segment that cuts two sides. -/
example : General (0, 1) ![0, 0, 0] ![2, 0, 0] ![0, 2, 0] ![-1, 1 / 2, 0] ![3, 1 / 2, 0] ∧
    Keeps (0, 1) (![0, 0, 1] : Pt ℝ) ∧
    det2 (proj (0, 1) ((![2, 0, 0] : Pt ℝ) - ![0, 0, 0])) (proj (0, 1) ((![0, 2, 0] : Pt ℝ) - ![0, 0, 0])) ≠ 0 := by
  refine ⟨⟨?_, ?_, ?_, ?_, ?_, ?_, ?_, ?_, ?_, ?_⟩, keeps_flat, by simp [det2, proj]⟩
  iterate 6 (simp [det2, proj]; try norm_num)
  all_goals
    intro h
    obtain ⟨t, -, -, h⟩ := mem_segment_iff.1 h
    have := congrFun h 1
    norm_num at this

#print axioms C97_segment_partial
#print axioms C97_triangles_partial
#print axioms C97_answers
#print axioms C97_coplanar_violated
#print axioms C97_touching_violated
#print axioms C97_corner_violated
#print axioms C97_one_violated
#print axioms C97_extension_violated

end Verif.Geometry
