/-
C52 (the segment test of `TriangleTriangleIntersectionTest`), C62 point-in-triangle test, C63
intersection of a line with a plane.
-/
import Verif.Lemmas.TriangleTest

namespace Verif.Geometry
open Trace MeshMetrics
open scoped Classical

/-! ### C52 -/

/-- C52, segment test, for segments that are not parallel: exactly the common point is returned. -/
theorem C52_test_exact {eps : ℝ} (he : 0 < eps) {pos : Fin 3 × Fin 3} {n : Pt ℝ} (hn : Keeps pos n)
    {h : ℝ} {a b p q : Pt ℝ} (ha : dot n a = h) (hb : dot n b = h) (hp : dot n p = h)
    (hq : dot n q = h)
    (hd : eps ≤ |det2 (proj pos a - proj pos b) (proj pos p - proj pos q)|) :
    (∀ x, x ∈ segment ℝ a b → x ∈ segment ℝ p q →
      lineLineTest eps pos a b p q = some (x, none)) ∧
    ((∀ x, ¬ (x ∈ segment ℝ a b ∧ x ∈ segment ℝ p q)) →
      lineLineTest eps pos a b p q = none) := by
  have hd0 : det2 (proj pos a - proj pos b) (proj pos p - proj pos q) ≠ 0 := by
    intro h0; rw [h0, abs_zero] at hd; linarith
  rw [lineLineTest_cross (not_lt.2 hd)]
  constructor
  · intro x h1 h2
    obtain ⟨t, t0, t1, rfl⟩ := mem_segment_iff.1 h1
    obtain ⟨s, s0, s1, hs⟩ := mem_segment_iff.1 h2
    obtain ⟨e1, e2⟩ := (params_cramer (t := t) (s := s) hd0).1 (by rw [hs]; exact ⟨rfl, rfl⟩)
    rw [← e1, ← e2, if_pos ⟨⟨t0, t1⟩, s0, s1⟩]
  · intro hno
    rw [if_neg]
    rintro ⟨⟨t0, t1⟩, s0, s1⟩
    refine hno _ ⟨mem_segment_iff.2 ⟨_, t0, t1, rfl⟩, ?_⟩
    have := (params_cramer (a := a) (b := b) (p := p) (q := q) hd0).2 ⟨rfl, rfl⟩
    rw [keeps_inj hn ((dot_line ha hb _).trans (dot_line hp hq _).symm) this.1 this.2]
    exact mem_segment_iff.2 ⟨_, s0, s1, rfl⟩

/-- C52, segment test, partial: for segments of a plane that are not on one line, all small
tolerances give exactly the common point. -/
theorem C52_test_partial {pos : Fin 3 × Fin 3} {n : Pt ℝ} (hn : Keeps pos n)
    {h : ℝ} {a b p q : Pt ℝ} (ha : dot n a = h) (hb : dot n b = h) (hp : dot n p = h)
    (hq : dot n q = h)
    (hd : det2 (proj pos a - proj pos b) (proj pos p - proj pos q) ≠ 0 ∨
      (det2 (proj pos (a - p)) (proj pos (b - p)) ≠ 0 ∧
       det2 (proj pos (a - q)) (proj pos (b - q)) ≠ 0)) :
    ∃ δ > 0, ∀ eps, 0 < eps → eps < δ →
      (∀ x, x ∈ segment ℝ a b → x ∈ segment ℝ p q →
        lineLineTest eps pos a b p q = some (x, none)) ∧
      ((∀ x, ¬ (x ∈ segment ℝ a b ∧ x ∈ segment ℝ p q)) →
        lineLineTest eps pos a b p q = none) := by
  by_cases h0 : det2 (proj pos a - proj pos b) (proj pos p - proj pos q) = 0
  · obtain ⟨hdp, hdq⟩ := hd.resolve_left (not_not.2 h0)
    refine ⟨min (colinearTest pos a b p) (colinearTest pos a b q), lt_min ?_ ?_,
      fun eps e0 he => ?_⟩
    · unfold colinearTest; positivity
    · unfold colinearTest; positivity
    have hnone : lineLineTest eps pos a b p q = none := by
      rw [lt_min_iff] at he
      unfold lineLineTest
      rw [if_pos (by rw [h0, abs_zero]; exact e0), if_pos]
      exact ⟨not_lt.2 (he.1.le.trans (le_abs_self _)), not_lt.2 (he.2.le.trans (le_abs_self _))⟩
    refine ⟨fun x h1 h2 => absurd ?_ hdp, fun _ => hnone⟩
    obtain ⟨t, -, -, rfl⟩ := mem_segment_iff.1 h1
    obtain ⟨s, -, -, hs⟩ := mem_segment_iff.1 h2
    have e1 := congrFun hs pos.1
    have e2 := congrFun hs pos.2
    simp only [det2, proj, Prod.fst_sub, Prod.snd_sub, Pi.add_apply, Pi.smul_apply, Pi.sub_apply,
      smul_eq_mul] at *
    linear_combination (-(a pos.2 - b pos.2)) * e1 + (a pos.1 - b pos.1) * e2 - s * h0
  · refine ⟨|det2 (proj pos a - proj pos b) (proj pos p - proj pos q)|, abs_pos.2 h0,
      fun eps e0 he => ?_⟩
    exact C52_test_exact e0 hn ha hb hp hq he.le

/-- The default coordinates keep horizontal planes. -/
theorem keeps_xy : Keeps (0, 1) ![0, 0, 1] := by
  refine ⟨by simp, fun k h1 h2 => ?_⟩
  fin_cases k <;> simp at *

/-- The diagonals of a square. -/
example : lineLineTest (1 / 10 ^ 12) (0, 1) ![0, 0, 0] ![2, 2, 0] ![0, 2, 0] ![2, 0, 0] =
    some (![1, 1, 0], none) := by
  refine (C52_test_exact (by norm_num) keeps_xy (h := 0) (by simp [dot]) (by simp [dot])
    (by simp [dot]) (by simp [dot]) ?_).1 _ (mem_segment_iff.2 ⟨1 / 2, ?_, ?_, ?_⟩)
    (mem_segment_iff.2 ⟨1 / 2, ?_, ?_, ?_⟩)
  · simp [det2, proj]; norm_num
  · norm_num
  · norm_num
  · refine pt_ext ?_ ?_ ?_ <;> simp
  · norm_num
  · norm_num
  · refine pt_ext ?_ ?_ ?_ <;> simp; norm_num

/-- Segments on one line: the test claims that disjoint segments intersect. -/
theorem C52_test_collinear_disjoint {eps : ℝ} (he : 0 < eps) :
    lineLineTest eps (0, 1) ![0, 0, 0] ![1, 0, 0] ![2, 0, 0] ![3, 0, 0] =
      some (![2, 0, 0], some ![3, 0, 0]) ∧
    ∀ x, ¬ (x ∈ segment ℝ (![0, 0, 0] : Pt ℝ) ![1, 0, 0] ∧
      x ∈ segment ℝ (![2, 0, 0] : Pt ℝ) ![3, 0, 0]) := by
  constructor
  · unfold lineLineTest
    rw [if_pos (by simpa [det2, proj] using he), if_neg (by simp [colinearTest, det2, proj, he])]
    simp [proj]
    norm_num
  · rintro x ⟨h1, h2⟩
    obtain ⟨t, t0, t1, rfl⟩ := mem_segment_iff.1 h1
    obtain ⟨s, s0, s1, h⟩ := mem_segment_iff.1 h2
    have := congrFun h 0
    simp at this
    linarith

/-! ### C62 -/

/-- C62.  Every point of the closed triangle is accepted. -/
theorem C62_accepts {eps : ℝ} (he : 0 < eps) (pos : Fin 3 × Fin 3) {a b c p : Pt ℝ}
    (hp : InTriangle p a b c) : pointInTriangle eps pos a b c p = true := by
  obtain ⟨u, v, hu, hv, huv, rfl⟩ := hp
  unfold pointInTriangle
  split
  · rfl
  split
  · rfl
  rename_i hc
  push Not at hc
  simp only [colinearTest, abs_mul, abs_abs] at hc
  have pos2 : ∀ {x : ℝ}, eps ≤ |(1 / 2 : ℝ)| * |x| → x ≠ 0 := by
    rintro x h rfl; simp at h; linarith
  obtain ⟨c1, c2, c3⟩ := hc
  have c1 := pos2 c1
  have c2 := pos2 c2
  refine decide_eq_true ?_
  simp only [det2, proj, Pi.sub_apply, Pi.add_apply, Pi.smul_apply, smul_eq_mul, Prod.fst_sub,
    Prod.snd_sub] at c1 c2 ⊢
  have hD : (c pos.1 - a pos.1) * (b pos.2 - a pos.2) - (b pos.1 - a pos.1) * (c pos.2 - a pos.2)
      ≠ 0 := by
    intro h
    apply c1
    linear_combination -v * h
  have huv1 : u + v ≠ 1 := by
    intro h
    apply c2
    have hv1 : v = 1 - u := by linarith
    subst hv1
    ring
  have hlt : u + v < 1 := lt_of_le_of_ne huv huv1
  have hD2 : ((c pos.1 - a pos.1) * (c pos.1 - a pos.1) + (c pos.2 - a pos.2) * (c pos.2 - a pos.2)) *
      ((b pos.1 - a pos.1) * (b pos.1 - a pos.1) + (b pos.2 - a pos.2) * (b pos.2 - a pos.2)) -
      ((c pos.1 - a pos.1) * (b pos.1 - a pos.1) + (c pos.2 - a pos.2) * (b pos.2 - a pos.2)) *
      ((c pos.1 - a pos.1) * (b pos.1 - a pos.1) + (c pos.2 - a pos.2) * (b pos.2 - a pos.2)) =
      ((c pos.1 - a pos.1) * (b pos.2 - a pos.2) - (b pos.1 - a pos.1) * (c pos.2 - a pos.2)) ^ 2 := by
    ring
  have hD3 : ((c pos.1 - a pos.1) * (b pos.2 - a pos.2) -
      (b pos.1 - a pos.1) * (c pos.2 - a pos.2)) ^ 2 ≠ 0 := pow_ne_zero 2 hD
  rw [hD2]
  refine ⟨hD3, ?_⟩
  have e1 : ∀ y : ℝ, y = v * ((c pos.1 - a pos.1) * (b pos.2 - a pos.2) -
      (b pos.1 - a pos.1) * (c pos.2 - a pos.2)) ^ 2 → y / ((c pos.1 - a pos.1) * (b pos.2 - a pos.2)
      - (b pos.1 - a pos.1) * (c pos.2 - a pos.2)) ^ 2 = v := fun y h => by
    rw [h, mul_div_assoc, div_self hD3, mul_one]
  have e2 : ∀ y : ℝ, y = u * ((c pos.1 - a pos.1) * (b pos.2 - a pos.2) -
      (b pos.1 - a pos.1) * (c pos.2 - a pos.2)) ^ 2 → y / ((c pos.1 - a pos.1) * (b pos.2 - a pos.2)
      - (b pos.1 - a pos.1) * (c pos.2 - a pos.2)) ^ 2 = u := fun y h => by
    rw [h, mul_div_assoc, div_self hD3, mul_one]
  rw [e1 _ (by ring), e2 _ (by ring)]
  exact ⟨hv, hu, by linarith⟩

/-- The point (1/4, 1/2) of the unit triangle. -/
example : pointInTriangle (1 / 10 ^ 12) (0, 1) ![0, 0, 0] ![1, 0, 0] ![0, 1, 0] ![1 / 4, 1 / 2, 0] =
    true := by
  refine C62_accepts (by norm_num) _ ⟨1 / 4, 1 / 2, by norm_num, by norm_num, by norm_num, ?_⟩
  refine pt_ext ?_ ?_ ?_ <;> simp

/-- C62, partial: a point of the plane of the triangle that is outside the triangle and on none of
the lines through its sides is rejected by all small tolerances. -/
theorem C62_rejects_partial {pos : Fin 3 × Fin 3} {n : Pt ℝ} (hn : Keeps pos n) {h : ℝ}
    {a b c p : Pt ℝ} (ha : dot n a = h) (hb : dot n b = h) (hc : dot n c = h) (hp : dot n p = h)
    (hab : det2 (proj pos (a - p)) (proj pos (b - p)) ≠ 0)
    (hbc : det2 (proj pos (b - p)) (proj pos (c - p)) ≠ 0)
    (hca : det2 (proj pos (c - p)) (proj pos (a - p)) ≠ 0) (hout : ¬ InTriangle p a b c) :
    ∃ δ > 0, ∀ eps < δ, pointInTriangle eps pos a b c p = false := by
  have cpos : ∀ {x y : Pt ℝ}, det2 (proj pos (x - p)) (proj pos (y - p)) ≠ 0 →
      0 < colinearTest pos x y p := by
    intro x y h; unfold colinearTest; positivity
  have npos : ∀ {x y : Pt ℝ}, det2 (proj pos (x - p)) (proj pos (y - p)) ≠ 0 →
      0 < norm3 (x - p) := by
    intro x y h
    refine lt_of_le_of_ne (norm3_nonneg _) fun h0 => h ?_
    rw [norm3_eq_zero.1 h0.symm]
    simp [det2, proj]
  refine ⟨min (min (norm3 (a - p)) (min (norm3 (b - p)) (norm3 (c - p))))
    (min (colinearTest pos a b p) (min (colinearTest pos b c p) (colinearTest pos c a p))),
    lt_min (lt_min (npos hab) (lt_min (npos hbc) (npos hca)))
      (lt_min (cpos hab) (lt_min (cpos hbc) (cpos hca))), fun eps he => ?_⟩
  simp only [lt_min_iff] at he
  obtain ⟨⟨n1, n2, n3⟩, m1, m2, m3⟩ := he
  unfold pointInTriangle
  rw [if_neg (by push Not; exact ⟨n1.le, n2.le, n3.le⟩), if_neg (by
    push Not
    exact ⟨m1.le.trans (le_abs_self _), m2.le.trans (le_abs_self _), m3.le.trans (le_abs_self _)⟩)]
  refine decide_eq_false ?_
  rintro ⟨hD, hv, hu, huv⟩
  simp only [proj, Prod.fst_sub, Prod.snd_sub] at hD hv hu huv
  apply hout
  refine ⟨_, _, hu, hv, by rw [add_comm]; exact huv.le, ?_⟩
  have frac : ∀ {D U V x y z w : ℝ}, D ≠ 0 → D * (x - y) = U * z + V * w →
      x = y + U / D * z + V / D * w := by
    intro D U V x y z w h0 h
    field_simp
    linarith
  refine keeps_inj hn ?_ ?_ ?_
  · have : ∀ u v : ℝ, dot n (a + u • (b - a) + v • (c - a)) = h := by
      intro u v
      simp only [dot, Pi.add_apply, Pi.smul_apply, Pi.sub_apply, smul_eq_mul] at *
      linear_combination (1 - u - v) * ha + u * hb + v * hc
    rw [this, hp]
  all_goals
    simp only [Pi.add_apply, Pi.smul_apply, Pi.sub_apply, smul_eq_mul]
    refine frac hD ?_
    ring

/-- The point (1, 2) and the unit triangle. -/
example : ∃ δ > 0, ∀ eps < δ,
    pointInTriangle eps (0, 1) ![0, 0, 0] ![1, 0, 0] ![0, 1, 0] ![1, 2, 0] = false := by
  refine C62_rejects_partial keeps_xy (h := 0) (by simp [dot]) (by simp [dot]) (by simp [dot])
    (by simp [dot]) ?_ ?_ ?_ ?_
  · simp [det2, proj]; try norm_num
  · simp [det2, proj]; try norm_num
  · simp [det2, proj]; try norm_num
  · rintro ⟨u, v, hu, hv, huv, h⟩
    have h0 := congrFun h 0
    have h1 := congrFun h 1
    simp at h0 h1
    linarith

/-- C62 fails on the lines through the sides: a point beyond the end of a side is accepted by every
tolerance. -/
theorem C62_extension_accepted {eps : ℝ} (he : 0 < eps) :
    pointInTriangle eps (0, 1) ![0, 0, 0] ![1, 0, 0] ![0, 1, 0] ![2, 0, 0] = true ∧
    ¬ InTriangle ![2, 0, 0] ![0, 0, 0] ![1, 0, 0] ![0, 1, 0] := by
  constructor
  · unfold pointInTriangle
    split
    · rfl
    rw [if_pos]
    left
    simpa [colinearTest, det2, proj] using he
  · rintro ⟨u, v, hu, hv, huv, h⟩
    have h0 := congrFun h 0
    simp at h0
    linarith

/-! ### C63 -/

/-- C63.  The result is the point of the line through `p` and `q` in the plane, and there is a
result exactly when the line is not parallel to the plane. -/
theorem C63_line_plane (a b c p q : Pt ℝ) :
    (linePlaneIntersection (a, b, c) p q = none ↔
      dot (q - p) (cross (b - a) (c - a)) = 0) ∧
    ∀ x, linePlaneIntersection (a, b, c) p q = some x →
      dot (x - a) (cross (b - a) (c - a)) = 0 ∧ (∃ t : ℝ, x = p + t • (q - p)) ∧
      ∀ s : ℝ, dot (p + s • (q - p) - a) (cross (b - a) (c - a)) = 0 → p + s • (q - p) = x := by
  have e1 : Matrix.det !![1, 1, 1, 1; a 0, b 0, c 0, p 0; a 1, b 1, c 1, p 1;
      a 2, b 2, c 2, p 2] = dot (p - a) (cross (b - a) (c - a)) := by
    rw [Matrix.det_succ_row_zero]
    simp [Fin.sum_univ_succ, Matrix.det_fin_three, Fin.succAbove, dot, Matrix.submatrix]
    ring
  have e2 : Matrix.det !![1, 1, 1, 0; a 0, b 0, c 0, (q - p) 0; a 1, b 1, c 1, (q - p) 1;
      a 2, b 2, c 2, (q - p) 2] = dot (q - p) (cross (b - a) (c - a)) := by
    rw [Matrix.det_succ_row_zero]
    simp [Fin.sum_univ_succ, Matrix.det_fin_three, Fin.succAbove, dot, Matrix.submatrix]
    ring
  have lin : ∀ s : ℝ, dot (p + s • (q - p) - a) (cross (b - a) (c - a)) =
      dot (p - a) (cross (b - a) (c - a)) + s * dot (q - p) (cross (b - a) (c - a)) := by
    intro s
    simp only [dot, Pi.add_apply, Pi.smul_apply, Pi.sub_apply, smul_eq_mul]
    ring
  unfold linePlaneIntersection
  simp only [e1, e2]
  constructor
  · split <;> simp [*]
  · intro x hx
    split at hx
    · cases hx
    · rename_i h0
      cases hx
      refine ⟨?_, ⟨_, rfl⟩, fun s hs => ?_⟩
      · rw [lin]; field_simp; ring
      · rw [lin] at hs
        have : s = -dot (p - a) (cross (b - a) (c - a)) / dot (q - p) (cross (b - a) (c - a)) := by
          rw [eq_div_iff h0]; linarith
        rw [this]

/-- A vertical line through the unit triangle. -/
example : linePlaneIntersection (![0, 0, 0], ![1, 0, 0], ![0, 1, 0]) ![3, 4, -1] ![3, 4, 1] =
    some ![3, 4, 0] := by
  cases h : linePlaneIntersection (![0, 0, 0], ![1, 0, 0], ![0, 1, 0]) ![3, 4, -1] ![3, 4, 1] with
  | none =>
    have := (C63_line_plane _ _ _ _ _).1.1 h
    simp [dot] at this
  | some x =>
    have := ((C63_line_plane _ _ _ _ _).2 x h).2.2 (1 / 2) (by simp [dot]; norm_num)
    rw [← this]
    congr 1
    refine pt_ext ?_ ?_ ?_ <;> simp; norm_num

#print axioms C52_test_exact
#print axioms C52_test_partial
#print axioms C52_test_collinear_disjoint
#print axioms C62_accepts
#print axioms C62_rejects_partial
#print axioms C62_extension_accepted
#print axioms C63_line_plane

end Verif.Geometry
