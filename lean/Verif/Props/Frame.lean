/-
C153: incidence and intersection do not depend on the frame.
-/
import Verif.Lemmas.Frame
import Verif.Lemmas.PointGeometry
import Verif.Props.LineGeometry
import Mathlib.Tactic.NormNum

namespace Verif.Geometry
open MeshBuild MeshGraph Trace MeshMetrics
open scoped Classical

/-! ### Measurements -/

/-- The area that tests collinearity is the same in every frame. -/
theorem C153_colinear (m : Motion) (p a b : Pt ℝ) :
    colinearMeasurement (m.move p) (m.move a) (m.move b) = colinearMeasurement p a b := by
  rw [colinearMeasurement, colinearMeasurement, move_sub, move_sub, turn_cross_norm]

/-- the determinant of the matrix of a motion -/
def Motion.sign (m : Motion) : ℝ := dot (fun k => m.mat k 0) (cross (fun k => m.mat k 1) fun k => m.mat k 2)

/-- Its square is 1. -/
theorem sign_sq (m : Motion) : m.sign ^ 2 = 1 := by
  have h00 := m.orth 0 0
  have h11 := m.orth 1 1
  have h22 := m.orth 2 2
  have h01 := m.orth 0 1
  have h02 := m.orth 0 2
  have h12 := m.orth 1 2
  simp at h00 h11 h22 h01 h02 h12
  -- Gram's determinant
  have gram : m.sign ^ 2 =
      (m.mat 0 0 * m.mat 0 0 + m.mat 1 0 * m.mat 1 0 + m.mat 2 0 * m.mat 2 0) *
        ((m.mat 0 1 * m.mat 0 1 + m.mat 1 1 * m.mat 1 1 + m.mat 2 1 * m.mat 2 1) *
          (m.mat 0 2 * m.mat 0 2 + m.mat 1 2 * m.mat 1 2 + m.mat 2 2 * m.mat 2 2) -
          (m.mat 0 1 * m.mat 0 2 + m.mat 1 1 * m.mat 1 2 + m.mat 2 1 * m.mat 2 2) ^ 2) -
      (m.mat 0 0 * m.mat 0 1 + m.mat 1 0 * m.mat 1 1 + m.mat 2 0 * m.mat 2 1) *
        ((m.mat 0 0 * m.mat 0 1 + m.mat 1 0 * m.mat 1 1 + m.mat 2 0 * m.mat 2 1) *
          (m.mat 0 2 * m.mat 0 2 + m.mat 1 2 * m.mat 1 2 + m.mat 2 2 * m.mat 2 2) -
          (m.mat 0 1 * m.mat 0 2 + m.mat 1 1 * m.mat 1 2 + m.mat 2 1 * m.mat 2 2) *
            (m.mat 0 0 * m.mat 0 2 + m.mat 1 0 * m.mat 1 2 + m.mat 2 0 * m.mat 2 2)) +
      (m.mat 0 0 * m.mat 0 2 + m.mat 1 0 * m.mat 1 2 + m.mat 2 0 * m.mat 2 2) *
        ((m.mat 0 0 * m.mat 0 1 + m.mat 1 0 * m.mat 1 1 + m.mat 2 0 * m.mat 2 1) *
          (m.mat 0 1 * m.mat 0 2 + m.mat 1 1 * m.mat 1 2 + m.mat 2 1 * m.mat 2 2) -
          (m.mat 0 1 * m.mat 0 1 + m.mat 1 1 * m.mat 1 1 + m.mat 2 1 * m.mat 2 1) *
            (m.mat 0 0 * m.mat 0 2 + m.mat 1 0 * m.mat 1 2 + m.mat 2 0 * m.mat 2 2)) := by
    simp only [Motion.sign, dot, cross, Matrix.cons_val_zero, Matrix.cons_val_one, Matrix.cons_val]
    ring
  rw [gram, h00, h11, h22, h01, h02, h12]
  norm_num

/-- The volume that tests coplanarity changes at most its sign. -/
theorem C153_coplanar (m : Motion) (p a b c : Pt ℝ) :
    coplanarMeasurement (m.move p) (m.move a) (m.move b) (m.move c) = m.sign * coplanarMeasurement p a b c ∧
      (m.sign = 1 ∨ m.sign = -1) := by
  constructor
  · rw [coplanarMeasurement_eq, coplanarMeasurement_eq]
    simp only [move_sub]
    simp only [Motion.sign, Motion.turn, dot, cross, Matrix.cons_val_zero, Matrix.cons_val_one, Matrix.cons_val]
    ring
  · have := sign_sq m
    rcases mul_eq_zero.1 (show (m.sign - 1) * (m.sign + 1) = 0 by nlinarith) with h | h
    · exact Or.inl (by linarith)
    · exact Or.inr (by linarith)

/-- So the test of coplanarity has the same answer, for every tolerance. -/
theorem C153_incidence (m : Motion) (p a b c : Pt ℝ) (eps : ℝ) :
    (PointLineIncidence (m.move p) (m.move a) (m.move b) eps ↔ PointLineIncidence p a b eps) ∧
      (PointTriangleIncidence (m.move p) (m.move a) (m.move b) (m.move c) eps ↔ PointTriangleIncidence p a b c eps) := by
  constructor
  · rw [PointLineIncidence, PointLineIncidence, C153_colinear]
  · rw [PointTriangleIncidence, PointTriangleIncidence, (C153_coplanar m p a b c).1, IsClose, IsClose]
    rcases (C153_coplanar m p a b c).2 with h | h
    · rw [h, one_mul]
    · rw [h, sub_zero, sub_zero, neg_one_mul, abs_neg]

/-! ### Intersections -/

/-- Point and segment, without the tolerance that identifies points: the moved input gives the moved result, for every
tolerance of incidence. -/
theorem C153_point_line_partial (m : Motion) (p a b : Pt ℝ) (eps : ℝ) :
    pointLineIntersection 0 (m.move p) (m.move a) (m.move b) eps
      = (pointLineIntersection 0 p a b eps).map m.move := by
  unfold pointLineIntersection
  simp only [close_zero, move_inj, (C153_incidence m _ _ _ 0 _).1, move_sub, turn_norm]
  by_cases h1 : a = p
  · rw [if_pos h1, if_pos h1]; rfl
  rw [if_neg h1, if_neg h1]
  by_cases h2 : b = p
  · rw [if_pos h2, if_pos h2]; rfl
  rw [if_neg h2, if_neg h2]
  by_cases h3 : PointLineIncidence a b p eps
  · rw [if_pos h3, if_pos h3]
    split_ifs <;> rfl
  · rw [if_neg h3, if_neg h3]; rfl

/-- Point and triangle. -/
theorem C153_point_triangle_partial (m : Motion) (p a b c : Pt ℝ) (eps : ℝ) :
    pointTriangleIntersection 0 (m.move p) (m.move a) (m.move b) (m.move c) eps
      = (pointTriangleIntersection 0 p a b c eps).map m.move := by
  unfold pointTriangleIntersection
  simp only [close_zero, move_inj, (C153_incidence m _ _ _ _ _).2, C153_point_line_partial, move_sub, turn_dot]
  by_cases h1 : a = p
  · rw [if_pos h1, if_pos h1]; rfl
  rw [if_neg h1, if_neg h1]
  by_cases h2 : b = p
  · rw [if_pos h2, if_pos h2]; rfl
  rw [if_neg h2, if_neg h2]
  by_cases h3 : c = p
  · rw [if_pos h3, if_pos h3]; rfl
  rw [if_neg h3, if_neg h3]
  by_cases h4 : ¬ PointTriangleIncidence p a b c eps
  · rw [if_pos h4, if_pos h4]; rfl
  rw [if_neg h4, if_neg h4]
  cases pointLineIntersection 0 p a b eps with
  | some x => rfl
  | none =>
    cases pointLineIntersection 0 p b c eps with
    | some x => rfl
    | none =>
      cases pointLineIntersection 0 p c a eps with
      | some x => rfl
      | none =>
        simp only [Option.map_none]
        split_ifs <;> rfl

theorem out_map (m : Motion) (a b c d : Pt ℝ) (eps : ℝ) :
    ((pointsLineIntersection 0 [m.move a, m.move b] (m.move c) (m.move d) eps).1.filterMap Out.toOption
      = ((pointsLineIntersection 0 [a, b] c d eps).1.filterMap Out.toOption).map m.move) ∧
    (pointsLineIntersection 0 [m.move a, m.move b] (m.move c) (m.move d) eps).2
      = (pointsLineIntersection 0 [a, b] c d eps).2 := by
  simp only [pointsLineIntersection, List.map_cons, List.map_nil, C153_point_line_partial]
  cases pointLineIntersection 0 a c d eps <;> cases pointLineIntersection 0 b c d eps <;> exact ⟨rfl, rfl⟩

/-- what a point gives back in a segment without tolerance is the point -/
theorem point_itself {p a b x : Pt ℝ} {eps : ℝ} (h : pointLineIntersection 0 p a b eps = some x) : x = p := by
  unfold pointLineIntersection at h
  simp only [close_zero] at h
  split_ifs at h with h1 h2
  · injection h with h; rw [← h, h1]
  · injection h with h; rw [← h, h2]
  · injection h with h; exact h.symm

theorem assertion_holds (a b c d : Pt ℝ) (eps : ℝ) :
    ∀ x ∈ ((pointsLineIntersection 0 [a, b] c d eps).1.filterMap Out.toOption).zip
      (maskFilter [a, b] (pointsLineIntersection 0 [a, b] c d eps).2), Close (1 / 10 ^ 5) (1 / 10 ^ 8) x.1 x.2 := by
  have self : ∀ x : Pt ℝ, Close (1 / 10 ^ 5) (1 / 10 ^ 8) x x := fun x k =>
    isClose_self (by positivity) (by positivity)
  simp only [pointsLineIntersection, List.map_cons, List.map_nil]
  cases h1 : pointLineIntersection 0 a c d eps with
  | none =>
    cases h2 : pointLineIntersection 0 b c d eps with
    | none => simp [withMask, Out.ofOption, Out.isNotNone]
    | some y =>
      have := point_itself h2
      subst this
      intro x hx
      replace hx : x ∈ [(y, y)] := hx
      rw [List.mem_singleton] at hx
      subst hx
      exact self _
  | some y =>
    have := point_itself h1
    subst this
    cases h2 : pointLineIntersection 0 b c d eps with
    | none =>
      intro x hx
      replace hx : x ∈ [(y, y)] := hx
      rw [List.mem_singleton] at hx
      subst hx
      exact self _
    | some z =>
      have := point_itself h2
      subst this
      intro x hx
      replace hx : x ∈ [(y, y), (z, z)] := hx
      simp only [List.mem_cons, List.not_mem_nil, or_false] at hx
      rcases hx with rfl | rfl <;> exact self _

/-- Two segments, without tolerance in the comparison of points: the moved input gives the moved result. -/
theorem C153_line_line_partial {f : Pt ℝ → Pt ℝ → Pt ℝ → ℝ × ℝ} (hf : IsLstsq f) (m : Motion) (tol : ℝ) (a b c d : Pt ℝ) :
    lineLineIntersection ⟨0, tol⟩ f (m.move a) (m.move b) (m.move c) (m.move d) 0
      = (lineLineIntersection ⟨0, tol⟩ f a b c d 0).map (LineOut.map m.move) := by
  obtain ⟨e1, e2⟩ := out_map m a b c d tol
  have as1 := assertion_holds a b c d tol
  have as2 := assertion_holds (m.move a) (m.move b) (m.move c) (m.move d) tol
  unfold lineLineIntersection
  generalize hP : pointsLineIntersection 0 [m.move a, m.move b] (m.move c) (m.move d) tol = P at e1 e2 as2
  generalize hQ : pointsLineIntersection 0 [a, b] c d tol = Q at e1 e2 as1
  obtain ⟨o, k⟩ := P
  obtain ⟨o', k'⟩ := Q
  simp only at e1 e2 as1 as2
  subst e2
  simp only [hQ]
  rw [e1] at as2 ⊢
  simp only [List.length_map]
  by_cases h1 : 0 < (o'.filterMap Out.toOption).length ∧ k.any id = true
  · rw [if_pos h1, if_pos h1]
    by_cases h2 : (k.filter id).length > 1
    · rw [if_pos h2, if_pos h2]; rfl
    · rw [if_neg h2, if_neg h2, if_pos as1, if_pos as2]; rfl
  · rw [if_neg h1, if_neg h1]
    simp only [move_sub, turn_lstsq hf, close_zero]
    simp only [← move_line, move_inj]
    split_ifs <;> rfl

/-- Many segments with one. -/
theorem C153_lines_line_partial {f : Pt ℝ → Pt ℝ → Pt ℝ → ℝ × ℝ} (hf : IsLstsq f) (m : Motion) (tol : ℝ) (lines : List Line)
    (a b : Pt ℝ) :
    linesLineIntersection ⟨0, tol⟩ f (lines.map fun l => (m.move l.1, m.move l.2)) (m.move a) (m.move b) 0
      = (linesLineIntersection ⟨0, tol⟩ f lines a b 0).map (List.map (List.map m.move)) := by
  have hcol : ∀ rs : List LineOut, linesLineIntersection.collect (rs.map (LineOut.map m.move))
      = (linesLineIntersection.collect rs).map (List.map (List.map m.move)) := by
    intro rs
    induction rs with
    | nil => rfl
    | cons r rs ih =>
      cases r with
      | none => exact ih
      | points l =>
        show (do let ls ← linesLineIntersection.collect (rs.map (LineOut.map m.move)); pure (l.map m.move :: ls)) = _
        rw [ih]
        show _ = ((do let ls ← linesLineIntersection.collect rs; pure (l :: ls)) : Res _).map _
        cases linesLineIntersection.collect rs <;> rfl
      | both => rfl
  have hmap : mapRes (fun (l : Line) => lineLineIntersection ⟨0, tol⟩ f l.1 l.2 (m.move a) (m.move b) 0)
      (lines.map fun l => (m.move l.1, m.move l.2))
      = (mapRes (fun (l : Line) => lineLineIntersection ⟨0, tol⟩ f l.1 l.2 a b 0) lines).map
        (List.map (LineOut.map m.move)) := by
    induction lines with
    | nil => rfl
    | cons l ls ih =>
      simp only [List.map_cons, mapRes]
      rw [C153_line_line_partial hf, ih]
      cases lineLineIntersection ⟨0, tol⟩ f l.1 l.2 a b 0 with
      | error e => rfl
      | ok r => cases mapRes (fun (l : Line) => lineLineIntersection ⟨0, tol⟩ f l.1 l.2 a b 0) ls <;> rfl
  unfold linesLineIntersection
  rw [hmap]
  cases mapRes (fun (l : Line) => lineLineIntersection ⟨0, tol⟩ f l.1 l.2 a b 0) lines with
  | error e => rfl
  | ok rs => exact hcol rs

/-- tests/test_geometry/operations/test_line_geometry_operations_intersection.py:48-68 in every frame: the diagonals
meet in the moved centre. -/
theorem C153_test_diagonals {f : Pt ℝ → Pt ℝ → Pt ℝ → ℝ × ℝ} (hf : IsLstsq f) (m : Motion) :
    lineLineIntersection ⟨0, 0⟩ f (m.move ![0, 0, 0]) (m.move ![1, 1, 1]) (m.move ![1, 0, 0]) (m.move ![0, 1, 1]) 0
      = .ok (.points [m.move ![1 / 2, 1 / 2, 1 / 2]]) := by
  have base : lineLineIntersection ⟨0, 0⟩ f ![0, 0, 0] ![1, 1, 1] ![1, 0, 0] ![0, 1, 1] 0
      = .ok (.points [![1 / 2, 1 / 2, 1 / 2]]) := by
    refine (C52_exact hf fun h => ?_).1 _ (mem_segment_iff.2 ⟨1 / 2, ?_, ?_, ?_⟩)
      (mem_segment_iff.2 ⟨1 / 2, ?_, ?_, ?_⟩)
    · have := congrFun h 1
      simp [cross] at this
      norm_num at this
    · norm_num
    · norm_num
    · funext k
      match k with
      | 0 => simp
      | 1 => simp
      | 2 => simp
    · norm_num
    · norm_num
    · funext k
      match k with
      | 0 => simp; norm_num
      | 1 => simp
      | 2 => simp
  rw [C153_line_line_partial hf, base]
  rfl

/-! ### Triangles and polygons -/

theorem turn_volume (m : Motion) (u v w : Pt ℝ) :
    dot (cross (m.turn u) (m.turn v)) (m.turn w) = m.sign * dot (cross u v) w := by
  simp only [Motion.sign, Motion.turn, dot, cross, Matrix.cons_val_zero, Matrix.cons_val_one, Matrix.cons_val]
  ring

/-- The test whether a segment meets the plane of a triangle, for every tolerance. -/
theorem C153_line_triangle_incidence (m : Motion) (p q a b c : Pt ℝ) (eps : ℝ) :
    LineTriangleIncidence (m.move p) (m.move q) (m.move a) (m.move b) (m.move c) eps
      ↔ LineTriangleIncidence p q a b c eps := by
  unfold LineTriangleIncidence
  simp only [(C153_coplanar m _ a b c).1]
  rcases (C153_coplanar m p a b c).2 with h | h
  · simp only [h, one_mul]
  · have hc : ∀ x : ℝ, IsClose eps eps (-x) 0 ↔ IsClose eps eps x 0 := by
      intro x
      rw [IsClose, IsClose, sub_zero, sub_zero, abs_neg]
    simp only [h, neg_one_mul, hc, neg_lt_zero, gt_iff_lt, neg_pos]
    tauto

/-- Segment and triangle, without tolerance: the moved input gives the moved points, if `dedup` only removes points that
are there already. -/
theorem C153_line_triangle_partial {f : Pt ℝ → Pt ℝ → Pt ℝ → ℝ × ℝ} (hf : IsLstsq f) (m : Motion) (tol : ℝ)
    {dedup : List (Pt ℝ) → List (Pt ℝ)} (hd : ∀ l x, x ∈ dedup l ↔ x ∈ l) (p q a b c : Pt ℝ) :
    Alike m.move (lineTriangleIntersection ⟨0, tol⟩ f dedup (p, q) a b c 0)
      (lineTriangleIntersection ⟨0, tol⟩ f dedup (m.move p, m.move q) (m.move a) (m.move b) (m.move c) 0) := by
  have hl := C153_lines_line_partial hf m tol [(a, b), (b, c), (c, a)] p q
  simp only [List.map_cons, List.map_nil] at hl
  have hsame : ∀ x : Pt ℝ, Alike m.move (.ok (.array [x])) (.ok (.array [m.move x])) := by
    intro x y
    simp [eq_comm]
  unfold lineTriangleIntersection
  simp only [C153_line_triangle_incidence, C153_point_triangle_partial, Option.isSome_map, hl]
  by_cases h1 : ¬ LineTriangleIncidence p q a b c 0
  · rw [if_pos h1, if_pos h1]; trivial
  rw [if_neg h1, if_neg h1]
  by_cases h2 : (pointTriangleIntersection 0 p a b c 0).isSome = true ∧ (pointTriangleIntersection 0 q a b c 0).isSome = true
  · rw [if_pos h2, if_pos h2]
    intro y
    simp [eq_comm]
  rw [if_neg h2, if_neg h2]
  cases linesLineIntersection ⟨0, tol⟩ f [(a, b), (b, c), (c, a)] p q 0 with
  | error e => exact rfl
  | ok out =>
    simp only [Except.map, bind, Except.bind, pure, Except.pure, List.length_map]
    by_cases h3 : out.length ≠ 0
    · rw [if_pos h3, if_pos h3]
      intro y
      rw [hd]
      simp only [hd, List.mem_flatten, List.mem_map]
      constructor
      · rintro ⟨l, ⟨l', hl', rfl⟩, hy⟩
        obtain ⟨x, hx, rfl⟩ := List.mem_map.1 hy
        exact ⟨x, ⟨l', hl', hx⟩, rfl⟩
      · rintro ⟨x, ⟨l', hl', hx⟩, rfl⟩
        exact ⟨_, ⟨l', hl', rfl⟩, List.mem_map_of_mem hx⟩
    rw [if_neg h3, if_neg h3]
    by_cases h4 : (pointTriangleIntersection 0 p a b c 0).isSome = true
    · rw [if_pos h4, if_pos h4]; exact hsame p
    rw [if_neg h4, if_neg h4]
    by_cases h5 : (pointTriangleIntersection 0 q a b c 0).isSome = true
    · rw [if_pos h5, if_pos h5]; exact hsame q
    rw [if_neg h5, if_neg h5]
    simp only [move_sub, turn_volume, isClose_zero]
    have hs : m.sign ≠ 0 := by
      rcases (C153_coplanar m p a b c).2 with h | h <;> rw [h] <;> norm_num
    simp only [mul_eq_zero, hs, false_or, mul_div_mul_left _ _ hs, ← move_line, C153_point_triangle_partial]
    by_cases h6 : dot (cross (b - a) (c - a)) (q - p) = 0
    · rw [if_pos h6, if_pos h6]; trivial
    rw [if_neg h6, if_neg h6]
    by_cases h7 : dot (cross (b - a) (c - a)) (a - p) / dot (cross (b - a) (c - a)) (q - p) < 0 ∨
        dot (cross (b - a) (c - a)) (a - p) / dot (cross (b - a) (c - a)) (q - p) > 1
    · rw [if_pos h7, if_pos h7]; trivial
    rw [if_neg h7, if_neg h7]
    cases pointTriangleIntersection 0
        (p + (dot (cross (b - a) (c - a)) (a - p) / dot (cross (b - a) (c - a)) (q - p)) • (q - p)) a b c 0 with
    | none => trivial
    | some x => exact hsame x

/-- the motion of triangles -/
def Motion.tri (m : Motion) (t : Triangle) : Triangle := (m.move t.1, m.move t.2.1, m.move t.2.2)

theorem move_mean (m : Motion) {points : List (Pt ℝ)} (h : points ≠ []) :
    (fun k => ((points.map m.move).map (· k)).sum / ((points.map m.move).length : ℝ))
      = m.move fun k => (points.map (· k)).sum / (points.length : ℝ) := by
  have hn : (points.length : ℝ) ≠ 0 := by
    simpa using h
  have key : ∀ k, ((points.map m.move).map (· k)).sum = m.mat k 0 * (points.map (· 0)).sum
      + m.mat k 1 * (points.map (· 1)).sum + m.mat k 2 * (points.map (· 2)).sum + points.length * m.shift k := by
    intro k
    induction points with
    | nil => exact absurd rfl h
    | cons p ps ih =>
      by_cases hp : ps = []
      · subst hp
        simp [Motion.move, Motion.turn]
      · have := ih hp (by simpa using hp)
        simp only [List.map_cons, List.sum_cons, List.length_cons, Nat.cast_add, Nat.cast_one] at this ⊢
        rw [this]
        simp only [Motion.move, Motion.turn, Pi.add_apply]
        ring
  funext k
  rw [List.length_map, key]
  simp only [Motion.move, Motion.turn, Pi.add_apply]
  field_simp

/-- The triangles of a convex polygon move with it. -/
theorem C153_triangulate (m : Motion) (points : List (Pt ℝ)) :
    triangulateConvexPolygon (points.map m.move) = (triangulateConvexPolygon points).map (List.map m.tri) := by
  unfold triangulateConvexPolygon
  rw [List.length_map]
  by_cases h : points.length < 3
  · rw [if_pos h, if_pos h]; rfl
  rw [if_neg h, if_neg h]
  have hne : points ≠ [] := by rintro rfl; exact h (by decide)
  have hm := move_mean m hne
  rw [List.length_map] at hm
  rw [hm]
  have hget : ∀ i, getIdx (points.map m.move) i = (getIdx points i).map m.move := by
    intro i
    simp only [getIdx, List.getElem?_map]
    cases points[i]? <;> rfl
  have hmap : ∀ (xc : Pt ℝ) (l : List Nat), mapRes (fun i => do
      let v1 ← getIdx (points.map m.move) i
      let v2 ← getIdx (points.map m.move) (i + 1)
      pure (m.move xc, v1, v2)) l
      = (mapRes (fun i => do
        let v1 ← getIdx points i
        let v2 ← getIdx points (i + 1)
        pure (xc, v1, v2)) l).map (List.map m.tri) := by
    intro xc l
    induction l with
    | nil => rfl
    | cons i l ih =>
      simp only [mapRes]
      rw [ih, hget, hget]
      cases getIdx points i with
      | error e => rfl
      | ok v1 =>
        cases getIdx points (i + 1) with
        | error e => rfl
        | ok v2 =>
          simp only [Except.map, bind, Except.bind, pure, Except.pure]
          generalize mapRes _ l = r
          cases r <;> rfl
  dsimp only
  rw [hmap, hget, hget]
  generalize mapRes _ (List.range (points.length - 1)) = r
  cases r with
  | error e => rfl
  | ok first =>
    cases getIdx points (points.length - 1) with
    | error e => rfl
    | ok v1 =>
      cases getIdx points 0 with
      | error e => rfl
      | ok v2 =>
        simp only [Except.map, bind, Except.bind, pure, Except.pure, List.map_append]
        rfl

/-- Point and convex polygon. -/
theorem C153_point_polygon_partial (m : Motion) (p : Pt ℝ) (polygon : List (Pt ℝ)) (eps : ℝ) :
    pointPolygonIntersection 0 triangulateConvexPolygon (m.move p) (polygon.map m.move) eps
      = (pointPolygonIntersection 0 triangulateConvexPolygon p polygon eps).map (Option.map m.move) := by
  unfold pointPolygonIntersection
  rw [C153_triangulate]
  cases triangulateConvexPolygon polygon with
  | error e => rfl
  | ok ts =>
    simp only [Except.map, bind, Except.bind, pure, Except.pure, List.map_map]
    have : ((fun t : Triangle => pointTriangleIntersection 0 (m.move p) t.1 t.2.1 t.2.2 eps) ∘ m.tri)
        = fun t => (pointTriangleIntersection 0 p t.1 t.2.1 t.2.2 eps).map m.move := by
      funext t
      exact C153_point_triangle_partial m p t.1 t.2.1 t.2.2 eps
    rw [this]
    simp only [List.any_map]
    have hany : (Option.isSome ∘ fun t : Triangle => (pointTriangleIntersection 0 p t.1 t.2.1 t.2.2 eps).map m.move)
        = (Option.isSome ∘ fun t : Triangle => pointTriangleIntersection 0 p t.1 t.2.1 t.2.2 eps) := by
      funext t
      simp
    rw [hany]
    congr 1
    split_ifs <;> rfl

/-! ### What the tolerances do -/

/-- With the tolerance of the code two points at distance 1 are the same far from the origin: a point off the segment is
found on it after a shift. -/
theorem C153_point_line_violated :
    let tol : ℝ := 1 / 10 ^ 10
    let m := shifting ![10 ^ 10, 10 ^ 10, 10 ^ 10]
    pointLineIntersection tol ![0, 1, 0] ![0, 0, 0] ![2, 0, 0] tol = none ∧
      pointLineIntersection tol (m.move ![0, 1, 0]) (m.move ![0, 0, 0]) (m.move ![2, 0, 0]) tol
        = some (m.move ![0, 0, 0]) := by
  intro tol m
  constructor
  · unfold pointLineIntersection
    rw [if_neg, if_neg, if_neg]
    · intro h
      rw [PointLineIncidence, IsClose, colinearMeasurement, norm3] at h
      simp [cross, tol] at h
      norm_num at h
    · intro h
      have := h 0
      simp [IsClose, tol] at this
      norm_num at this
    · intro h
      have := h 1
      simp [IsClose, tol] at this
      norm_num at this
  · unfold pointLineIntersection
    rw [if_pos]
    intro k
    match k with
    | 0 => simp [IsClose, m, tol, shifting, Motion.move, Motion.turn]; positivity
    | 1 => simp [IsClose, m, tol, shifting, Motion.move, Motion.turn]; norm_num
    | 2 => simp [IsClose, m, tol, shifting, Motion.move, Motion.turn]; positivity

/-- So two segments that do not meet are found to meet after a shift. -/
theorem C153_line_line_violated {f : Pt ℝ → Pt ℝ → Pt ℝ → ℝ × ℝ} (hf : IsLstsq f) :
    let tol : ℝ := 1 / 10 ^ 10
    let m := shifting ![0, 0, 10 ^ 10]
    lineLineIntersection ⟨tol, tol⟩ f ![0, 0, 1] ![0, 0, 2] ![0, 0, 0] ![1, 0, 0] tol = .ok .none ∧
      lineLineIntersection ⟨tol, tol⟩ f (m.move ![0, 0, 1]) (m.move ![0, 0, 2]) (m.move ![0, 0, 0]) (m.move ![1, 0, 0]) tol
        = .ok (.points [m.move ![0, 0, 0]]) := by
  intro tol m
  have off : ∀ z : ℝ, 1 ≤ z → pointLineIntersection tol ![0, 0, z] ![0, 0, 0] ![1, 0, 0] tol = none := by
    intro z hz
    unfold pointLineIntersection
    rw [if_neg, if_neg, if_neg]
    · intro h
      rw [PointLineIncidence, IsClose, colinearMeasurement, norm3] at h
      simp [cross, tol] at h
      rw [Real.sqrt_sq (by linarith), abs_of_nonneg (by linarith)] at h
      norm_num at h
      linarith
    · intro h
      have := h 0
      simp [IsClose, tol] at this
      norm_num at this
    · intro h
      have := h 2
      simp [IsClose, tol] at this
      rw [abs_of_nonneg (by linarith)] at this
      norm_num at this
      linarith
  constructor
  · unfold lineLineIntersection
    have e : pointsLineIntersection tol [![0, 0, 1], ![0, 0, 2]] ![0, 0, 0] ![1, 0, 0] tol = ([], [false, false]) := by
      simp only [pointsLineIntersection, List.map_cons, List.map_nil]
      rw [off 1 (by norm_num), off 2 (by norm_num)]
      rfl
    simp only [e]
    rw [if_neg (by simp)]
    have sol : (-1 : ℝ) • ((![0, 0, 2] : Pt ℝ) - ![0, 0, 1]) - (0 : ℝ) • ((![1, 0, 0] : Pt ℝ) - ![0, 0, 0])
        = ![0, 0, 0] - ![0, 0, 1] := by
      funext k
      match k with
      | 0 => simp
      | 1 => simp
      | 2 => simp; norm_num
    have np : NotParallel ((![0, 0, 2] : Pt ℝ) - ![0, 0, 1]) ((![1, 0, 0] : Pt ℝ) - ![0, 0, 0]) := by
      intro h
      have := congrFun h 1
      simp [cross] at this
      norm_num at this
    obtain ⟨ht, hs⟩ := params_unique np ((lstsq_solves hf sol).trans sol.symm)
    rw [if_neg]
    rintro ⟨-, ⟨h, -⟩, -⟩
    rw [ht] at h
    rcases h with h | h
    · norm_num at h
    · simp [IsClose, tol] at h
      norm_num at h
  · have e : pointsLineIntersection tol [m.move ![0, 0, 1], m.move ![0, 0, 2]] (m.move ![0, 0, 0]) (m.move ![1, 0, 0]) tol
        = ([.array (m.move ![0, 0, 0])], [true, false]) := by
      have h1 : pointLineIntersection tol (m.move ![0, 0, 1]) (m.move ![0, 0, 0]) (m.move ![1, 0, 0]) tol
          = some (m.move ![0, 0, 0]) := by
        unfold pointLineIntersection
        rw [if_pos]
        intro k
        match k with
        | 0 => simp [IsClose, m, tol, shifting, Motion.move, Motion.turn]
        | 1 => simp [IsClose, m, tol, shifting, Motion.move, Motion.turn]
        | 2 => simp [IsClose, m, tol, shifting, Motion.move, Motion.turn]; norm_num
      have h2 : pointLineIntersection tol (m.move ![0, 0, 2]) (m.move ![0, 0, 0]) (m.move ![1, 0, 0]) tol = none := by
        unfold pointLineIntersection
        rw [if_neg, if_neg, if_neg]
        · rw [(C153_incidence m _ _ _ 0 _).1]
          intro h
          rw [PointLineIncidence, IsClose, colinearMeasurement, norm3] at h
          simp [cross, tol] at h
          norm_num at h
        · intro h
          have := h 0
          simp [IsClose, m, tol, shifting, Motion.move, Motion.turn] at this
          norm_num at this
        · intro h
          have := h 2
          simp [IsClose, m, tol, shifting, Motion.move, Motion.turn] at this
          norm_num at this
      simp only [pointsLineIntersection, List.map_cons, List.map_nil]
      rw [h1, h2]
      rfl
    unfold lineLineIntersection
    simp only [e]
    rw [if_pos (by decide), if_neg (by decide), if_pos]
    · rfl
    · intro x hx
      replace hx : x ∈ [(m.move ![0, 0, 0], m.move ![0, 0, 1])] := hx
      rw [List.mem_singleton] at hx
      subst hx
      intro k
      match k with
      | 0 => simp [IsClose, m, shifting, Motion.move, Motion.turn]
      | 1 => simp [IsClose, m, shifting, Motion.move, Motion.turn]
      | 2 => simp [IsClose, m, shifting, Motion.move, Motion.turn]; norm_num

/-- A quarter turn about the third axis with a shift is a motion. -/
example : ∃ m : Motion, m.move ![1, 0, 0] = ![1, 3, 3] ∧ m.move ![0, 1, 0] = ![0, 2, 3] := by
  refine ⟨⟨fun i j => (![![0, -1, 0], ![1, 0, 0], ![0, 0, 1]] : Fin 3 → Fin 3 → ℝ) i j, ![1, 2, 3], ?_⟩, ?_, ?_⟩
  · intro i j
    match i, j with
    | 0, 0 => simp
    | 0, 1 => simp
    | 0, 2 => simp
    | 1, 0 => simp
    | 1, 1 => simp
    | 1, 2 => simp
    | 2, 0 => simp
    | 2, 1 => simp
    | 2, 2 => simp
  · funext k
    match k with
    | 0 => simp [Motion.move, Motion.turn]
    | 1 => simp [Motion.move, Motion.turn]; norm_num
    | 2 => simp [Motion.move, Motion.turn]
  · funext k
    match k with
    | 0 => simp [Motion.move, Motion.turn]
    | 1 => simp [Motion.move, Motion.turn]
    | 2 => simp [Motion.move, Motion.turn]

/-- A function that keeps the points exists, and the relation tells results apart. -/
example : (∃ dedup : List (Pt ℝ) → List (Pt ℝ), ∀ l x, x ∈ dedup l ↔ x ∈ l)
    ∧ ∀ m : Motion, ¬ Alike m.move (.ok .none) (.ok (.array [0]))
      ∧ ¬ Alike m.move (.ok (.array [])) (.ok (.array [0])) :=
  ⟨⟨id, fun _ _ => Iff.rfl⟩, fun _ => ⟨id, fun h => by simpa using (h 0).1 (by simp)⟩⟩

#print axioms C153_colinear
#print axioms C153_coplanar
#print axioms C153_incidence
#print axioms C153_point_line_partial
#print axioms C153_point_triangle_partial
#print axioms C153_line_line_partial
#print axioms C153_lines_line_partial
#print axioms C153_test_diagonals
#print axioms C153_point_line_violated
#print axioms C153_line_line_violated

#print axioms C153_line_triangle_incidence
#print axioms C153_line_triangle_partial
#print axioms C153_triangulate
#print axioms C153_point_polygon_partial

end Verif.Geometry
