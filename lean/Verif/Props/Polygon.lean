/-
C94: the normal of a polygon and the test for convexity.
-/
import Verif.Lemmas.PolygonNormal
import Mathlib.Analysis.Convex.Segment
import Mathlib.Tactic.FinCases
import Mathlib.Tactic.Module

namespace Verif.Polygon
open MeshBuild MeshGraph Trace MeshMetrics Geometry
open scoped Classical

theorem planePoints_plane {rtol atol d : ℝ} {n : Pt ℝ} {points : List (Pt ℝ)} (hl : 3 ≤ points.length)
    (hp : ∀ p ∈ points, dot n p = d) : ∃ t, planePoints rtol atol points = .ok t
      ∧ dot n t.1 = d ∧ dot n t.2.1 = d ∧ dot n t.2.2 = d := by
  unfold planePoints
  simp only
  set dxc := points.map fun p => norm3 (p - mean points) with hdxc
  have hlen : dxc.length = points.length := by simp [hdxc]
  have hne : dxc ≠ [] := by
    intro h
    rw [h] at hlen
    simp at hlen
    omega
  have hmax := argmax_lt hne
  have hmin := argmin_lt hne
  rw [getIdx_some hmax, getIdx_some hmin, Res.bind_ok, Res.bind_ok]
  split
  · rw [getIdx_some (show 0 < points.length by omega), getIdx_some (show 1 < points.length by omega),
      getIdx_some (show 2 < points.length by omega)]
    exact ⟨_, rfl, hp _ (List.getElem_mem _), hp _ (List.getElem_mem _), hp _ (List.getElem_mem _)⟩
  · set red := points.eraseIdx (argmax dxc) with hred
    have hredlen : red.length = points.length - 1 := by
      rw [hred, List.length_eraseIdx_of_lt (by omega)]
    have hredp : ∀ p ∈ red, dot n p = d := fun p h => hp p (List.mem_of_mem_eraseIdx h)
    have hrne : red ≠ [] := by
      intro h
      rw [h] at hredlen
      simp at hredlen
      omega
    have hall : ∀ p ∈ red ++ [mean red], dot n p = d := by
      intro p h
      rcases List.mem_append.1 h with h | h
      · exact hredp p h
      · rw [List.mem_singleton.1 h]
        exact mean_plane hrne hredp
    set dRed := dxc.eraseIdx (argmax dxc) ++ [norm3 (mean (red ++ [mean red]) - mean points)] with hdRed
    have hdl : dRed.length = (red ++ [mean red]).length := by
      rw [hdRed, List.length_append, List.length_append, List.length_eraseIdx_of_lt hmax, hredlen, hlen]
      rfl
    have hdne : dRed ≠ [] := by simp [hdRed]
    have h1 := argmax_lt hdne
    have h2 := argmin_lt hdne
    rw [getIdx_some (show argmax dxc < points.length by omega),
      getIdx_some (show argmax dRed < (red ++ [mean red]).length by omega),
      getIdx_some (show argmin dRed < (red ++ [mean red]).length by omega)]
    exact ⟨_, rfl, hp _ (List.getElem_mem _), hall _ (List.getElem_mem _), hall _ (List.getElem_mem _)⟩

/-- The normal of a polygon in a plane is a unit normal of the plane, or zero. -/
theorem C94_normal_partial (rtol atol : ℝ) {d : ℝ} {n : Pt ℝ} {points : List (Pt ℝ)} (hl : 3 ≤ points.length)
    (hn : n ≠ 0) (hp : ∀ p ∈ points, dot n p = d) :
    ∃ N, polygonNormal rtol atol points = .ok N ∧ (N = 0 ∨ norm3 N = 1 ∧ ∃ c : ℝ, N = c • n) := by
  obtain ⟨t, ht, h0, h1, h2⟩ := planePoints_plane (rtol := rtol) (atol := atol) hl hp
  refine ⟨normalize (cross (t.2.1 - t.1) (t.2.2 - t.1)), ?_, ?_⟩
  · unfold polygonNormal
    rw [ht]
    rfl
  · have e : ∀ a b : Pt ℝ, dot n (a - b) = dot n a - dot n b := by
      intro a b
      simp [dot]
      ring
    by_cases hc : cross (t.2.1 - t.1) (t.2.2 - t.1) = 0
    · rw [hc, normalize_zero]
      exact .inl rfl
    · refine .inr ⟨norm_normalize hc, ?_⟩
      obtain ⟨c, -, hN⟩ := normalize_pos (cross (t.2.1 - t.1) (t.2.2 - t.1))
      rw [hN, cross_parallel hn (by rw [e, h0, h1, sub_self]) (by rw [e, h0, h2, sub_self]), smul_smul]
      exact ⟨_, rfl⟩

/-- How the polygon turns at a vertex, seen from the tip of `n` -/
noncomputable def turn (n : Pt ℝ) (points : List (Pt ℝ)) (i : Nat) : ℝ :=
  dot n (cross (cyclic points (i + 1) - cyclic points i) (cyclic points (i + 2) - cyclic points (i + 1)))

/-- The test asks whether all turns go the same way. -/
theorem C94_turns {rtol atol : ℝ} {points : List (Pt ℝ)} {N : Pt ℝ} (hl : 4 ≤ points.length)
    (hN : polygonNormal rtol atol points = .ok N) :
    convexQ rtol atol points = .ok (decide ((∀ i < points.length, 0 < turn N points i)
      ∨ ∀ i < points.length, turn N points i < 0)) := by
  unfold convexQ
  rw [if_neg (by omega), hN, Res.bind_ok]
  refine congrArg Except.ok ?_
  rw [decide_eq_decide]
  set signs : List ℤ := (List.range points.length).map fun i =>
      (SignType.sign (edgeDirection (cyclic points i) (cyclic points (i + 1)) (cyclic points (i + 2))
        N) : ℤ) with hs
  have hb : ∀ x ∈ signs, -1 ≤ x ∧ x ≤ 1 := by
    intro x hx
    obtain ⟨i, -, rfl⟩ := List.mem_map.1 hx
    generalize SignType.sign (edgeDirection _ _ _ _) = s
    cases s <;> decide
  have hlen : signs.length = points.length := by simp [hs]
  have h1 := sum_signs hb
  have h2 := sum_signs_neg hb
  have e1 : (∀ x ∈ signs, x = 1) ↔ ∀ i < points.length, 0 < turn N points i := by
    simp only [hs, List.forall_mem_map, List.mem_range, sign_edgeDirection]
    refine forall₂_congr fun i _ => ?_
    rw [← sign_eq_one_iff, turn]
    generalize SignType.sign (dot N _) = s
    cases s <;> decide
  have e2 : (∀ x ∈ signs, x = -1) ↔ ∀ i < points.length, turn N points i < 0 := by
    simp only [hs, List.forall_mem_map, List.mem_range, sign_edgeDirection]
    refine forall₂_congr fun i _ => ?_
    rw [← sign_eq_neg_one_iff, turn]
    generalize SignType.sign (dot N _) = s
    cases s <;> decide
  rw [← e1, ← e2, ← h1.2, ← h2.2, hlen, abs_eq (by omega)]

/-- Three points and fewer are convex. -/
theorem C94_small (rtol atol : ℝ) {points : List (Pt ℝ)} (hl : points.length < 4) :
    convexQ rtol atol points = .ok true := if_pos hl

theorem turn_smul (c : ℝ) (n : Pt ℝ) (points : List (Pt ℝ)) (i : Nat) :
    turn (c • n) points i = c * turn n points i := dot_smul_left _ _ _

/-- A polygon is strictly convex: seen from the tip of `n`, every vertex that is not on an edge is to the
left of it. -/
def StrictlyConvex (n : Pt ℝ) (points : List (Pt ℝ)) : Prop :=
  ∀ i < points.length, ∀ j < points.length, j ≠ i → j ≠ (i + 1) % points.length →
    0 < dot n (cross (cyclic points (i + 1) - cyclic points i) (cyclic points j - cyclic points i))

/-- For a strictly convex polygon the test finds out whether the normal was found. -/
theorem C94_convex_partial (rtol atol : ℝ) {d : ℝ} {n : Pt ℝ} {points : List (Pt ℝ)} (hl : 4 ≤ points.length)
    (hp : ∀ p ∈ points, dot n p = d) (hc : StrictlyConvex n points) :
    ∃ N, polygonNormal rtol atol points = .ok N ∧ convexQ rtol atol points = .ok (decide (N ≠ 0)) := by
  have hturn : ∀ i < points.length, 0 < turn n points i := by
    intro i hi
    have := hc i hi ((i + 2) % points.length) (Nat.mod_lt _ (by omega)) ?_ ?_
    · have e : cyclic points ((i + 2) % points.length) = cyclic points (i + 2) := by
        unfold cyclic
        rw [Nat.mod_mod]
      rw [e] at this
      unfold turn
      convert this using 1
      simp only [dot, cross_0, cross_1, cross_2, Pi.sub_apply]
      ring
    · intro h
      rcases Nat.lt_or_ge (i + 2) points.length with hlt | hge
      · rw [Nat.mod_eq_of_lt hlt] at h; omega
      · rw [Nat.mod_eq_sub_mod hge, Nat.mod_eq_of_lt (by omega)] at h; omega
    · intro h
      rcases Nat.lt_or_ge (i + 2) points.length with hlt | hge
      · rw [Nat.mod_eq_of_lt hlt, Nat.mod_eq_of_lt (by omega)] at h; omega
      · rw [Nat.mod_eq_sub_mod hge, Nat.mod_eq_of_lt (by omega)] at h
        rcases Nat.lt_or_ge (i + 1) points.length with hlt | hge
        · rw [Nat.mod_eq_of_lt hlt] at h; omega
        · rw [Nat.mod_eq_sub_mod hge, Nat.mod_eq_of_lt (by omega)] at h; omega
  have hn : n ≠ 0 := by
    rintro rfl
    have := hturn 0 (by omega)
    simp [turn, dot] at this
  obtain ⟨N, hN, h⟩ := C94_normal_partial rtol atol (by omega) hn hp
  refine ⟨N, hN, ?_⟩
  rw [C94_turns hl hN]
  refine congrArg Except.ok (decide_eq_decide.2 ?_)
  constructor
  · rintro h rfl
    rcases h with h | h <;> simpa [turn, dot] using h 0 (by omega)
  · intro h0
    obtain ⟨-, c, rfl⟩ := h.resolve_left h0
    have hc0 : c ≠ 0 := by rintro rfl; simp at h0
    simp only [turn_smul]
    rcases lt_or_gt_of_ne hc0 with hc0 | hc0
    · exact .inr fun i hi => mul_neg_of_neg_of_pos hc0 (hturn i hi)
    · exact .inl fun i hi => mul_pos hc0 (hturn i hi)

/-- A strictly convex polygon whose vertices have the same distance from their mean passes: rectangles and
regular polygons do. -/
theorem C94_equidistant {rtol atol d r : ℝ} {n : Pt ℝ} {points : List (Pt ℝ)} (hr : 0 ≤ rtol) (ha : 0 ≤ atol)
    (hl : 4 ≤ points.length) (hp : ∀ p ∈ points, dot n p = d) (hc : StrictlyConvex n points)
    (hd : ∀ p ∈ points, norm3 (p - mean points) = r) : convexQ rtol atol points = .ok true := by
  obtain ⟨N, hN, h⟩ := C94_convex_partial rtol atol hl hp hc
  rw [h]
  refine congrArg Except.ok (decide_eq_true ?_)
  have hpl : planePoints rtol atol points = .ok (points[0], points[1], points[2]) := by
    unfold planePoints
    have hne : (points.map fun p => norm3 (p - mean points)) ≠ [] := by
      intro h
      rw [List.map_eq_nil_iff.1 h] at hl
      simp at hl
    have h1 := argmax_lt hne
    have h2 := argmin_lt hne
    simp only
    rw [getIdx_some h1, getIdx_some h2, Res.bind_ok, Res.bind_ok, List.getElem_map, List.getElem_map,
      hd _ (List.getElem_mem _), hd _ (List.getElem_mem _), if_pos, getIdx_some (show 0 < points.length by omega),
      getIdx_some (show 1 < points.length by omega), getIdx_some (show 2 < points.length by omega)]
    · rfl
    · unfold IsClose
      rw [sub_self, abs_zero]
      positivity
  rintro rfl
  unfold polygonNormal at hN
  rw [hpl, Res.bind_ok] at hN
  have hN' := Except.ok.inj hN
  have hz : cross (points[1] - points[0]) (points[2] - points[0]) = 0 := by
    by_contra hz
    have := norm_normalize hz
    rw [hN', norm3_zero] at this
    norm_num at this
  have := hc 0 (by omega) 2 (by omega) (by omega) (by rw [Nat.mod_eq_of_lt] <;> omega)
  have e : ∀ i (h : i < points.length), cyclic points i = points[i] := by
    intro i h
    simp [cyclic, Nat.mod_eq_of_lt h, h]
  rw [e 0 (by omega), e (0 + 1) (by omega), e 2 (by omega), hz] at this
  simp [dot] at this

/-- A square -/
noncomputable def square : List (Pt ℝ) := [![1, 1, 0], ![-1, 1, 0], ![-1, -1, 0], ![1, -1, 0]]

example : convexQ (1 / 100000) (1 / 100000000) square = .ok true := by
  have hm : mean square = 0 := by
    funext k
    fin_cases k <;> simp [mean, square]
  refine C94_equidistant (n := ![0, 0, 1]) (d := 0) (r := √2) (by norm_num) (by norm_num) (by simp [square]) ?_ ?_ ?_
  · simp [square, dot]
  · intro i hi j hj h1 h2
    simp only [square, List.length_cons, List.length_nil, Nat.reduceAdd] at hi hj h2
    interval_cases i <;> interval_cases j <;> first | (exfalso; omega) | skip
    all_goals
      simp [cyclic, square, dot]
      try norm_num
  · rw [hm]
    simp [square, norm3]
    norm_num

/-- A quadrilateral that passes has every other vertex strictly on one side of every edge. -/
theorem C94_quadrilateral {rtol atol : ℝ} {points : List (Pt ℝ)} (hl : points.length = 4)
    (h : convexQ rtol atol points = .ok true) : ∃ n : Pt ℝ, StrictlyConvex n points := by
  obtain ⟨N, hN⟩ : ∃ N, polygonNormal rtol atol points = .ok N := by
    unfold convexQ at h
    rw [if_neg (by omega)] at h
    obtain ⟨N, hN, -⟩ := Res.bind_eq_ok.1 h
    exact ⟨N, hN⟩
  rw [C94_turns (by omega) hN] at h
  have h' := of_decide_eq_true (Except.ok.inj h)
  have main : ∀ n, (∀ i < points.length, 0 < turn n points i) → StrictlyConvex n points := by
    intro n ht i hi j hj h1 h2
    rw [hl] at ht hi hj h2
    unfold turn at ht
    have e : ∀ k, cyclic points k = points.getD (k % 4) 0 := fun k => by rw [cyclic, hl]
    simp only [e] at ht ⊢
    have t0 := ht 0 (by omega)
    have t1 := ht 1 (by omega)
    have t2 := ht 2 (by omega)
    have t3 := ht 3 (by omega)
    simp only [Nat.reduceAdd, Nat.reduceMod, dot, cross_0, cross_1, cross_2, Pi.sub_apply] at t0 t1 t2 t3
    interval_cases i <;> interval_cases j <;> first | (exfalso; omega) | skip
    all_goals
      simp only [Nat.reduceAdd, Nat.reduceMod, dot, cross_0, cross_1, cross_2, Pi.sub_apply]
      linarith
  rcases h' with h' | h'
  · exact ⟨N, main N h'⟩
  · refine ⟨(-1 : ℝ) • N, main _ fun i hi => ?_⟩
    rw [turn_smul]
    have := h' i hi
    linarith

/-- Where the normal is zero, the test fails and the first direction is dropped. -/
theorem zero_normal {rtol atol : ℝ} {points : List (Pt ℝ)} (hl : 4 ≤ points.length)
    (hN : polygonNormal rtol atol points = .ok 0) :
    convexQ rtol atol points = .ok false ∧ projectionDirections rtol atol points = .ok [1, 2] := by
  constructor
  · rw [C94_turns hl hN]
    refine congrArg Except.ok (decide_eq_false ?_)
    rintro (h | h) <;> simpa [turn, dot] using h 0 (by omega)
  · unfold projectionDirections
    rw [hN, Res.bind_ok]
    have : argmax [|(0 : Pt ℝ) 0|, |(0 : Pt ℝ) 1|, |(0 : Pt ℝ) 2|] = 0 :=
      argmax_eq (by simp) (by simp) (by simp)
    rw [this]
    rfl

/-- The centre and the distances of a parallelogram -/
theorem parallelogram_mean (a u v : Pt ℝ) :
    mean [a, a + u, a + u + v, a + v] = a + (1 / 2 : ℝ) • (u + v) := by
  funext k
  simp [mean]
  ring

theorem parallelogram_points {rtol atol : ℝ} {a u v : Pt ℝ} (h : norm3 (u - v) < norm3 (u + v))
    (hfar : ¬ IsClose rtol atol (norm3 (u + v) / 2) (norm3 (u - v) / 2))
    (h3 : norm3 (u + v) < 3 * norm3 (u - v)) :
    planePoints rtol atol [a, a + u, a + u + v, a + v]
      = .ok (a, a + u + v, a + (2 / 3 : ℝ) • (u + v)) := by
  have n0 : norm3 (a - (a + (1 / 2 : ℝ) • (u + v))) = norm3 (u + v) / 2 := by
    rw [show a - (a + (1 / 2 : ℝ) • (u + v)) = (-(1 / 2) : ℝ) • (u + v) by module, norm3_smul]
    norm_num
    ring
  have n1 : norm3 (a + u - (a + (1 / 2 : ℝ) • (u + v))) = norm3 (u - v) / 2 := by
    rw [show a + u - (a + (1 / 2 : ℝ) • (u + v)) = (1 / 2 : ℝ) • (u - v) by module, norm3_smul]
    norm_num
    ring
  have n2 : norm3 (a + u + v - (a + (1 / 2 : ℝ) • (u + v))) = norm3 (u + v) / 2 := by
    rw [show a + u + v - (a + (1 / 2 : ℝ) • (u + v)) = (1 / 2 : ℝ) • (u + v) by module, norm3_smul]
    norm_num
    ring
  have n3 : norm3 (a + v - (a + (1 / 2 : ℝ) • (u + v))) = norm3 (u - v) / 2 := by
    rw [show a + v - (a + (1 / 2 : ℝ) • (u + v)) = (-(1 / 2) : ℝ) • (u - v) by module, norm3_smul]
    norm_num
    ring
  have nm : norm3 (a + (2 / 3 : ℝ) • (u + v) - (a + (1 / 2 : ℝ) • (u + v))) = norm3 (u + v) / 6 := by
    rw [show a + (2 / 3 : ℝ) • (u + v) - (a + (1 / 2 : ℝ) • (u + v)) = (1 / 6 : ℝ) • (u + v) by module,
      norm3_smul]
    norm_num
    ring
  have m1 : mean [a + u, a + u + v, a + v] = a + (2 / 3 : ℝ) • (u + v) := by
    funext k
    simp [mean]
    ring
  have m2 : mean ([a + u, a + u + v, a + v] ++ [a + (2 / 3 : ℝ) • (u + v)]) = a + (2 / 3 : ℝ) • (u + v) := by
    funext k
    simp [mean]
    ring
  have hp := norm3_nonneg (u + v)
  have hq := norm3_nonneg (u - v)
  have amax : argmax [norm3 (u + v) / 2, norm3 (u - v) / 2, norm3 (u + v) / 2, norm3 (u - v) / 2] = 0 :=
    argmax_eq (by simp) (by simp; linarith) (by simp)
  have amin : argmin [norm3 (u + v) / 2, norm3 (u - v) / 2, norm3 (u + v) / 2, norm3 (u - v) / 2] = 1 :=
    argmin_eq (by simp) (by simp; linarith) (by
      intro j hj
      obtain rfl : j = 0 := by omega
      simp
      linarith)
  have bmax : argmax [norm3 (u - v) / 2, norm3 (u + v) / 2, norm3 (u - v) / 2, norm3 (u + v) / 6] = 1 :=
    argmax_eq (by simp) (by simp; constructor <;> linarith) (by
      intro j hj
      obtain rfl : j = 0 := by omega
      simp
      linarith)
  have bmin : argmin [norm3 (u - v) / 2, norm3 (u + v) / 2, norm3 (u - v) / 2, norm3 (u + v) / 6] = 3 :=
    argmin_eq (by simp) (by
      intro y hy
      simp only [List.mem_cons, List.not_mem_nil, or_false] at hy
      rcases hy with rfl | rfl | rfl | rfl <;> simp <;> linarith) (by
      intro j hj
      interval_cases j <;> simp <;> linarith)
  unfold planePoints
  simp only [parallelogram_mean, List.map_cons, List.map_nil, n0, n1, n2, n3, amax, amin]
  rw [show getIdx [norm3 (u + v) / 2, norm3 (u - v) / 2, norm3 (u + v) / 2, norm3 (u - v) / 2] 0
      = .ok (norm3 (u + v) / 2) from rfl, Res.bind_ok,
    show getIdx [norm3 (u + v) / 2, norm3 (u - v) / 2, norm3 (u + v) / 2, norm3 (u - v) / 2] 1
      = .ok (norm3 (u - v) / 2) from rfl, Res.bind_ok, if_neg hfar]
  simp only [List.eraseIdx_cons_zero, m1, List.cons_append, List.nil_append] at bmax bmin ⊢
  rw [show mean [a + u, a + u + v, a + v, a + (2 / 3 : ℝ) • (u + v)] = a + (2 / 3 : ℝ) • (u + v) from m2,
    nm, bmax, bmin]
  rfl

/-- A parallelogram whose diagonals have different lengths, one less than three times the other, is strictly
convex, but the three points that should span its plane are all on the longer diagonal.  The normal is zero and
the parallelogram is not convex for the program. -/
theorem C94_parallelogram_violated {rtol atol : ℝ} {a u v : Pt ℝ} (hc : cross u v ≠ 0)
    (h : norm3 (u - v) < norm3 (u + v))
    (hfar : ¬ IsClose rtol atol (norm3 (u + v) / 2) (norm3 (u - v) / 2))
    (h3 : norm3 (u + v) < 3 * norm3 (u - v)) :
    StrictlyConvex (cross u v) [a, a + u, a + u + v, a + v]
    ∧ polygonNormal rtol atol [a, a + u, a + u + v, a + v] = .ok 0
    ∧ convexQ rtol atol [a, a + u, a + u + v, a + v] = .ok false
    ∧ projectionDirections rtol atol [a, a + u, a + u + v, a + v] = .ok [1, 2] := by
  have hN : polygonNormal rtol atol [a, a + u, a + u + v, a + v] = .ok 0 := by
    unfold polygonNormal
    rw [parallelogram_points h hfar h3, Res.bind_ok]
    refine congrArg Except.ok ?_
    have : cross (a + u + v - a) (a + (2 / 3 : ℝ) • (u + v) - a) = 0 := by
      refine pt_ext ?_ ?_ ?_ <;> simp <;> ring
    simp only [this]
    exact normalize_zero
  refine ⟨?_, hN, zero_normal (by simp) hN⟩
  have hpos : 0 < dot (cross u v) (cross u v) :=
    lt_of_le_of_ne (dot_self_nonneg _) fun h => hc (dot_self_eq_zero.1 h.symm)
  simp only [dot, cross_0, cross_1, cross_2] at hpos
  intro i hi j hj h1 h2
  simp only [List.length_cons, List.length_nil, Nat.reduceAdd] at hi hj h2
  interval_cases i <;> interval_cases j <;> first | (exfalso; omega) | skip
  all_goals
    simp [cyclic, dot]
    linarith

/-- A rhombus -/
noncomputable def rhombus : List (Pt ℝ) := [![-2, 0, 0], ![0, -1, 0], ![2, 0, 0], ![0, 1, 0]]

example : convexQ (1 / 100000) (1 / 100000000) rhombus = .ok false := by
  have e : rhombus = [![-2, 0, 0], ![-2, 0, 0] + ![2, -1, 0], ![-2, 0, 0] + ![2, -1, 0] + ![2, 1, 0],
      ![-2, 0, 0] + ![2, 1, 0]] := by
    simp [rhombus]
  have s1 : norm3 ((![2, -1, 0] : Pt ℝ) - ![2, 1, 0]) = 2 := by
    rw [norm3, show ((![2, -1, 0] : Pt ℝ) - ![2, 1, 0]) = ![0, -2, 0] from
      pt_ext (by simp) (by simp; norm_num) (by simp)]
    rw [show ((![0, -2, 0] : Pt ℝ) 0 ^ 2 + (![0, -2, 0] : Pt ℝ) 1 ^ 2 + (![0, -2, 0] : Pt ℝ) 2 ^ 2)
      = 2 ^ 2 by simp, Real.sqrt_sq (by norm_num)]
  have s2 : norm3 ((![2, -1, 0] : Pt ℝ) + ![2, 1, 0]) = 4 := by
    rw [norm3, show ((![2, -1, 0] : Pt ℝ) + ![2, 1, 0]) = ![4, 0, 0] from
      pt_ext (by simp; norm_num) (by simp) (by simp)]
    rw [show ((![4, 0, 0] : Pt ℝ) 0 ^ 2 + (![4, 0, 0] : Pt ℝ) 1 ^ 2 + (![4, 0, 0] : Pt ℝ) 2 ^ 2)
      = 4 ^ 2 by simp, Real.sqrt_sq (by norm_num)]
  rw [e]
  refine (C94_parallelogram_violated ?_ ?_ ?_ ?_).2.2.1
  · intro h
    have := congrFun h 2
    norm_num at this
  · rw [s1, s2]; norm_num
  · rw [s1, s2, IsClose]; norm_num
  · rw [s1, s2]; norm_num

/-- A star with five points -/
noncomputable def star : List (Pt ℝ) := [![0, 2, 0], ![-3, -4, 0], ![4, 3, 0], ![-4, 3, 0], ![3, -4, 0]]

theorem star_normal : polygonNormal (1 / 100000) (1 / 100000000) star = .ok ![0, 0, 1] := by
  have h : planePoints (1 / 100000) (1 / 100000000) star
      = .ok (![-3, -4, 0], ![4, 3, 0], ![3 / 4, 1, 0]) := by
    refine planePoints_eq (c := 0) (m := ![3 / 4, 1, 0]) (red := [![0, 2, 0], ![4, 3, 0], ![-4, 3, 0], ![3, -4, 0]])
      (q := ![0, 2, 0]) (i := 1) (i' := 0) (j := 1) (k := 4) ?_ ?_ ?_ rfl rfl ?_ rfl ?_ ?_ ?_ ?_ rfl rfl
    · funext k
      fin_cases k <;> simp [mean, star] <;> norm_num
    · refine argmax_eq (by simp [squares, star]) ?_ ?_
      · simp [squares, star, dot]; norm_num
      · intro j hj
        interval_cases j
        simp [squares, star, dot]; norm_num
    · refine argmin_eq (by simp [squares, star]) ?_ ?_
      · simp [squares, star, dot]; norm_num
      · intro j hj
        omega
    · have s1 : norm3 ((![-3, -4, 0] : Pt ℝ) - 0) = 5 := by
        rw [norm3, show (((![-3, -4, 0] : Pt ℝ) - 0) 0 ^ 2 + ((![-3, -4, 0] : Pt ℝ) - 0) 1 ^ 2
          + ((![-3, -4, 0] : Pt ℝ) - 0) 2 ^ 2) = 5 ^ 2 by simp; norm_num, Real.sqrt_sq (by norm_num)]
      have s2 : norm3 ((![0, 2, 0] : Pt ℝ) - 0) = 2 := by
        rw [norm3, show (((![0, 2, 0] : Pt ℝ) - 0) 0 ^ 2 + ((![0, 2, 0] : Pt ℝ) - 0) 1 ^ 2
          + ((![0, 2, 0] : Pt ℝ) - 0) 2 ^ 2) = 2 ^ 2 by simp, Real.sqrt_sq (by norm_num)]
      rw [s1, s2, IsClose]
      norm_num
    · funext k
      fin_cases k <;> simp [mean] <;> norm_num
    · funext k
      fin_cases k <;> simp [mean] <;> norm_num
    · refine argmax_eq (by simp [squares]) ?_ ?_
      · simp [squares, dot]; norm_num
      · intro j hj
        interval_cases j
        simp [squares, dot]; norm_num
    · refine argmin_eq (by simp [squares]) ?_ ?_
      · simp [squares, dot]; norm_num
      · intro j hj
        interval_cases j <;> simp [squares, dot] <;> norm_num
  unfold polygonNormal
  rw [h, Res.bind_ok]
  refine congrArg Except.ok ?_
  have e : cross (![4, 3, 0] - ![-3, -4, 0]) (![3 / 4, 1, 0] - ![-3, -4, 0]) = ![0, 0, (35 / 4 : ℝ)] := by
    refine pt_ext ?_ ?_ ?_ <;> simp <;> norm_num
  have s : norm3 (![0, 0, (35 / 4 : ℝ)]) = 35 / 4 := by
    rw [norm3, show ((![0, 0, 35 / 4] : Pt ℝ) 0 ^ 2 + (![0, 0, 35 / 4] : Pt ℝ) 1 ^ 2
      + (![0, 0, 35 / 4] : Pt ℝ) 2 ^ 2) = (35 / 4) ^ 2 by simp, Real.sqrt_sq (by norm_num)]
  simp only [e]
  rw [normalize, s, if_pos (by norm_num)]
  refine pt_ext ?_ ?_ ?_ <;> simp

/-- The star turns the same way at every vertex, so that it passes, although its second and fifth edges
cross. -/
theorem C94_star_violated : convexQ (1 / 100000) (1 / 100000000) star = .ok true
    ∧ (¬ ∃ n, StrictlyConvex n star)
    ∧ (![1, 0, 0] : Pt ℝ) ∈ segment ℝ (![-3, -4, 0] : Pt ℝ) ![4, 3, 0]
    ∧ (![1, 0, 0] : Pt ℝ) ∈ segment ℝ (![3, -4, 0] : Pt ℝ) ![0, 2, 0] := by
  refine ⟨?_, ?_, ⟨3 / 7, 4 / 7, by norm_num, by norm_num, by norm_num, ?_⟩,
    ⟨1 / 3, 2 / 3, by norm_num, by norm_num, by norm_num, ?_⟩⟩
  · rw [C94_turns (by simp [star]) star_normal]
    refine congrArg Except.ok (decide_eq_true (.inl ?_))
    intro i hi
    simp only [star, List.length_cons, List.length_nil, Nat.reduceAdd] at hi
    interval_cases i <;> simp [turn, cyclic, star, dot] <;> norm_num
  · rintro ⟨n, h⟩
    have h1 := h 0 (by simp [star]) 2 (by simp [star]) (by simp) (by simp [star])
    have h2 := h 0 (by simp [star]) 3 (by simp [star]) (by simp) (by simp [star])
    simp [cyclic, star, dot] at h1 h2
    linarith
  · refine pt_ext ?_ ?_ ?_ <;> simp <;> norm_num
  · refine pt_ext ?_ ?_ ?_ <;> simp <;> norm_num

#print axioms C94_normal_partial
#print axioms C94_turns
#print axioms C94_small
#print axioms C94_convex_partial
#print axioms C94_equidistant
#print axioms C94_quadrilateral
#print axioms C94_parallelogram_violated
#print axioms C94_star_violated

end Verif.Polygon
