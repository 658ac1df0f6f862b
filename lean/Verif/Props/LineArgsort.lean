/-
C150: sorting points along a segment, and the tests of points and lines.
-/
import Mathlib.Tactic.Linarith
import Mathlib.Tactic.Ring
import Mathlib.Tactic.NormNum
import Mathlib.Analysis.Real.Sqrt
import Verif.Lemmas.Vec
import Verif.Spec.LineArgsort

namespace Verif.Geometry
open MeshBuild MeshGraph Trace MeshMetrics

variable {argsort : List ℝ → List Nat}

theorem norm3_onLine_start (a b : Pt ℝ) (t : ℝ) : norm3 (onLine a b t - a) = |t| * norm3 (b - a) := by
  rw [← norm3_smul]
  congr 1
  funext k
  simp [onLine]

theorem norm3_onLine_end (a b : Pt ℝ) (t : ℝ) : norm3 (onLine a b t - b) = |1 - t| * norm3 (b - a) := by
  rw [← norm3_smul, norm3_sub_comm]
  congr 1
  funext k
  simp [onLine]
  ring

theorem arranges_of (ha : Fracture.IsArgsort argsort) {R : ℝ → ℝ → Prop} {ts : List ℝ} {f : ℝ → ℝ}
    (h : ∀ x ∈ ts, ∀ y ∈ ts, f x ≤ f y → R x y) : Arranges R ts (argsort (ts.map f)) := by
  obtain ⟨h1, h2⟩ := ha (ts.map f)
  rw [List.length_map] at h1
  refine ⟨h1, ?_⟩
  rw [List.pairwise_filterMap]
  refine h2.imp fun {i j} hij x hx y hy => ?_
  refine h x (List.mem_of_getElem? hx) y (List.mem_of_getElem? hy) (hij _ _ ?_ ?_)
  · rw [List.getElem?_map, hx]; rfl
  · rw [List.getElem?_map, hy]; rfl

/-- C150.  Points of the ray from `a` through `b` are put in their order from `a` to `b`. -/
theorem C150_along_partial (ha : Fracture.IsArgsort argsort) {a b : Pt ℝ} (hab : a ≠ b) {ts : List ℝ}
    (ht : ∀ t ∈ ts, 0 ≤ t) : ∃ idx, pointsLineArgsort argsort (.rows (ts.map (onLine a b))) a b false = .ok idx ∧
      Arranges (· ≤ ·) ts idx := by
  have hpos : 0 < norm3 (b - a) :=
    lt_of_le_of_ne (norm3_nonneg _) fun h => hab (sub_eq_zero.1 (norm3_eq_zero.1 h.symm)).symm
  refine ⟨_, rfl, ?_⟩
  rw [List.map_map]
  refine arranges_of ha fun x hx y hy h => ?_
  simp only [Function.comp, norm3_onLine_start] at h
  rwa [abs_of_nonneg (ht x hx), abs_of_nonneg (ht y hy), mul_le_mul_iff_of_pos_right hpos] at h

/-- C150.  With `ba_sorting`, points of the ray from `b` through `a` are put in their order from `b` to `a`. -/
theorem C150_back_partial (ha : Fracture.IsArgsort argsort) {a b : Pt ℝ} (hab : a ≠ b) {ts : List ℝ}
    (ht : ∀ t ∈ ts, t ≤ 1) : ∃ idx, pointsLineArgsort argsort (.rows (ts.map (onLine a b))) a b true = .ok idx ∧
      Arranges (· ≥ ·) ts idx := by
  have hpos : 0 < norm3 (b - a) :=
    lt_of_le_of_ne (norm3_nonneg _) fun h => hab (sub_eq_zero.1 (norm3_eq_zero.1 h.symm)).symm
  refine ⟨_, rfl, ?_⟩
  rw [List.map_map]
  refine arranges_of ha fun x hx y hy h => ?_
  simp only [Function.comp, norm3_onLine_end] at h
  rw [abs_of_nonneg (by linarith [ht x hx]), abs_of_nonneg (by linarith [ht y hy]),
    mul_le_mul_iff_of_pos_right hpos] at h
  linarith

/-- The order of different numbers is unique. -/
theorem arranges_unique {R : ℝ → ℝ → Prop} (hR : ∀ x y, R x y → R y x → x = y) {ts : List ℝ} (hn : ts.Nodup)
    {idx idx' : List Nat} (h : Arranges R ts idx) (h' : Arranges R ts idx') : idx = idx' := by
  have hp := h.1.trans h'.1.symm
  have hw : ∀ {l : List Nat}, Arranges R ts l →
      l.Pairwise fun i j => ∀ x y, ts[i]? = some x → ts[j]? = some y → R x y := by
    intro l hl
    have := hl.2
    rw [List.pairwise_filterMap] at this
    exact this.imp fun {i j} hij x y hx hy => hij x hx y hy
  refine List.Perm.eq_of_pairwise ?_ (hw h) (hw h') hp
  intro i j hi hj hij hji
  have hi' := List.mem_range.1 (h.1.mem_iff.1 hi)
  have hj' := List.mem_range.1 (h'.1.mem_iff.1 hj)
  have e := hR _ _ (hij _ _ (List.getElem?_eq_getElem hi') (List.getElem?_eq_getElem hj'))
    (hji _ _ (List.getElem?_eq_getElem hj') (List.getElem?_eq_getElem hi'))
  exact (hn.getElem_inj_iff).1 e

/-- C150.  For different points of the segment the order from `b` is the reverse of the order from `a`. -/
theorem C150_reverse (ha : Fracture.IsArgsort argsort) {a b : Pt ℝ} (hab : a ≠ b) {ts : List ℝ} (hn : ts.Nodup)
    (ht : ∀ t ∈ ts, 0 ≤ t ∧ t ≤ 1) : ∃ idx,
      pointsLineArgsort argsort (.rows (ts.map (onLine a b))) a b false = .ok idx ∧
      pointsLineArgsort argsort (.rows (ts.map (onLine a b))) a b true = .ok idx.reverse := by
  obtain ⟨i, h1, h2⟩ := C150_along_partial ha hab fun t h => (ht t h).1
  obtain ⟨j, h3, h4⟩ := C150_back_partial ha hab fun t h => (ht t h).2
  refine ⟨i, h1, ?_⟩
  rw [h3, arranges_unique (fun x y h h' => le_antisymm h' h) hn h4 ⟨(List.reverse_perm i).trans h2.1, ?_⟩]
  rw [List.filterMap_reverse, List.pairwise_reverse]
  exact h2.2

/-- C150.  Whatever the points are, they are put in the order of their distance from the chosen end. -/
theorem C150_distance (ha : Fracture.IsArgsort argsort) (points : List (Pt ℝ)) (a b : Pt ℝ) (ba : Bool) :
    ∃ idx, pointsLineArgsort argsort (.rows points) a b ba = .ok idx ∧
      Arranges (· ≤ ·) (points.map fun p => norm3 (p - if ba then b else a)) idx := by
  cases ba
  · refine ⟨_, rfl, ?_⟩
    have := arranges_of ha (R := (· ≤ ·)) (ts := points.map fun p => norm3 (p - a)) (f := id) fun _ _ _ _ h => h
    rwa [List.map_id] at this
  · refine ⟨_, rfl, ?_⟩
    have := arranges_of ha (R := (· ≤ ·)) (ts := points.map fun p => norm3 (p - b)) (f := id) fun _ _ _ _ h => h
    rwa [List.map_id] at this

/-- C150 does not hold for points beyond the end from which the distance is taken: a point before `a` comes after
every point of the segment that is nearer to `a`. -/
theorem C150_outside_violated (ha : Fracture.IsArgsort argsort) {a b : Pt ℝ} (hab : a ≠ b) {s t : ℝ} (hs : 0 < s)
    (ht : s < -t) : t < s ∧ pointsLineArgsort argsort (.rows ([t, s].map (onLine a b))) a b false = .ok [1, 0] := by
  have hpos : 0 < norm3 (b - a) :=
    lt_of_le_of_ne (norm3_nonneg _) fun h => hab (sub_eq_zero.1 (norm3_eq_zero.1 h.symm)).symm
  refine ⟨by linarith, ?_⟩
  have h := arranges_of ha (R := fun x y => |x| ≤ |y|) (ts := [t, s]) (f := fun t => |t| * norm3 (b - a))
    fun x _ y _ h => (mul_le_mul_iff_of_pos_right hpos).1 h
  have e : pointsLineArgsort argsort (.rows ([t, s].map (onLine a b))) a b false =
      .ok (argsort ([t, s].map fun t => |t| * norm3 (b - a))) := by
    show Except.ok (argsort (([t, s].map (onLine a b)).map fun p => norm3 (p - a))) = _
    rw [List.map_map]
    congr 2
    refine List.map_congr_left fun x _ => norm3_onLine_start a b x
  rw [e]
  congr 1
  have hts : |s| < |t| := by
    rw [abs_of_pos hs, abs_of_neg (by linarith)]
    exact ht
  refine List.Perm.eq_of_pairwise (le := fun i j => ∀ x y, [t, s][i]? = some x → [t, s][j]? = some y → |x| ≤ |y|)
    ?_ ?_ ?_ ?_
  · intro i j hi hj hij hji
    have hi' := List.mem_range.1 (h.1.mem_iff.1 hi)
    have hj' : j = 1 ∨ j = 0 := by simpa using hj
    have hi'' : i < 2 := hi'
    rcases hj' with rfl | rfl
    · rcases Nat.lt_succ_iff_lt_or_eq.1 hi'' with hi0 | rfl
      · obtain rfl : i = 0 := by omega
        exact absurd (hij t s rfl rfl) (not_le.2 hts)
      · rfl
    · rcases Nat.lt_succ_iff_lt_or_eq.1 hi'' with hi0 | rfl
      · omega
      · exact absurd (hji t s rfl rfl) (not_le.2 hts)
  · have := h.2
    rw [List.pairwise_filterMap] at this
    exact this.imp fun {i j} hij x y hx hy => hij x hx y hy
  · rw [List.pairwise_cons]
    refine ⟨?_, List.pairwise_singleton _ _⟩
    intro j hj x y hx hy
    obtain rfl := List.mem_singleton.1 hj
    obtain rfl : s = x := Option.some.inj hx
    obtain rfl : t = y := Option.some.inj hy
    exact hts.le
  · exact h.1.trans (by show (List.range 2).Perm [1, 0]; decide)

/-- C150 does not hold for no points at all: when the points that are sorted are those that
`points_line_intersection` keeps and it keeps none, `ValueError` is raised. -/
theorem C150_nothing_violated (a b : Pt ℝ) (ba : Bool) :
    pointsLineArgsort argsort (PointArray.ofList []) a b ba = .error .valueError ∧
    ∀ p ps, ∃ idx, pointsLineArgsort argsort (PointArray.ofList (p :: ps)) a b ba = .ok idx := by
  refine ⟨rfl, fun p ps => ?_⟩
  cases ba
  · exact ⟨_, rfl⟩
  · exact ⟨_, rfl⟩

/-- The hypotheses of C150 hold for three points of a segment. -/
example : (![0, 0, 0] : Pt ℝ) ≠ ![2, 0, 0] ∧ ([1 / 2, 1, 0] : List ℝ).Nodup ∧
    ∀ t ∈ ([1 / 2, 1, 0] : List ℝ), 0 ≤ t ∧ t ≤ 1 := by
  refine ⟨fun h => by simpa using congrFun h 0, by norm_num, ?_⟩
  intro t ht
  simp only [List.mem_cons, List.not_mem_nil, or_false] at ht
  rcases ht with rfl | rfl | rfl <;> norm_num

/-! ### The repository's tests (tests/test_geometry/operations/test_point_geometry_operations.py:17-136) -/

/-- The tolerance of the geometry (globals.py:5-6). -/
noncomputable abbrev geoTol : ℝ := 1 / 10 ^ 10

/-- `(1 - gamma) * np.array([1.0, 1.0, 1.0])` -/
def diagonal (gamma : ℝ) : Pt ℝ := fun _ => 1 - gamma

theorem diagonal_cross (u v : Pt ℝ) (s t : ℝ) (hu : ∀ k, u k = s) (hv : ∀ k, v k = t) : norm3 (cross u v) = 0 := by
  refine norm3_eq_zero.2 ?_
  funext k
  match k with
  | 0 => simp [cross, hu, hv, mul_comm]
  | 1 => simp [cross, hu, hv, mul_comm]
  | 2 => simp [cross, hu, hv, mul_comm]

theorem diagonal_norm (u : Pt ℝ) (s : ℝ) (hu : ∀ k, u k = s) : norm3 u = |s| * Real.sqrt 3 := by
  rw [norm3, hu, hu, hu, show s ^ 2 + s ^ 2 + s ^ 2 = s ^ 2 * 3 by ring, Real.sqrt_mul (sq_nonneg s), Real.sqrt_sq_eq_abs]

/-- C150.  `test_point_line_colinear_measurement` and `test_point_line_incidence`: points of the line have
measurement 0 for every gamma, and the triangle of the last case has the asserted area. -/
theorem C150_test_colinear (gamma : ℝ) :
    colinearMeasurement (diagonal gamma) (diagonal 1) (diagonal 0) = 0 ∧
    PointLineIncidence (diagonal gamma) (diagonal 1) (diagonal 0) geoTol ∧
    IsClose (1 / 10 ^ 5) (1 / 10 ^ 8) (colinearMeasurement ![1, 1, 1] ![-1, 0, -1] ![1, 10, 0]) 13.124404748406688 ∧
    ¬ PointLineIncidence ![1, 1, 1] ![-1, 0, -1] ![1, 10, 0] geoTol := by
  have h1 : ∀ p a b : ℝ, colinearMeasurement (diagonal p) (diagonal a) (diagonal b) = 0 := by
    intro p a b
    rw [colinearMeasurement, diagonal_cross (diagonal a - diagonal p) (diagonal b - diagonal p) (1 - a - (1 - p))
      (1 - b - (1 - p)) (fun _ => rfl) (fun _ => rfl), mul_zero]
  have h2 : colinearMeasurement ![1, 1, 1] ![-1, 0, -1] ![1, 10, 0] = 1 / 2 * Real.sqrt 689 := by
    rw [colinearMeasurement, norm3]
    congr 2
    simp [cross]
    norm_num
  have h3 : colinearMeasurement ![-1, 0, -1] ![1, 10, 0] ![1, 1, 1] = 1 / 2 * Real.sqrt 689 := by
    rw [colinearMeasurement, norm3]
    congr 2
    simp [cross]
    norm_num
  have lo : (26.2488 : ℝ) ≤ Real.sqrt 689 := Real.le_sqrt_of_sq_le (by norm_num)
  have hi : Real.sqrt 689 ≤ 26.2489 := Real.sqrt_le_iff.2 ⟨by norm_num, by norm_num⟩
  refine ⟨h1 _ _ _, ?_, ?_, ?_⟩
  · rw [PointLineIncidence, h1, IsClose]
    norm_num
  · rw [h2, IsClose, abs_le, abs_of_pos (by norm_num : (0 : ℝ) < 13.124404748406688)]
    constructor <;> linarith
  · rw [PointLineIncidence, h3, IsClose, sub_zero, abs_zero, mul_zero, add_zero,
      abs_of_pos (by linarith), not_le]
    have : geoTol ≤ 1 := by norm_num
    linarith

/-- C150.  `test_point_line_intersection`: the ends and the middle are kept, points of the line at a distance of
1e-9 beyond the ends and a point beside the segment are not. -/
theorem C150_test_intersection :
    let a := diagonal 1
    let b := diagonal 0
    pointLineIntersection geoTol (diagonal 0) a b geoTol = some b ∧
    pointLineIntersection geoTol (diagonal 1) a b geoTol = some a ∧
    pointLineIntersection geoTol (diagonal (1 / 2)) a b geoTol = some (diagonal (1 / 2)) ∧
    pointLineIntersection geoTol (diagonal (0 - 1 / 10 ^ 9)) a b geoTol = none ∧
    pointLineIntersection geoTol (diagonal (1 + 1 / 10 ^ 9)) a b geoTol = none ∧
    pointLineIntersection geoTol ![1, 1, 1] ![-1, 0, -1] ![1, 10, 0] geoTol = none := by
  intro a b
  have h3 : (1 : ℝ) ≤ Real.sqrt 3 := Real.le_sqrt_of_sq_le (by norm_num)
  have h3' : Real.sqrt 3 ≤ 2 := Real.sqrt_le_iff.2 ⟨by norm_num, by norm_num⟩
  have hc : ∀ x y : ℝ, Close geoTol geoTol (diagonal x) (diagonal y) ↔
      |y - x| ≤ geoTol + geoTol * |1 - y| := by
    intro x y
    constructor
    · intro h
      have := h 0
      simpa [IsClose, diagonal] using this
    · intro h k
      simpa [IsClose, diagonal] using h
  have hinc : ∀ p q r : ℝ, PointLineIncidence (diagonal p) (diagonal q) (diagonal r) geoTol := by
    intro p q r
    rw [PointLineIncidence, colinearMeasurement,
      diagonal_cross (diagonal r - diagonal q) (diagonal p - diagonal q) (1 - r - (1 - q))
        (1 - p - (1 - q)) (fun _ => rfl) (fun _ => rfl), IsClose]
    norm_num
  have hn : ∀ p q : ℝ, norm3 (diagonal p - diagonal q) = |q - p| * Real.sqrt 3 := by
    intro p q
    refine diagonal_norm _ _ fun k => ?_
    simp [diagonal]
  refine ⟨?_, ?_, ?_, ?_, ?_, ?_⟩
  · rw [pointLineIntersection, if_neg, if_pos]
    · rw [hc]; norm_num
    · rw [hc]; norm_num
  · rw [pointLineIntersection, if_pos]
    rw [hc]; norm_num
  · rw [pointLineIntersection, if_neg, if_neg, if_pos (hinc _ _ _)]
    · rw [if_pos]
      refine ⟨.inl ?_, .inl ?_⟩
      · show norm3 (diagonal (1 / 2) - diagonal 1) < norm3 (diagonal 0 - diagonal 1)
        rw [hn, hn]
        norm_num
      · show norm3 (diagonal (1 / 2) - diagonal 0) < norm3 (diagonal 1 - diagonal 0)
        rw [hn, hn]
        norm_num
    · rw [hc]; norm_num
    · rw [hc]; norm_num
  · rw [pointLineIntersection, if_neg, if_neg, if_pos (hinc _ _ _)]
    · simp only [a, b, hn, IsClose]
      rw [if_neg]
      rintro ⟨h | h, -⟩
      · norm_num at h
      · rw [abs_le] at h
        norm_num at h
        rw [abs_of_nonneg (by linarith : (0 : ℝ) ≤ Real.sqrt 3)] at h
        linarith [h.1]
    · rw [hc]; norm_num
    · rw [hc]; norm_num
  · rw [pointLineIntersection, if_neg, if_neg, if_pos (hinc _ _ _)]
    · simp only [a, b, hn, IsClose]
      rw [if_neg]
      rintro ⟨-, h | h⟩
      · norm_num at h
      · rw [abs_le] at h
        norm_num at h
        rw [abs_of_nonneg (by linarith : (0 : ℝ) ≤ Real.sqrt 3)] at h
        linarith [h.1]
    · rw [hc]; norm_num
    · rw [hc]; norm_num
  · rw [pointLineIntersection, if_neg, if_neg, if_neg]
    · intro h
      have e : colinearMeasurement ![1, 10, 0] ![1, 1, 1] ![-1, 0, -1] = 1 / 2 * Real.sqrt 689 := by
        rw [colinearMeasurement, norm3]
        congr 2
        simp [cross]
        norm_num
      have lo : (26 : ℝ) ≤ Real.sqrt 689 := Real.le_sqrt_of_sq_le (by norm_num)
      rw [PointLineIncidence, e, IsClose, sub_zero, abs_zero, mul_zero, add_zero, abs_of_pos (by linarith)] at h
      have : geoTol ≤ 1 := by norm_num
      linarith
    · intro h
      have := h 1
      simp [IsClose] at this
      norm_num at this
    · intro h
      have := h 1
      simp [IsClose] at this
      norm_num at this

/-- C150.  `test_points_line_argsort`, with its five points. -/
theorem C150_test_argsort (ha : Fracture.IsArgsort argsort) :
    let points := [-1, -1 + 21 / 40, -1 + 42 / 40, -1 + 63 / 40, 11 / 10].map diagonal
    pointsLineArgsort argsort (.rows points) (diagonal 1) (diagonal 0) false = .ok [4, 3, 2, 1, 0] ∧
    pointsLineArgsort argsort (.rows points) (diagonal 1) (diagonal 0) true = .ok [2, 1, 3, 0, 4] := by
  intro points
  have hs : 0 < Real.sqrt 3 := Real.sqrt_pos.2 (by norm_num)
  have hn : ∀ p q : ℝ, norm3 (diagonal p - diagonal q) = |q - p| * Real.sqrt 3 := by
    intro p q
    refine diagonal_norm _ _ fun k => ?_
    simp [diagonal]
  have key : ∀ (e : ℝ) (ds : List ℝ) (idx : List Nat), 
      [-1, -1 + 21 / 40, -1 + 42 / 40, -1 + 63 / 40, 11 / 10].map (fun t => |e - t|) = ds → ds.Nodup →
      Arranges (· ≤ ·) ds idx → argsort (points.map fun p => norm3 (p - diagonal e)) = idx := by
    intro e ds idx hd hnd hi
    have h := arranges_of ha (R := (· ≤ ·)) (ts := ds) (f := fun x => x * Real.sqrt 3)
      fun x _ y _ h => (mul_le_mul_iff_of_pos_right hs).1 h
    have e1 : points.map (fun p => norm3 (p - diagonal e)) = ds.map fun x => x * Real.sqrt 3 := by
      rw [← hd, List.map_map, List.map_map]
      exact List.map_congr_left fun x _ => hn x e
    rw [e1]
    exact arranges_unique (fun x y h h' => le_antisymm h h') hnd h hi
  constructor
  · show Except.ok _ = _
    congr 1
    refine key 1 [2, 59 / 40, 38 / 40, 17 / 40, 1 / 10] _ ?_ ?_ ⟨?_, ?_⟩
    · norm_num [abs_of_pos, abs_of_neg]
    · norm_num
    · show List.Perm _ (List.range 5); decide
    · simp; norm_num
  · show Except.ok _ = _
    congr 1
    refine key 0 [1, 19 / 40, 2 / 40, 23 / 40, 11 / 10] _ ?_ ?_ ⟨?_, ?_⟩
    · norm_num [abs_of_pos, abs_of_neg]
    · norm_num
    · show List.Perm _ (List.range 5); decide
    · simp; norm_num

#print axioms C150_along_partial
#print axioms C150_back_partial
#print axioms C150_reverse
#print axioms C150_distance
#print axioms C150_outside_violated
#print axioms C150_nothing_violated
#print axioms C150_test_colinear
#print axioms C150_test_intersection
#print axioms C150_test_argsort

end Verif.Geometry
