/-
C51 masks of filtered results (lines), C52 intersection of segments.
-/
import Verif.Lemmas.LineGeometry

namespace Verif.Geometry
open MeshBuild MeshGraph Trace MeshMetrics
open scoped Classical

/-! ### C52 -/

/-- C52.  With tolerance 0, segments that are not parallel give exactly their common point, or
`None` if they have none. -/
theorem C52_exact {f : Pt ℝ → Pt ℝ → Pt ℝ → ℝ × ℝ} (hf : IsLstsq f) {a b c d : Pt ℝ}
    (hn : NotParallel (b - a) (d - c)) :
    (∀ x, x ∈ segment ℝ a b → x ∈ segment ℝ c d →
      lineLineIntersection ⟨0, 0⟩ f a b c d 0 = .ok (.points [x])) ∧
    ((∀ x, ¬ (x ∈ segment ℝ a b ∧ x ∈ segment ℝ c d)) →
      lineLineIntersection ⟨0, 0⟩ f a b c d 0 = .ok .none) := by
  have hnone : ∀ {p}, p ∉ segment ℝ c d → pointLineIntersection 0 p c d 0 = none := by
    intro p hp
    cases hx : pointLineIntersection 0 p c d 0 with
    | none => rfl
    | some x => exact absurd (pointLine_exact.1 hx).2 hp
  have hab : ¬ (a ∈ segment ℝ c d ∧ b ∈ segment ℝ c d) := by
    rintro ⟨h1, h2⟩
    have := common_unique hn (left_mem_segment ℝ a b) h1 (right_mem_segment ℝ a b) h2
    refine hn ?_
    rw [this, sub_self]
    refine pt_ext ?_ ?_ ?_ <;> simp
  constructor
  · intro x h1 h2
    by_cases ha : a ∈ segment ℝ c d
    · have hb : b ∉ segment ℝ c d := fun hb => hab ⟨ha, hb⟩
      rw [lineLine_first (tol := ⟨0, 0⟩) (pointLine_exact.2 ⟨rfl, ha⟩) (hnone hb),
        if_pos (close_self (by positivity) (by positivity) a),
        common_unique hn h1 h2 (left_mem_segment ℝ a b) ha]
    · by_cases hb : b ∈ segment ℝ c d
      · rw [lineLine_second (tol := ⟨0, 0⟩) (hnone ha) (pointLine_exact.2 ⟨rfl, hb⟩),
          if_pos (close_self (by positivity) (by positivity) b),
          common_unique hn h1 h2 (right_mem_segment ℝ a b) hb]
      · rw [lineLine_interior (tol := ⟨0, 0⟩) (hnone ha) (hnone hb)]
        obtain ⟨t, t0, t1, ht⟩ := mem_segment_iff.1 h1
        obtain ⟨s, s0, s1, hs⟩ := mem_segment_iff.1 h2
        have e : t • (b - a) - s • (d - c) = c - a := by
          rw [sub_eq_sub_iff_add_eq_add, add_comm, ← ht, hs]
        obtain ⟨p1, p2⟩ := params_unique hn ((lstsq_solves hf e).trans e.symm)
        have le : ∀ {x y : ℝ}, x ≤ y → (x < y ∨ IsClose 0 0 x y) := fun h =>
          (lt_or_eq_of_le h).imp id isClose_zero.2
        have ge : ∀ {x y : ℝ}, x ≤ y → (x < y ∨ IsClose 0 0 y x) := fun h =>
          (lt_or_eq_of_le h).imp id fun h => isClose_zero.2 h.symm
        simp only [p1, p2]
        rw [if_pos ⟨close_zero.2 (by rw [← ht, hs]), ⟨ge t0, le t1⟩, ge s0, le s1⟩, ht]
  · intro hno
    have ha : a ∉ segment ℝ c d := fun h => hno a ⟨left_mem_segment ℝ a b, h⟩
    have hb : b ∉ segment ℝ c d := fun h => hno b ⟨right_mem_segment ℝ a b, h⟩
    rw [lineLine_interior (tol := ⟨0, 0⟩) (hnone ha) (hnone hb)]
    dsimp only
    rw [if_neg]
    rintro ⟨h1, ⟨h2, h3⟩, h4, h5⟩
    have le : ∀ {x y : ℝ}, (x < y ∨ IsClose 0 0 x y) → x ≤ y := fun h =>
      h.elim le_of_lt fun h => (isClose_zero.1 h).le
    have ge : ∀ {x y : ℝ}, (x < y ∨ IsClose 0 0 y x) → x ≤ y := fun h =>
      h.elim le_of_lt fun h => (isClose_zero.1 h).ge
    refine hno _ ⟨mem_segment_iff.2 ⟨_, ge h2, le h3, rfl⟩, ?_⟩
    rw [close_zero.1 h1]
    exact mem_segment_iff.2 ⟨_, ge h4, le h5, rfl⟩

/-- The two diagonals of a square. -/
example : ∃ f, IsLstsq f ∧ lineLineIntersection ⟨0, 0⟩ f ![0, 0, 0] ![2, 2, 0] ![0, 2, 0] ![2, 0, 0]
    0 = .ok (.points [![1, 1, 0]]) := by
  obtain ⟨f, hf⟩ := exists_lstsq
  refine ⟨f, hf, (C52_exact hf fun h => ?_).1 _ (mem_segment_iff.2 ⟨1 / 2, ?_, ?_, ?_⟩)
    (mem_segment_iff.2 ⟨1 / 2, ?_, ?_, ?_⟩)⟩
  · have := congrFun h 2
    simp at this
    norm_num at this
  · norm_num
  · norm_num
  · refine pt_ext ?_ ?_ ?_ <;> simp
  · norm_num
  · norm_num
  · refine pt_ext ?_ ?_ ?_ <;> simp; norm_num

/-- C52.  A common point of segments that are not parallel is found whatever the tolerances (the
collapse tolerance being below `np.isclose`'s default): the result is not `None`, and the assertion
in line_geometry_operations.py:24 holds. -/
theorem C52_accepts {f : Pt ℝ → Pt ℝ → Pt ℝ → ℝ × ℝ} (hf : IsLstsq f) {a b c d x : Pt ℝ}
    (hn : NotParallel (b - a) (d - c)) (h1 : x ∈ segment ℝ a b) (h2 : x ∈ segment ℝ c d)
    {tol : Tol} {eps : ℝ} (hc : tol.collapse ≤ 1 / 10 ^ 8) (he : 0 ≤ eps) :
    ∃ y ys, lineLineIntersection tol f a b c d eps = .ok (.points [y]) ∨
      lineLineIntersection tol f a b c d eps = .ok (.both (y :: ys) [true, true]) := by
  have hclose : ∀ {y p : Pt ℝ}, (y = p ∨ Close tol.collapse tol.collapse y p) →
      Close (1 / 10 ^ 5) (1 / 10 ^ 8) y p := by
    rintro y p (rfl | h)
    · exact close_self (by positivity) (by positivity) _
    · intro k
      have hk := h k
      unfold IsClose at hk ⊢
      have : tol.collapse * |p k| ≤ 1 / 10 ^ 5 * |p k| :=
        mul_le_mul_of_nonneg_right (hc.trans (by norm_num)) (abs_nonneg _)
      linarith
  cases ha : pointLineIntersection tol.collapse a c d tol.pointLine with
  | some y =>
    cases hb : pointLineIntersection tol.collapse b c d tol.pointLine with
    | some z => exact ⟨y, [z], Or.inr (lineLine_both ha hb)⟩
    | none => exact ⟨y, [], Or.inl (by
        rw [lineLine_first ha hb, if_pos (hclose (pointLine_close ha))])⟩
  | none =>
    cases hb : pointLineIntersection tol.collapse b c d tol.pointLine with
    | some z => exact ⟨z, [], Or.inl (by
        rw [lineLine_second ha hb, if_pos (hclose (pointLine_close hb))])⟩
    | none =>
      obtain ⟨t, t0, t1, ht⟩ := mem_segment_iff.1 h1
      obtain ⟨s, s0, s1, hs⟩ := mem_segment_iff.1 h2
      have e : t • (b - a) - s • (d - c) = c - a := by
        rw [sub_eq_sub_iff_add_eq_add, add_comm, ← ht, hs]
      obtain ⟨p1, p2⟩ := params_unique hn ((lstsq_solves hf e).trans e.symm)
      have le : ∀ {x y : ℝ}, x ≤ y → (x < y ∨ IsClose eps eps x y) := fun h =>
        (lt_or_eq_of_le h).imp id fun h => by rw [h]; exact isClose_self he he
      have ge : ∀ {x y : ℝ}, x ≤ y → (x < y ∨ IsClose eps eps y x) := fun h =>
        (lt_or_eq_of_le h).imp id fun h => by rw [h]; exact isClose_self he he
      refine ⟨x, [], Or.inl ?_⟩
      rw [lineLine_interior ha hb]
      simp only [p1, p2]
      rw [← ht, ← hs, if_pos ⟨close_self he he x, ⟨ge t0, le t1⟩, ge s0, le s1⟩]

/-- C52.  Segments without a common point (parallel or not) give `None` for all small
tolerances. -/
theorem C52_rejects (f : Pt ℝ → Pt ℝ → Pt ℝ → ℝ × ℝ) {a b c d : Pt ℝ}
    (hno : ∀ x, ¬ (x ∈ segment ℝ a b ∧ x ∈ segment ℝ c d)) :
    ∃ δ > 0, ∀ tol : Tol, tol.collapse < δ → tol.pointLine < δ → ∀ eps < δ,
      lineLineIntersection tol f a b c d eps = .ok .none := by
  obtain ⟨δa, ha0, ha⟩ := pointLine_sound (fun h => hno a ⟨left_mem_segment ℝ a b, h⟩)
  obtain ⟨δb, hb0, hb⟩ := pointLine_sound (fun h => hno b ⟨right_mem_segment ℝ a b, h⟩)
  -- the test on the least squares solution fails
  have key : ∃ δ > 0, ∀ eps < δ, ¬ (
      Close eps eps (a + (f (b - a) (d - c) (c - a)).1 • (b - a))
        (c + (f (b - a) (d - c) (c - a)).2 • (d - c)) ∧
      ((0 < (f (b - a) (d - c) (c - a)).1 ∨ IsClose eps eps (f (b - a) (d - c) (c - a)).1 0) ∧
        ((f (b - a) (d - c) (c - a)).1 < 1 ∨ IsClose eps eps (f (b - a) (d - c) (c - a)).1 1)) ∧
      ((0 < (f (b - a) (d - c) (c - a)).2 ∨ IsClose eps eps (f (b - a) (d - c) (c - a)).2 0) ∧
        ((f (b - a) (d - c) (c - a)).2 < 1 ∨
          IsClose eps eps (f (b - a) (d - c) (c - a)).2 1))) := by
    set x := f (b - a) (d - c) (c - a)
    by_cases hp : a + x.1 • (b - a) = c + x.2 • (d - c)
    · have hout : x.1 < 0 ∨ 1 < x.1 ∨ x.2 < 0 ∨ 1 < x.2 := by
        by_contra hn
        push Not at hn
        exact hno _ ⟨mem_segment_iff.2 ⟨_, hn.1, hn.2.1, rfl⟩,
          hp ▸ mem_segment_iff.2 ⟨_, hn.2.2.1, hn.2.2.2, rfl⟩⟩
      rcases hout with h | h | h | h
      · obtain ⟨δ, h0, hδ⟩ := not_isClose_of_ne h.ne
        exact ⟨δ, h0, fun e he hc => hc.2.1.1.elim (fun h' => absurd h' h.le.not_gt) (hδ e he)⟩
      · obtain ⟨δ, h0, hδ⟩ := not_isClose_of_ne h.ne'
        exact ⟨δ, h0, fun e he hc => hc.2.1.2.elim (fun h' => absurd h' h.le.not_gt) (hδ e he)⟩
      · obtain ⟨δ, h0, hδ⟩ := not_isClose_of_ne h.ne
        exact ⟨δ, h0, fun e he hc => hc.2.2.1.elim (fun h' => absurd h' h.le.not_gt) (hδ e he)⟩
      · obtain ⟨δ, h0, hδ⟩ := not_isClose_of_ne h.ne'
        exact ⟨δ, h0, fun e he hc => hc.2.2.2.elim (fun h' => absurd h' h.le.not_gt) (hδ e he)⟩
    · obtain ⟨δ, h0, hδ⟩ := not_close_of_ne hp
      exact ⟨δ, h0, fun e he hc => hδ e he hc.1⟩
  obtain ⟨δ, h0, hδ⟩ := key
  refine ⟨min δ (min δa δb), by simp [h0, ha0, hb0], fun tol h1 h2 eps h3 => ?_⟩
  simp only [lt_min_iff] at h1 h2 h3
  rw [lineLine_interior (ha _ h1.2.1 _ h2.2.1) (hb _ h1.2.2 _ h2.2.2)]
  dsimp only
  rw [if_neg (hδ eps h3.1)]

/-- Parallel segments one above the other. -/
example : ∀ x, ¬ (x ∈ segment ℝ (![0, 0, 0] : Pt ℝ) ![1, 0, 0] ∧
    x ∈ segment ℝ (![0, 1, 0] : Pt ℝ) ![1, 1, 0]) := by
  rintro x ⟨h1, h2⟩
  obtain ⟨t, -, -, rfl⟩ := mem_segment_iff.1 h1
  obtain ⟨s, -, -, h⟩ := mem_segment_iff.1 h2
  simpa using congrFun h 1

/-- A point with a large component has a large norm. -/
theorem abs_le_norm3 (v : Pt ℝ) (k : Fin 3) : |v k| ≤ norm3 v := by
  rw [← Real.sqrt_sq_eq_abs, norm3]
  refine Real.sqrt_le_sqrt ?_
  have h0 := sq_nonneg (v 0)
  have h1 := sq_nonneg (v 1)
  have h2 := sq_nonneg (v 2)
  fin_cases k <;> simp <;> linarith

/-- The code's tolerances. -/
noncomputable def codeTol : Tol := ⟨1 / 10 ^ 10, 1 / 10 ^ 10⟩

private theorem n1 : ∀ x : ℝ, norm3 (![x, 0, 0] : Pt ℝ) = |x| := by
  intro x
  simp [norm3, Real.sqrt_sq_eq_abs]

theorem before_segment : pointLineIntersection codeTol.collapse ![0, 0, 0] ![4, 0, 0] ![5, 0, 0]
    codeTol.pointLine = none := by
  unfold pointLineIntersection
  rw [if_neg, if_neg]
  · have d1 : (![4, 0, 0] : Pt ℝ) - ![5, 0, 0] = ![-1, 0, 0] := by
      refine pt_ext ?_ ?_ ?_ <;> simp; norm_num
    have d2 : (![0, 0, 0] : Pt ℝ) - ![5, 0, 0] = ![-5, 0, 0] := by
      refine pt_ext ?_ ?_ ?_ <;> simp
    simp only [d1, d2, n1]
    rw [if_neg (c := _ ∧ _)]
    · simp
    · rintro ⟨-, h | h⟩
      · norm_num at h
      · simp only [IsClose, codeTol] at h
        norm_num at h
  · intro h
    have := h 0
    simp only [IsClose, codeTol] at this
    norm_num at this
  · intro h
    have := h 0
    simp only [IsClose, codeTol] at this
    norm_num at this

theorem behind_segment : pointLineIntersection codeTol.collapse ![10, 0, 0] ![4, 0, 0] ![5, 0, 0]
    codeTol.pointLine = none := by
  unfold pointLineIntersection
  rw [if_neg, if_neg]
  · have d1 : (![5, 0, 0] : Pt ℝ) - ![4, 0, 0] = ![1, 0, 0] := by
      refine pt_ext ?_ ?_ ?_ <;> simp; norm_num
    have d2 : (![10, 0, 0] : Pt ℝ) - ![4, 0, 0] = ![6, 0, 0] := by
      refine pt_ext ?_ ?_ ?_ <;> simp; norm_num
    simp only [d1, d2, n1]
    rw [if_neg (c := _ ∧ _)]
    · simp
    · rintro ⟨h | h, -⟩
      · norm_num at h
      · simp only [IsClose, codeTol] at h
        norm_num at h
  · intro h
    have := h 0
    simp only [IsClose, codeTol] at this
    norm_num at this
  · intro h
    have := h 0
    simp only [IsClose, codeTol] at this
    norm_num at this

/-- C52 says nothing about parallel segments, and there the code is wrong: a segment strictly inside
another one is reported not to meet it, because the least squares solution of smallest norm is
outside the unit interval. -/
theorem C52_contained_missed {f : Pt ℝ → Pt ℝ → Pt ℝ → ℝ × ℝ} (hf : IsLstsq f) :
    (![4, 0, 0] : Pt ℝ) ∈ segment ℝ (![0, 0, 0] : Pt ℝ) ![10, 0, 0] ∧
    lineLineIntersection codeTol f ![0, 0, 0] ![10, 0, 0] ![4, 0, 0] ![5, 0, 0] (1 / 10 ^ 10) =
      .ok .none := by
  refine ⟨mem_segment_iff.2 ⟨2 / 5, by norm_num, by norm_num, by
    refine pt_ext ?_ ?_ ?_ <;> simp; norm_num⟩, ?_⟩
  rw [lineLine_interior before_segment behind_segment]
  dsimp only
  have d1 : (![10, 0, 0] : Pt ℝ) - ![0, 0, 0] = ![10, 0, 0] := by
    refine pt_ext ?_ ?_ ?_ <;> simp
  have d2 : (![5, 0, 0] : Pt ℝ) - ![4, 0, 0] = ![1, 0, 0] := by
    refine pt_ext ?_ ?_ ?_ <;> simp; norm_num
  have d3 : (![4, 0, 0] : Pt ℝ) - ![0, 0, 0] = ![4, 0, 0] := by
    refine pt_ext ?_ ?_ ?_ <;> simp
  rw [d1, d2, d3]
  have hsol : (40 / 101 : ℝ) • (![10, 0, 0] : Pt ℝ) - (-4 / 101 : ℝ) • (![1, 0, 0] : Pt ℝ) =
      ![4, 0, 0] := by
    refine pt_ext ?_ ?_ ?_ <;> simp; norm_num
  have h1 := lstsq_solves hf hsol
  have h2 := hf.norm ![10, 0, 0] ![1, 0, 0] ![4, 0, 0] (40 / 101, -4 / 101) (by
    rw [residual_eq_zero.2 hsol, residual_eq_zero.2 h1])
  generalize f ![10, 0, 0] ![1, 0, 0] ![4, 0, 0] = x at h1 h2 ⊢
  have h3 : x.1 * 10 - x.2 = 4 := by simpa using congrFun h1 0
  have h4 : x.2 = -4 / 101 := by
    have hx2 : x.2 = x.1 * 10 - 4 := by linarith
    rw [hx2] at h2
    have : (x.1 - 40 / 101) ^ 2 ≤ 0 := by nlinarith
    have : x.1 - 40 / 101 = 0 := pow_eq_zero_iff (two_ne_zero) |>.1 (le_antisymm this (sq_nonneg _))
    rw [hx2]; linarith
  rw [if_neg]
  rintro ⟨-, -, h | h, -⟩
  · rw [h4] at h; norm_num at h
  · rw [h4] at h; simp only [IsClose] at h; norm_num at h

/-! ### C51 -/

/-- C51, lines and a triangle, partial: if no line gives `False`, the returned results are those of
the lines marked in the mask. -/
theorem C51_lines_triangle_partial {tol : Tol} {f : Pt ℝ → Pt ℝ → Pt ℝ → ℝ × ℝ}
    {dedup : List (Pt ℝ) → List (Pt ℝ)} {lines : List Line} {a b c : Pt ℝ} {eps : ℝ}
    {r : List (Out (List (Pt ℝ))) × List Bool}
    (h : linesTriangleIntersection tol f dedup lines a b c eps = .ok r)
    (hf : ∀ l ∈ lines, lineTriangleIntersection tol f dedup l a b c eps ≠ .ok .false) :
    ∃ results, List.Forall₂ (fun l o => lineTriangleIntersection tol f dedup l a b c eps = .ok o)
      lines results ∧ MatchesMask results r := by
  unfold linesTriangleIntersection at h
  obtain ⟨results, h1, h2⟩ := Res.bind_eq_ok.1 h
  cases h2
  replace h1 := mapRes_iff.1 h1
  refine ⟨results, h1, withMask_matches fun o ho => ?_⟩
  have : ∃ l ∈ lines, lineTriangleIntersection tol f dedup l a b c eps = .ok o := by
    clear h hf
    induction h1 with
    | nil => simp at ho
    | @cons l o' ls os hl _ ih =>
      rcases List.mem_cons.1 ho with rfl | ho
      · exact ⟨l, by simp, hl⟩
      · obtain ⟨l', h1, h2⟩ := ih ho
        exact ⟨l', by simp [h1], h2⟩
  obtain ⟨l, hl, hlo⟩ := this
  cases o with
  | none => rfl
  | array x => rfl
  | false => exact absurd hlo (hf l hl)

theorem linePolygon_not_false {tol : Tol} {f : Pt ℝ → Pt ℝ → Pt ℝ → ℝ × ℝ}
    {dedup : List (Pt ℝ) → List (Pt ℝ)} {argsort : List ℝ → List Nat}
    {triangulate : List (Pt ℝ) → Res (List Triangle)} {l : Line} {polygon : List (Pt ℝ)} {eps : ℝ}
    {o : Out (List (Pt ℝ))}
    (h : linePolygonIntersection tol f dedup argsort triangulate l polygon eps = .ok o) :
    o.isNotNone = o.isArray := by
  unfold linePolygonIntersection at h
  obtain ⟨ts, -, h⟩ := Res.bind_eq_ok.1 h
  obtain ⟨rs, -, h⟩ := Res.bind_eq_ok.1 h
  split at h
  · dsimp only at h
    split at h
    · obtain ⟨i, -, h⟩ := Res.bind_eq_ok.1 h
      obtain ⟨j, -, h⟩ := Res.bind_eq_ok.1 h
      obtain ⟨x, -, h⟩ := Res.bind_eq_ok.1 h
      obtain ⟨y, -, h⟩ := Res.bind_eq_ok.1 h
      cases h; rfl
    · obtain ⟨i, -, h⟩ := Res.bind_eq_ok.1 h
      cases h; rfl
  · cases h; rfl

/-- C51, lines and a polygon. -/
theorem C51_lines_polygon {tol : Tol} {f : Pt ℝ → Pt ℝ → Pt ℝ → ℝ × ℝ}
    {dedup : List (Pt ℝ) → List (Pt ℝ)} {argsort : List ℝ → List Nat}
    {triangulate : List (Pt ℝ) → Res (List Triangle)} {lines : List Line} {polygon : List (Pt ℝ)}
    {eps : ℝ} {r : List (Out (List (Pt ℝ))) × List Bool}
    (h : linesPolygonIntersection tol f dedup argsort triangulate lines polygon eps = .ok r) :
    ∃ results, List.Forall₂ (fun l o =>
        linePolygonIntersection tol f dedup argsort triangulate l polygon eps = .ok o)
      lines results ∧ MatchesMask results r := by
  unfold linesPolygonIntersection at h
  obtain ⟨results, h1, h2⟩ := Res.bind_eq_ok.1 h
  cases h2
  replace h1 := mapRes_iff.1 h1
  refine ⟨results, h1, withMask_matches fun o ho => ?_⟩
  clear h
  induction h1 with
  | nil => simp at ho
  | @cons l o' ls os hl _ ih =>
    rcases List.mem_cons.1 ho with rfl | ho
    · exact linePolygon_not_false hl
    · exact ih ho

/-- The point (5, 5, z) is not in the unit triangle. -/
theorem far_from_triangle (z : ℝ) :
    pointTriangleIntersection codeTol.collapse ![5, 5, z] ![0, 0, 0] ![1, 0, 0] ![0, 1, 0]
      (1 / 10 ^ 10) = none := by
  have far : ∀ {x y : Pt ℝ} {k : Fin 3}, 1 < |x k - y k| → |y k| ≤ 10 →
      ¬ Close codeTol.collapse codeTol.collapse x y := by
    intro x y k h1 h2 hc
    have := hc k
    simp only [IsClose, codeTol] at this
    have : (1 / 10 ^ 10 : ℝ) * |y k| ≤ 1 / 10 ^ 10 * 10 :=
      mul_le_mul_of_nonneg_left h2 (by positivity)
    norm_num at *
    linarith
  have area : ∀ {p a b : Pt ℝ} {k : Fin 3}, 1 < |cross (p - b) (a - b) k| →
      ¬ PointLineIncidence a b p (1 / 10 ^ 10) := by
    intro p a b k h1 hc
    unfold PointLineIncidence IsClose colinearMeasurement at hc
    have h2 := abs_le_norm3 (cross (p - b) (a - b)) k
    have h3 : 0 ≤ norm3 (cross (p - b) (a - b)) := norm3_nonneg _
    rw [sub_zero, abs_of_nonneg (by linarith), abs_zero] at hc
    norm_num at hc
    linarith
  have pl : ∀ {p a b : Pt ℝ}, ¬ Close codeTol.collapse codeTol.collapse a p →
      ¬ Close codeTol.collapse codeTol.collapse b p → ¬ PointLineIncidence a b p (1 / 10 ^ 10) →
      pointLineIntersection codeTol.collapse p a b (1 / 10 ^ 10) = none := by
    intro p a b h1 h2 h3
    unfold pointLineIntersection
    rw [if_neg h1, if_neg h2, if_neg h3]
  have fa : ¬ Close codeTol.collapse codeTol.collapse (![0, 0, 0] : Pt ℝ) ![5, 5, z] :=
    far (k := 0) (by simp) (by simp; norm_num)
  have fb : ¬ Close codeTol.collapse codeTol.collapse (![1, 0, 0] : Pt ℝ) ![5, 5, z] :=
    far (k := 1) (by simp) (by simp; norm_num)
  have fc : ¬ Close codeTol.collapse codeTol.collapse (![0, 1, 0] : Pt ℝ) ![5, 5, z] :=
    far (k := 0) (by simp) (by simp; norm_num)
  unfold pointTriangleIntersection
  rw [if_neg fa, if_neg fb, if_neg fc]
  split
  · rfl
  rw [pl fa fb (area (k := 2) (by simp [cross])), pl fb fc (area (k := 2) (by simp [cross]; norm_num)),
    pl fc fa (area (k := 2) (by simp [cross]))]
  dsimp only
  rw [if_neg]
  rintro ⟨-, -, -, h⟩
  simp [dot] at h
  norm_num at h

/-- No side of the unit triangle meets the segment above (5, 5, 0). -/
theorem sides_missed (f : Pt ℝ → Pt ℝ → Pt ℝ → ℝ × ℝ) {z : ℝ} (hz : z ≤ 1 / 2) {a b : Pt ℝ}
    (ha0 : |a 0| ≤ 1) (ha1 : |a 1| ≤ 1) (hb0 : |b 0| ≤ 1) (hb1 : |b 1| ≤ 1)
    (hab : (a 1 = 0 ∧ b 1 = 0) ∨ (a 0 = 0 ∧ b 0 = 0) ∨ (a 0 + a 1 = 1 ∧ b 0 + b 1 = 1)) :
    lineLineIntersection codeTol f a b ![5, 5, z] ![5, 5, 1] (1 / 10 ^ 10) = .ok .none := by
  have pl : ∀ {p : Pt ℝ}, |p 0| ≤ 1 → |p 1| ≤ 1 →
      pointLineIntersection codeTol.collapse p ![5, 5, z] ![5, 5, 1] codeTol.pointLine = none := by
    intro p h0 h1
    have far : ∀ w : ℝ, ¬ Close codeTol.collapse codeTol.collapse (![5, 5, w] : Pt ℝ) p := by
      intro w hc
      have := hc 0
      simp only [IsClose, codeTol, Matrix.cons_val_zero] at this
      have h2 : (1 / 10 ^ 10 : ℝ) * |p 0| ≤ 1 / 10 ^ 10 * 1 :=
        mul_le_mul_of_nonneg_left h0 (by positivity)
      have h3 := abs_le.1 (this.trans (add_le_add_right h2 _))
      have h4 := abs_le.1 h0
      norm_num at h3
      linarith
    unfold pointLineIntersection
    rw [if_neg (far z), if_neg (far 1), if_neg]
    intro hc
    unfold PointLineIncidence IsClose colinearMeasurement at hc
    have h2 := abs_le_norm3 (cross (p - ![5, 5, 1]) (![5, 5, z] - ![5, 5, 1])) 0
    have h3 := norm3_nonneg (cross (p - ![5, 5, 1]) (![5, 5, z] - ![5, 5, 1]))
    rw [sub_zero, abs_of_nonneg (by linarith), abs_zero] at hc
    have h4 : cross (p - ![5, 5, 1]) (![5, 5, z] - ![5, 5, 1]) 0 = (p 1 - 5) * (z - 1) := by
      simp [cross]
    rw [h4] at h2
    have h5 := abs_le.1 h1
    have h6 := (le_abs_self ((p 1 - 5) * (z - 1))).trans h2
    have h7 : 2 ≤ (p 1 - 5) * (z - 1) := by nlinarith
    rw [mul_zero, add_zero] at hc
    have h8 : codeTol.pointLine ≤ 1 / 10 := by simp only [codeTol]; norm_num
    linarith
  rw [lineLine_interior (pl ha0 ha1) (pl hb0 hb1)]
  dsimp only
  rw [if_neg]
  rintro ⟨h, -⟩
  have h0 := h 0
  have h1 := h 1
  generalize (f (b - a) (![5, 5, 1] - ![5, 5, z]) (![5, 5, z] - a)).1 = t at h0 h1
  simp only [IsClose, Pi.add_apply, Pi.smul_apply, Pi.sub_apply, smul_eq_mul,
    Matrix.cons_val_zero, Matrix.cons_val_one, sub_self, mul_zero, add_zero] at h0 h1
  have h0 := abs_le.1 h0
  have h1 := abs_le.1 h1
  norm_num at h0 h1
  rcases hab with ⟨e1, e2⟩ | ⟨e1, e2⟩ | ⟨e1, e2⟩
  · rw [e1, e2] at h1; norm_num at h1
  · rw [e1, e2] at h0; norm_num at h0
  · have : a 0 + t * (b 0 - a 0) + (a 1 + t * (b 1 - a 1)) = 1 := by
      linear_combination (1 - t) * e1 + t * e2
    linarith [h0.1, h1.1]

/-- C51 does not hold for lines and triangles: a segment that starts within the tolerance above the
plane of the triangle, away from the triangle, gives `False`, which is kept among the results
although the mask does not mark it. -/
theorem C51_false_kept (f : Pt ℝ → Pt ℝ → Pt ℝ → ℝ × ℝ) (dedup : List (Pt ℝ) → List (Pt ℝ)) :
    linesTriangleIntersection codeTol f dedup [(![5, 5, 1 / 10 ^ 10], ![5, 5, 1])]
      ![0, 0, 0] ![1, 0, 0] ![0, 1, 0] (1 / 10 ^ 10) = .ok ([.false], [false]) := by
  have h1 : LineTriangleIncidence ![5, 5, 1 / 10 ^ 10] ![5, 5, 1] ![0, 0, 0] ![1, 0, 0] ![0, 1, 0]
      (1 / 10 ^ 10) := by
    refine Or.inl (Or.inl ?_)
    rw [coplanarMeasurement_eq]
    simp only [IsClose]
    simp [dot]
    norm_num
  have h2 : linesLineIntersection codeTol f [(![0, 0, 0], ![1, 0, 0]), (![1, 0, 0], ![0, 1, 0]),
      (![0, 1, 0], ![0, 0, 0])] ![5, 5, 1 / 10 ^ 10] ![5, 5, 1] (1 / 10 ^ 10) = .ok [] := by
    unfold linesLineIntersection
    rw [mapRes_pure (g := fun _ => LineOut.none)]
    · rfl
    · intro l hl
      simp only [List.mem_cons, List.not_mem_nil, or_false] at hl
      rcases hl with rfl | rfl | rfl <;>
        exact sides_missed f (by norm_num) (by simp) (by simp) (by simp) (by simp) (by simp)
  have h3 : lineTriangleIntersection codeTol f dedup (![5, 5, 1 / 10 ^ 10], ![5, 5, 1])
      ![0, 0, 0] ![1, 0, 0] ![0, 1, 0] (1 / 10 ^ 10) = .ok .false := by
    unfold lineTriangleIntersection
    simp only [h1, not_true_eq_false, if_false, far_from_triangle, h2, Res.bind_ok,
      Option.isSome_none, Bool.false_eq_true, and_self, List.length_nil, ne_eq]
    rw [if_neg, if_pos]
    · rfl
    · left
      simp [dot]
      norm_num
    · intro h
      simp [IsClose, dot] at h
      norm_num at h
  unfold linesTriangleIntersection
  simp only [mapRes, h3, Res.bind_ok, Res.pure_eq]
  rfl

#print axioms C52_exact
#print axioms C52_accepts
#print axioms C52_rejects
#print axioms C52_contained_missed
#print axioms C51_lines_triangle_partial
#print axioms C51_lines_polygon
#print axioms C51_false_kept

end Verif.Geometry
