/-
C95, second part: the triangles that `triangulate_polygon` keeps of a polygon that is not convex.
-/
import Verif.Props.Polygon
import Verif.Props.Winding
import Verif.Lemmas.Trace

namespace Verif.Polygon
open MeshBuild MeshGraph Trace MeshMetrics Geometry
open scoped Classical

/-- The corners of a triangle -/
noncomputable def corners (points : List (Pt ℝ)) (s : Nat × Nat × Nat) : Triangle :=
  (points.getD s.1 0, points.getD s.2.1 0, points.getD s.2.2 0)

/-- The mean of the corners, in the plane -/
noncomputable def centre (flat : List ℂ) (s : Nat × Nat × Nat) : ℂ :=
  (flat.getD s.1 0 + flat.getD s.2.1 0 + flat.getD s.2.2 0) / 3

theorem getIdx_getD {α : Type} {l : List α} {i : Nat} (d : α) (h : i < l.length) : getIdx l i = .ok (l.getD i d) := by
  rw [getIdx_some h]
  simp [h]

/-- Of the triangles that Delaunay's method gives, those are kept about whose centre the polygon turns. -/
theorem C95_kept {rtol atol : ℝ} {delaunay : List ℂ → Res (List (Nat × Nat × Nat))} {points : List (Pt ℝ)}
    {dirs : List Nat} {flat : List ℂ} {simplices : List (Nat × Nat × Nat)}
    (hd : projectionDirections rtol atol points = .ok dirs) (hf : mapRes (project dirs) points = .ok flat)
    (hs : delaunay flat = .ok simplices)
    (hi : ∀ s ∈ simplices, s.1 < points.length ∧ s.2.1 < points.length ∧ s.2.2 < points.length) :
    triangulateOther rtol atol delaunay points
      = .ok ((simplices.filter fun s => windingNumber (centre flat s) flat != 0).map (corners points)) := by
  have hlen : flat.length = points.length := by
    rw [mapRes_iff] at hf
    exact hf.length_eq.symm
  unfold triangulateOther
  rw [hd, Res.bind_ok, hf, Res.bind_ok, hs, Res.bind_ok]
  have hw : mapRes (fun s : Nat × Nat × Nat => do
      let a ← getIdx flat s.1
      let b ← getIdx flat s.2.1
      let c ← getIdx flat s.2.2
      pure (windingNumber ((a + b + c) / 3) flat)) simplices
      = .ok (simplices.map fun s => windingNumber (centre flat s) flat) := by
    rw [mapRes_iff, List.forall₂_map_right_iff, List.forall₂_same]
    intro s h
    obtain ⟨h1, h2, h3⟩ := hi s h
    rw [getIdx_getD 0 (by omega), getIdx_getD 0 (by omega), getIdx_getD 0 (by omega)]
    rfl
  rw [hw, Res.bind_ok]
  simp only
  rw [mapRes_iff]
  have hz : (simplices.zip (simplices.map fun s => windingNumber (centre flat s) flat))
      = simplices.map fun s => (s, windingNumber (centre flat s) flat) := by
    clear hi hs hw
    induction simplices with
    | nil => rfl
    | cons s l ih => rw [List.map_cons, List.zip_cons_cons, ih, List.map_cons]
  rw [hz, List.filter_map, List.forall₂_map_left_iff, List.forall₂_map_right_iff]
  refine List.forall₂_same.2 ?_
  intro s h
  obtain ⟨h1, h2, h3⟩ := hi s (List.mem_of_mem_filter h)
  simp only
  rw [getIdx_getD 0 h1, getIdx_getD 0 h2, getIdx_getD 0 h3]
  rfl

/-- A triangle whose centre is on no edge is kept just where the closed polygon turns about it. -/
theorem C95_kept_iff {rtol atol : ℝ} {delaunay : List ℂ → Res (List (Nat × Nat × Nat))} {points : List (Pt ℝ)}
    {dirs : List Nat} {flat : List ℂ} {simplices : List (Nat × Nat × Nat)} {ts : List Triangle}
    (hd : projectionDirections rtol atol points = .ok dirs) (hf : mapRes (project dirs) points = .ok flat)
    (hs : delaunay flat = .ok simplices)
    (hi : ∀ s ∈ simplices, s.1 < points.length ∧ s.2.1 < points.length ∧ s.2.2 < points.length)
    (hoff : ∀ s ∈ simplices, OffEdges (centre flat s) flat) (hne : points ≠ [])
    (h : triangulateOther rtol atol delaunay points = .ok ts) (t : Triangle) :
    t ∈ ts ↔ ∃ s ∈ simplices, corners points s = t ∧ ∃ W, Winding (centre flat s) flat W ∧ W ≠ 0 := by
  rw [C95_kept hd hf hs hi] at h
  cases h
  have hfne : flat ≠ [] := by
    rintro rfl
    rw [mapRes_iff] at hf
    cases hf
    exact hne rfl
  simp only [List.mem_map, List.mem_filter, bne_iff_ne]
  constructor
  · rintro ⟨s, ⟨h1, h2⟩, rfl⟩
    exact ⟨s, h1, rfl, _, C95_defined hfne (hoff s h1), h2⟩
  · rintro ⟨s, h1, rfl, W, hW, h0⟩
    exact ⟨s, ⟨h1, by rw [C95_winding hW]; exact h0⟩, rfl⟩

/-- A polygon with five vertices -/
noncomputable def hook : List (Pt ℝ) := [![0, 0, 0], ![10, 0, 0], ![5, 2, 0], ![-5, 0, 0], ![5, -1, 0]]

/-- The same in the plane -/
noncomputable def hookFlat : List ℂ := [⟨0, 0⟩, ⟨10, 0⟩, ⟨5, 2⟩, ⟨-5, 0⟩, ⟨5, -1⟩]

/-- Its Delaunay triangles -/
def hookTriangles : List (Nat × Nat × Nat) := [(3, 0, 2), (3, 4, 0), (0, 4, 2), (4, 1, 2)]

/-- The circle through the corners of a triangle has all other points outside. -/
def EmptyCircle (flat : List ℂ) (s : Nat × Nat × Nat) : Prop :=
  ∃ (o : ℂ) (ρ : ℝ), ∀ i < flat.length,
    if i = s.1 ∨ i = s.2.1 ∨ i = s.2.2 then Complex.normSq (flat.getD i 0 - o) = ρ
    else ρ < Complex.normSq (flat.getD i 0 - o)

theorem hook_delaunay : ∀ s ∈ hookTriangles, EmptyCircle hookFlat s := by
  intro s hs
  simp only [hookTriangles, List.mem_cons, List.not_mem_nil, or_false] at hs
  rcases hs with rfl | rfl | rfl | rfl
  · refine ⟨⟨-5 / 2, 27 / 2⟩, 377 / 2, fun i hi => ?_⟩
    simp only [hookFlat, List.length_cons, List.length_nil, Nat.reduceAdd] at hi
    interval_cases i <;> simp [hookFlat, Complex.normSq_apply] <;> norm_num
  · refine ⟨⟨-5 / 2, -51 / 2⟩, 1313 / 2, fun i hi => ?_⟩
    simp only [hookFlat, List.length_cons, List.length_nil, Nat.reduceAdd] at hi
    interval_cases i <;> simp [hookFlat, Complex.normSq_apply] <;> norm_num
  · refine ⟨⟨27 / 10, 1 / 2⟩, 377 / 50, fun i hi => ?_⟩
    simp only [hookFlat, List.length_cons, List.length_nil, Nat.reduceAdd] at hi
    interval_cases i <;> simp [hookFlat, Complex.normSq_apply] <;> norm_num
  · refine ⟨⟨73 / 10, 1 / 2⟩, 377 / 50, fun i hi => ?_⟩
    simp only [hookFlat, List.length_cons, List.length_nil, Nat.reduceAdd] at hi
    interval_cases i <;> simp [hookFlat, Complex.normSq_apply] <;> norm_num

theorem hook_fan {p : ℂ} {a b c : ℤ} (h1 : Winding p [⟨0, 0⟩, ⟨10, 0⟩, ⟨5, 2⟩] a)
    (h2 : Winding p [⟨0, 0⟩, ⟨5, 2⟩, ⟨-5, 0⟩] b) (h3 : Winding p [⟨0, 0⟩, ⟨-5, 0⟩, ⟨5, -1⟩] c) :
    Winding p hookFlat (a + (b + c)) := C95_cut h1 (C95_cut h2 h3)

theorem outside3 {p a b c : ℂ} (u : ℂ) (ha : 0 < (u * (a - p)).re) (hb : 0 < (u * (b - p)).re)
    (hc : 0 < (u * (c - p)).re) : Winding p [a, b, c] 0 :=
  C95_outside (u := u) (by simp) (by
    simp only [List.forall_mem_cons]
    exact ⟨ha, hb, hc, by simp⟩)

theorem inside3 {p a b c : ℂ} (h1 : LeftOf a b p) (h2 : LeftOf b c p) (h3 : LeftOf c a p) :
    Winding p [a, b, c] 1 :=
  C95_inside_small (by simp) (by simp) (by simp [LeftOfEdges, closed, h1, h2, h3])

theorem hook_winding : ∀ s ∈ hookTriangles, Winding (centre hookFlat s) hookFlat 1 := by
  intro s hs
  simp only [hookTriangles, List.mem_cons, List.not_mem_nil, or_false] at hs
  rcases hs with rfl | rfl | rfl | rfl
  · have e : centre hookFlat (3, 0, 2) = ⟨0, 2 / 3⟩ := by
      apply Complex.ext <;> simp [centre, hookFlat]
    rw [e]
    refine hook_fan (a := 0) (b := 1) (c := 0) (outside3 ⟨2, 5⟩ ?_ ?_ ?_) (inside3 ?_ ?_ ?_) (outside3 ⟨0, 1⟩ ?_ ?_ ?_)
    all_goals
      simp [LeftOf]
      try norm_num
  · have e : centre hookFlat (3, 4, 0) = ⟨0, -1 / 3⟩ := by
      apply Complex.ext <;> simp [centre, hookFlat]
    rw [e]
    refine hook_fan (a := 0) (b := 0) (c := 1) (outside3 ⟨0, -1⟩ ?_ ?_ ?_) (outside3 ⟨0, -1⟩ ?_ ?_ ?_) (inside3 ?_ ?_ ?_)
    all_goals
      simp [LeftOf]
      try norm_num
  · have e : centre hookFlat (0, 4, 2) = ⟨10 / 3, 1 / 3⟩ := by
      apply Complex.ext <;> simp [centre, hookFlat] <;> norm_num
    rw [e]
    refine hook_fan (a := 1) (b := 0) (c := 0) (inside3 ?_ ?_ ?_) (outside3 ⟨-2, -5⟩ ?_ ?_ ?_) (outside3 ⟨0, 1⟩ ?_ ?_ ?_)
    all_goals
      simp [LeftOf]
      try norm_num
  · have e : centre hookFlat (4, 1, 2) = ⟨20 / 3, 1 / 3⟩ := by
      apply Complex.ext <;> simp [centre, hookFlat] <;> norm_num
    rw [e]
    refine hook_fan (a := 1) (b := 0) (c := 0) (inside3 ?_ ?_ ?_) (outside3 ⟨-2, -5⟩ ?_ ?_ ?_) (outside3 ⟨0, 1⟩ ?_ ?_ ?_)
    all_goals
      simp [LeftOf]
      try norm_num

/-- A point about which the hook does not turn -/
theorem hook_outside : Winding ⟨6, -1 / 2⟩ hookFlat 0 := by
  refine hook_fan (a := 0) (b := 0) (c := 0) (outside3 ⟨0, -1⟩ ?_ ?_ ?_) (outside3 ⟨0, -1⟩ ?_ ?_ ?_)
    (outside3 ⟨-1, 0⟩ ?_ ?_ ?_)
  all_goals
    simp
    try norm_num

theorem hook_normal : polygonNormal (1 / 100000) (1 / 100000000) hook = .ok ![0, 0, 1] := by
  have h : planePoints (1 / 100000) (1 / 100000000) hook
      = .ok (![-5, 0, 0], ![10, 0, 0], ![5, 1 / 4, 0]) := by
    refine planePoints_eq (c := ![3, 1 / 5, 0]) (m := ![5, 1 / 4, 0])
      (red := [![0, 0, 0], ![10, 0, 0], ![5, 2, 0], ![5, -1, 0]])
      (q := ![5, -1, 0]) (i := 3) (i' := 4) (j := 1) (k := 4) ?_ ?_ ?_ rfl rfl ?_ rfl ?_ ?_ ?_ ?_ rfl rfl
    · funext k
      fin_cases k <;> simp [mean, hook] <;> norm_num
    · refine argmax_eq (by simp [squares, hook]) ?_ ?_
      · simp [squares, hook, dot]; norm_num
      · intro j hj
        interval_cases j <;> simp [squares, hook, dot] <;> norm_num
    · refine argmin_eq (by simp [squares, hook]) ?_ ?_
      · simp [squares, hook, dot]; norm_num
      · intro j hj
        interval_cases j <;> simp [squares, hook, dot] <;> norm_num
    · have s1 : 8 ≤ norm3 ((![-5, 0, 0] : Pt ℝ) - ![3, 1 / 5, 0]) := by
        rw [norm3]
        refine Real.le_sqrt_of_sq_le ?_
        simp
        norm_num
      have s2 : norm3 ((![5, -1, 0] : Pt ℝ) - ![3, 1 / 5, 0]) ≤ 3 := by
        rw [norm3]
        refine Real.sqrt_le_iff.2 ⟨by norm_num, ?_⟩
        simp
        norm_num
      have s3 := norm3_nonneg ((![5, -1, 0] : Pt ℝ) - ![3, 1 / 5, 0])
      rw [IsClose, not_le, abs_of_nonneg s3, abs_of_nonneg (by linarith)]
      linarith
    · funext k
      fin_cases k <;> simp [mean] <;> norm_num
    · funext k
      fin_cases k <;> simp [mean] <;> norm_num
    · refine argmax_eq (by simp [squares]) ?_ ?_
      · simp [squares, dot]; norm_num
      · intro j hj
        interval_cases j <;> simp [squares, dot] <;> norm_num
    · refine argmin_eq (by simp [squares]) ?_ ?_
      · simp [squares, dot]; norm_num
      · intro j hj
        interval_cases j <;> simp [squares, dot] <;> norm_num
  unfold polygonNormal
  rw [h, Res.bind_ok]
  refine congrArg Except.ok ?_
  have e : cross (![10, 0, 0] - ![-5, 0, 0]) (![5, 1 / 4, 0] - ![-5, 0, 0]) = ![0, 0, (15 / 4 : ℝ)] := by
    refine pt_ext ?_ ?_ ?_ <;> simp <;> norm_num
  have s : norm3 (![0, 0, (15 / 4 : ℝ)]) = 15 / 4 := by
    rw [norm3, show ((![0, 0, 15 / 4] : Pt ℝ) 0 ^ 2 + (![0, 0, 15 / 4] : Pt ℝ) 1 ^ 2
      + (![0, 0, 15 / 4] : Pt ℝ) 2 ^ 2) = (15 / 4) ^ 2 by simp, Real.sqrt_sq (by norm_num)]
  simp only [e]
  rw [normalize, s, if_pos (by norm_num)]
  refine pt_ext ?_ ?_ ?_ <;> simp

/-- Delaunay's method knows only the vertices, not the edges.  Of this polygon all four of its triangles are kept,
and the last contains points about which the polygon does not turn. -/
theorem C95_hull_violated :
    triangulate (1 / 100000) (1 / 100000000) (fun _ => .ok hookTriangles) hook
      = .ok (hookTriangles.map (corners hook))
    ∧ (∀ s ∈ hookTriangles, EmptyCircle hookFlat s)
    ∧ (4, 1, 2) ∈ hookTriangles
    ∧ (![6, -1 / 2, 0] : Pt ℝ) = (7 / 10 : ℝ) • ![5, -1, 0] + (1 / 5 : ℝ) • ![10, 0, 0] + (1 / 10 : ℝ) • ![5, 2, 0]
    ∧ corners hook (4, 1, 2) = (![5, -1, 0], ![10, 0, 0], ![5, 2, 0])
    ∧ Winding ⟨6, -1 / 2⟩ hookFlat 0 := by
  refine ⟨?_, hook_delaunay, by decide, ?_, rfl, hook_outside⟩
  · have hc : convexQ (1 / 100000) (1 / 100000000) hook = .ok false := by
      rw [C94_turns (by simp [hook]) hook_normal]
      refine congrArg Except.ok (decide_eq_false ?_)
      rintro (h | h)
      · have := h 4 (by simp [hook])
        simp [turn, cyclic, hook, dot] at this
        norm_num at this
      · have := h 0 (by simp [hook])
        simp [turn, cyclic, hook, dot] at this
        norm_num at this
    have hdirs : projectionDirections (1 / 100000) (1 / 100000000) hook = .ok [0, 1] := by
      unfold projectionDirections
      rw [hook_normal, Res.bind_ok]
      have : argmax [|(![0, 0, 1] : Pt ℝ) 0|, |(![0, 0, 1] : Pt ℝ) 1|, |(![0, 0, 1] : Pt ℝ) 2|] = 2 := by
        refine argmax_eq (by simp) (by simp) ?_
        intro j hj
        interval_cases j <;> simp
      rw [this]
      rfl
    have hflat : mapRes (project [0, 1]) hook = .ok hookFlat := rfl
    unfold triangulate
    rw [hc, Res.bind_ok, if_neg (by simp), C95_kept hdirs hflat rfl (by simp [hookTriangles, hook])]
    congr 2
    rw [List.filter_eq_self]
    intro s hs
    rw [C95_winding (hook_winding s hs)]
    rfl
  · refine pt_ext ?_ ?_ ?_ <;> simp <;> norm_num

#print axioms C95_kept
#print axioms C95_kept_iff
#print axioms C95_hull_violated

end Verif.Polygon
