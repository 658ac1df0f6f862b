/-
C50 incidence of points and segments, C51 masks of filtered results (points), C53 triangulation of
convex polygons, C60 incidence of points and triangles, C61 incidence of points and polygons.
-/
import Verif.Lemmas.PointGeometry

namespace Verif.Geometry
open MeshBuild MeshGraph Trace MeshMetrics
open scoped Classical

/-! ### C50 -/

/-- C50.  A point of the closed segment is accepted whatever the tolerances; the returned point is
the point itself or an end point within the tolerance of it. -/
theorem C50_accepts {p a b : Pt ℝ} (h : p ∈ segment ℝ a b) {ctol eps : ℝ} (he : 0 ≤ eps) :
    ∃ x, pointLineIntersection ctol p a b eps = some x ∧ (x = p ∨ Close ctol ctol x p) :=
  pointLine_complete h he

/-- C50.  A point off the segment is rejected for all small tolerances. -/
theorem C50_rejects {p a b : Pt ℝ} (h : p ∉ segment ℝ a b) :
    ∃ δ > 0, ∀ ctol < δ, ∀ eps < δ, pointLineIntersection ctol p a b eps = none :=
  pointLine_sound h

/-- C50.  With tolerance 0 the test is exact. -/
theorem C50_exact {p a b x : Pt ℝ} :
    pointLineIntersection 0 p a b 0 = some x ↔ x = p ∧ p ∈ segment ℝ a b := pointLine_exact

/-- A point of the segment between the origin and (2, 0, 0), and one off it. -/
example : (![1, 0, 0] : Pt ℝ) ∈ segment ℝ (![0, 0, 0] : Pt ℝ) ![2, 0, 0] :=
  mem_segment_iff.2 ⟨1 / 2, by norm_num, by norm_num, by
    refine pt_ext ?_ ?_ ?_ <;> simp⟩

example : (![3, 0, 0] : Pt ℝ) ∉ segment ℝ (![0, 0, 0] : Pt ℝ) ![2, 0, 0] := by
  rw [mem_segment_iff]
  rintro ⟨t, h0, h1, h⟩
  have := congrFun h 0
  simp at this
  linarith

/-! ### C51 -/

/-- C51, points and a segment: the returned points are those of the points marked in the mask. -/
theorem C51_points_line (ctol : ℝ) (points : List (Pt ℝ)) (a b : Pt ℝ) (eps : ℝ) :
    MatchesMask (points.map fun p => .ofOption (pointLineIntersection ctol p a b eps))
      (pointsLineIntersection ctol points a b eps) := by
  refine withMask_matches fun o ho => ?_
  obtain ⟨p, -, rfl⟩ := List.mem_map.1 ho
  exact isNotNone_ofOption _

/-- C51, points and a triangle. -/
theorem C51_points_triangle (ctol : ℝ) (points : List (Pt ℝ)) (a b c : Pt ℝ) (eps : ℝ) :
    MatchesMask (points.map fun p => .ofOption (pointTriangleIntersection ctol p a b c eps))
      (pointsTriangleIntersection ctol points a b c eps) := by
  refine withMask_matches fun o ho => ?_
  obtain ⟨p, -, rfl⟩ := List.mem_map.1 ho
  exact isNotNone_ofOption _

/-- C51, points and a polygon. -/
theorem C51_points_polygon {ctol : ℝ} {triangulate : List (Pt ℝ) → Res (List Triangle)}
    {points polygon : List (Pt ℝ)} {eps : ℝ} {r : List (Out (Pt ℝ)) × List Bool}
    (h : pointsPolygonIntersection ctol triangulate points polygon eps = .ok r) :
    ∃ results, List.Forall₂ (fun p o => pointPolygonIntersection ctol triangulate p polygon eps =
      .ok o) points results ∧ MatchesMask (results.map .ofOption) r := by
  unfold pointsPolygonIntersection at h
  obtain ⟨results, h1, h2⟩ := Res.bind_eq_ok.1 h
  cases h2
  refine ⟨results, mapRes_iff.1 h1, withMask_matches fun o ho => ?_⟩
  obtain ⟨p, -, rfl⟩ := List.mem_map.1 ho
  exact isNotNone_ofOption _

/-! ### C53 -/

/-- C53.  A polygon with at least three vertices gives one triangle per side, with the centroid as
apex. -/
theorem C53_triangles {points : List (Pt ℝ)} (h : 3 ≤ points.length) :
    triangulateConvexPolygon points = .ok ((sides points).map fun s =>
      ((fun k => (points.map (· k)).sum / points.length : Pt ℝ), s.1, s.2)) := triangulate_eq h

/-- C53.  There are as many triangles as vertices, and their vector areas add up to the vector area
of the polygon. -/
theorem C53_area {points : List (Pt ℝ)} {triangles : List Triangle}
    (h : triangulateConvexPolygon points = .ok triangles) :
    triangles.length = points.length ∧
      (triangles.map triangleArea).sum = polygonArea points := by
  have h3 : 3 ≤ points.length := by
    by_contra hn
    unfold triangulateConvexPolygon at h
    rw [if_pos (by omega)] at h
    exact absurd h (by simp)
  rw [triangulate_eq h3, Except.ok.injEq] at h
  subst h
  refine ⟨by simp [sides], ?_⟩
  rw [List.map_map]
  simp only [Function.comp_def, triangleArea, polygonArea]
  rw [← area_sum (fun k => (points.map (· k)).sum / points.length), List.smul_sum, List.map_map]
  rfl

/-- C53.  Fewer than three points are rejected. -/
theorem C53_rejects {points : List (Pt ℝ)} (h : points.length < 3) :
    triangulateConvexPolygon points = .error .valueError := by
  unfold triangulateConvexPolygon
  rw [if_pos h]

/-- The unit square has vector area (0, 0, 1). -/
example : polygonArea [![0, 0, 0], ![1, 0, 0], ![1, 1, 0], ![0, 1, 0]] = ![0, 0, 1] := by
  refine pt_ext ?_ ?_ ?_ <;> simp [polygonArea, sides, List.rotate, cross]; norm_num

/-! ### C60 -/

/-- C60.  A point of the closed triangle is accepted whatever the tolerances. -/
theorem C60_accepts {p a b c : Pt ℝ} (h : InTriangle p a b c) {ctol eps : ℝ} (he : 0 ≤ eps) :
    (pointTriangleIntersection ctol p a b c eps).isSome := pointTriangle_complete h he

/-- C60.  A point outside the triangle is rejected for all small tolerances. -/
theorem C60_rejects {p a b c : Pt ℝ} (h : ¬ InTriangle p a b c) :
    ∃ δ > 0, ∀ ctol < δ, ∀ eps < δ, pointTriangleIntersection ctol p a b c eps = none :=
  pointTriangle_sound h

/-- C60.  With tolerance 0 the test is exact. -/
theorem C60_exact {p a b c x : Pt ℝ} :
    pointTriangleIntersection 0 p a b c 0 = some x ↔ x = p ∧ InTriangle p a b c := by
  constructor
  · intro h
    by_cases hm : InTriangle p a b c
    · refine ⟨?_, hm⟩
      rcases pointTriangle_close h with h | h
      · exact h
      · exact close_zero.1 h
    · obtain ⟨δ, h0, hc⟩ := pointTriangle_sound hm
      rw [hc 0 h0 0 h0] at h
      exact absurd h (by simp)
  · rintro ⟨rfl, hm⟩
    obtain ⟨y, hy⟩ := Option.isSome_iff_exists.1
      (pointTriangle_complete hm (ctol := 0) (eps := 0) (le_refl 0))
    rw [hy]
    rcases pointTriangle_close hy with h | h
    · rw [h]
    · rw [close_zero.1 h]

/-- C60.  The returned point is the point itself or a corner within the tolerance of it. -/
theorem C60_close {p a b c x : Pt ℝ} {ctol eps : ℝ}
    (h : pointTriangleIntersection ctol p a b c eps = some x) : x = p ∨ Close ctol ctol x p :=
  pointTriangle_close h

/-- The centre of a triangle is in it, and a point above it is not. -/
example : InTriangle (![1, 1, 0] : Pt ℝ) ![0, 0, 0] ![3, 0, 0] ![0, 3, 0] :=
  ⟨1 / 3, 1 / 3, by norm_num, by norm_num, by norm_num, by
    refine pt_ext ?_ ?_ ?_ <;> simp⟩

example : ¬ InTriangle (![1, 1, 1] : Pt ℝ) ![0, 0, 0] ![3, 0, 0] ![0, 3, 0] := by
  rintro ⟨u, v, -, -, -, h⟩
  have := congrFun h 2
  simp at this

/-! ### C61 -/

/-- C61.  A point in a triangle of the triangulation is accepted, and returned unchanged. -/
theorem C61_accepts {triangulate : List (Pt ℝ) → Res (List Triangle)} {p : Pt ℝ}
    {polygon : List (Pt ℝ)} {triangles : List Triangle} (ht : triangulate polygon = .ok triangles)
    {t : Triangle} (h1 : t ∈ triangles) (h2 : InTriangle p t.1 t.2.1 t.2.2) {ctol eps : ℝ}
    (he : 0 ≤ eps) : pointPolygonIntersection ctol triangulate p polygon eps = .ok (some p) := by
  unfold pointPolygonIntersection
  simp only [ht, Res.bind_ok, Res.pure_eq]
  rw [if_pos]
  rw [List.any_eq_true]
  exact ⟨_, List.mem_map_of_mem h1, pointTriangle_complete h2 he⟩

/-- C61.  A point in no triangle of the triangulation is rejected for all small tolerances. -/
theorem C61_rejects {triangulate : List (Pt ℝ) → Res (List Triangle)} {p : Pt ℝ}
    {polygon : List (Pt ℝ)} {triangles : List Triangle} (ht : triangulate polygon = .ok triangles)
    (h : ∀ t ∈ triangles, ¬ InTriangle p t.1 t.2.1 t.2.2) :
    ∃ δ > 0, ∀ ctol < δ, ∀ eps < δ,
      pointPolygonIntersection ctol triangulate p polygon eps = .ok none := by
  have key : ∃ δ > 0, ∀ ctol < δ, ∀ eps < δ, ∀ t ∈ triangles,
      pointTriangleIntersection ctol p t.1 t.2.1 t.2.2 eps = none := by
    clear ht
    induction triangles with
    | nil => exact ⟨1, one_pos, by simp⟩
    | cons t ts ih =>
      obtain ⟨δ, h0, hδ⟩ := ih (fun t ht => h t (by simp [ht]))
      obtain ⟨δ', h0', hδ'⟩ := pointTriangle_sound (h t (by simp))
      refine ⟨min δ δ', by simp [h0, h0'], fun ctol hc eps he u hu => ?_⟩
      simp only [lt_min_iff] at hc he
      rcases List.mem_cons.1 hu with rfl | hu
      · exact hδ' _ hc.2 _ he.2
      · exact hδ _ hc.1 _ he.1 u hu
  obtain ⟨δ, h0, hδ⟩ := key
  refine ⟨δ, h0, fun ctol hc eps he => ?_⟩
  unfold pointPolygonIntersection
  simp only [ht, Res.bind_ok, Res.pure_eq]
  rw [if_neg]
  simp only [List.any_map, List.any_eq_true, Function.comp_apply, not_exists, not_and]
  intro t ht'
  rw [hδ ctol hc eps he t ht']
  simp

/-- C61.  A polygon that cannot be triangulated raises. -/
theorem C61_error {triangulate : List (Pt ℝ) → Res (List Triangle)} {p : Pt ℝ}
    {polygon : List (Pt ℝ)} {e : Err} (ht : triangulate polygon = .error e) (ctol eps : ℝ) :
    pointPolygonIntersection ctol triangulate p polygon eps = .error e := by
  unfold pointPolygonIntersection
  simp only [ht, Res.bind_error]

#print axioms C50_accepts
#print axioms C50_rejects
#print axioms C50_exact
#print axioms C51_points_line
#print axioms C51_points_triangle
#print axioms C51_points_polygon
#print axioms C53_triangles
#print axioms C53_area
#print axioms C53_rejects
#print axioms C60_accepts
#print axioms C60_rejects
#print axioms C60_exact
#print axioms C60_close
#print axioms C61_accepts
#print axioms C61_rejects
#print axioms C61_error

end Verif.Geometry
