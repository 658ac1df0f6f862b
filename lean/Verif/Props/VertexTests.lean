/-
C156: the repository's own tests of the operations on vertices and edges.
-/
import Verif.Model.VertexTests
import Verif.Props.EdgeOps

namespace Verif.VertexTests
open MeshBuild MeshGraph Trace MeshMetrics Geometry VertexOps EdgeOps
open scoped Classical

/-- The tolerances of `globals.py`. -/
def IsGlobals (P : Params) : Prop := P.collapse = 1 / 10 ^ 10 ∧ P.incidence = 1 / 10 ^ 10

example (u : List (Pt ℝ) → List Nat) (s : List ℝ → List Nat) :
    IsGlobals ⟨u, s, 1 / 10 ^ 10, 1 / 10 ^ 10⟩ := ⟨rfl, rfl⟩

/-- All conditions of a test are true. -/
def Passes (l : List Prop) : Prop := ∀ c ∈ l, c

theorem passes_nil : Passes [] := fun _ h => absurd h List.not_mem_nil

theorem passes_cons {p : Prop} {l : List Prop} : Passes (p :: l) ↔ p ∧ Passes l := by
  unfold Passes
  rw [List.forall_mem_cons]

theorem off_line {p a b : Pt ℝ} {ctol eps : ℝ} (he : eps = 1 / 10 ^ 10) (h1 : ¬ Close ctol ctol a p)
    (h2 : ¬ Close ctol ctol b p) (k : Fin 3) (h : 1 / 4 ≤ |cross (p - b) (a - b) k|) :
    pointLineIntersection ctol p a b eps = none := by
  unfold pointLineIntersection
  rw [if_neg h1, if_neg h2, if_neg]
  intro h3
  unfold PointLineIncidence IsClose colinearMeasurement at h3
  have h4 := abs_le_norm3 (cross (p - b) (a - b)) k
  rw [sub_zero, abs_of_nonneg (by linarith [norm3_nonneg (cross (p - b) (a - b))]), abs_zero] at h3
  have h5 : (1 : ℝ) / 10 ^ 10 < 1 / 8 := by norm_num
  rw [he] at h3
  linarith

variable {P : Params}

/-- C156.  `test_vertex_with_same_geometry` passes. -/
theorem C156_same_geometry (h : IsGlobals P) : Passes (testSameGeometry P) := by
  obtain ⟨-, hi⟩ := h
  simp only [testSameGeometry, passes_cons, hi]
  refine ⟨close_self (by norm_num) (by norm_num) _, ?_, passes_nil⟩
  exact not_close 0 (by simp [vtx]; norm_num)

/-- C156.  `test_vertex_strong_equality` passes: `==` has a coarser tolerance. -/
theorem C156_strong_equality (h : IsGlobals P) : Passes (testStrongEquality P) := by
  obtain ⟨-, hi⟩ := h
  have hs : ∀ x : Pt ℝ, DefaultClose x x := fun x => close_self (by norm_num) (by norm_num) _
  simp only [testStrongEquality, passes_cons]
  refine ⟨⟨⟨rfl, hs _⟩, by rw [hi]; exact close_self (by norm_num) (by norm_num) _⟩, ?_, ⟨rfl, ?_⟩, ?_, passes_nil⟩
  · rintro ⟨⟨h, -⟩, -⟩
    simp [vtx] at h
  · intro k
    match k with
    | 0 => simp [IsClose, vtx]; norm_num
    | 1 => simp [IsClose, vtx]
    | 2 => simp [IsClose, vtx]
  · rintro ⟨-, h⟩
    rw [hi] at h
    exact not_close 0 (by simp [vtx]; norm_num) h

/-- C156.  `test_vertex_vertex_intersection` passes. -/
theorem C156_vertex_vertex (h : IsGlobals P) : Passes (testVertexVertex P) := by
  obtain ⟨-, hi⟩ := h
  have hs : ∀ x : Pt ℝ, DefaultClose x x := fun x => close_self (by norm_num) (by norm_num) _
  have hc : ∀ x : Pt ℝ, Close P.incidence P.incidence x x := by
    intro x
    rw [hi]
    exact close_self (by norm_num) (by norm_num) _
  have e1 : ∀ t, vertexVertex P (vtx 0 0 0 0) (vtx 2 0 0 0) t P.incidence = some (.made ⟨t, none, ![0, 0, 0]⟩) := by
    intro t
    unfold vertexVertex
    rw [if_neg, if_pos]
    · rfl
    · exact hc _
    · rintro ⟨⟨h, -⟩, -⟩
      simp [vtx] at h
  simp only [testVertexVertex, passes_cons]
  refine ⟨?_, ⟨_, e1 2, ⟨rfl, hs _⟩, hc _⟩, ⟨_, e1 3, ?_⟩, ⟨.made ⟨2, none, ![0, 1 / 10, 0]⟩, ?_, ⟨rfl, hs _⟩, hc _⟩,
    ?_, passes_nil⟩
  · have n : ¬ SameGeometry (vtx 1 1 0 0) (vtx 0 0 0 0) P.incidence := by
      rw [hi]
      exact not_close 0 (by simp [vtx]; norm_num)
    unfold vertexVertex
    rw [if_neg (fun h => n h.2), if_neg n]
  · rintro ⟨⟨h, -⟩, -⟩
    norm_num [met, ofVtx, vtx] at h
  · unfold vertexVertex
    rw [if_neg, if_pos]
    · rfl
    · intro k
      match k with
      | 0 => simp [IsClose, vtx]; norm_num
      | 1 => simp [IsClose, vtx]; norm_num
      | 2 => simp [IsClose, vtx]; norm_num
    · rintro ⟨⟨h, -⟩, -⟩
      simp [vtx] at h
  · have n : ¬ SameGeometry (vtx 2 0 (1 / 10) 0) (vtx 1 (1 / 10) 0 0) P.incidence := by
      rw [hi]
      exact not_close 1 (by simp [vtx]; norm_num)
    unfold vertexVertex
    rw [if_neg (fun h => n h.2), if_neg n]

/-- A vertex away from both ends of an edge. -/
theorem no_boundary {v : Vtx} {e : Edg} {tag eps : ℝ} (n1 : ¬ SameGeometry v e.first P.incidence)
    (n2 : ¬ SameGeometry v e.second P.incidence) (n3 : ¬ SameGeometry v e.first eps)
    (n4 : ¬ SameGeometry v e.second eps) : onBoundary P v e tag eps = none := by
  unfold onBoundary
  rw [if_neg (fun h => n1 h.2), if_neg (fun h => n2 h.2), if_neg n3, if_neg n4]

/-- C156.  `test_vertex_edge_intersection` passes: at an end, off the edge and inside. -/
theorem C156_vertex_edge (h : IsGlobals P) : Passes (testVertexEdge P) := by
  obtain ⟨hcol, hi⟩ := h
  have hc : ∀ x : Pt ℝ, Close P.incidence P.incidence x x := by
    intro x
    rw [hi]
    exact close_self (by norm_num) (by norm_num) _
  have he : edge 0 (vtx 0 0 0 0) (vtx 1 (1 / 2) (1 / 2) (1 / 2)) =
      ⟨0, none, vtx 0 0 0 0, vtx 1 (1 / 2) (1 / 2) (1 / 2)⟩ := rfl
  have o2 : onEdge P (vtx 2 (1 / 2) (1 / 2) (1 / 2)) (edge 0 (vtx 0 0 0 0) (vtx 1 (1 / 2) (1 / 2) (1 / 2))) minTag
      P.incidence = some (.made minTag ![1 / 2, 1 / 2, 1 / 2]) := by
    unfold onEdge onBoundary
    rw [he, if_neg, if_neg, if_neg, if_pos]
    · rfl
    · exact hc _
    · rw [hi]
      exact not_close 0 (by simp [vtx]; norm_num)
    · rintro ⟨⟨h, -⟩, -⟩
      simp [vtx] at h
    · rintro ⟨⟨h, -⟩, -⟩
      simp [vtx] at h
  have o3 : onEdge P (vtx 2 (1 / 2) (1 / 2) 0) (edge 0 (vtx 0 0 0 0) (vtx 1 (1 / 2) (1 / 2) (1 / 2))) minTag
      P.incidence = none := by
    have n1 : ¬ SameGeometry (vtx 2 (1 / 2) (1 / 2) 0) (vtx 0 0 0 0) P.incidence := by
      rw [hi]
      exact not_close 0 (by simp [vtx]; norm_num)
    have n2 : ¬ SameGeometry (vtx 2 (1 / 2) (1 / 2) 0) (vtx 1 (1 / 2) (1 / 2) (1 / 2)) P.incidence := by
      rw [hi]
      exact not_close 2 (by simp [vtx]; norm_num)
    unfold onEdge
    rw [he, no_boundary n1 n2 n1 n2]
    dsimp only
    rw [off_line hi _ _ 0]
    · rfl
    · simp [vtx]; norm_num
    · rw [hcol]
      exact not_close 0 (by simp [vtx]; norm_num)
    · rw [hcol]
      exact not_close 2 (by simp [vtx]; norm_num)
  have o4 : onEdge P (vtx 2 (1 / 4) (1 / 4) (1 / 4)) (edge 0 (vtx 0 0 0 0) (vtx 1 (1 / 2) (1 / 2) (1 / 2))) minTag
      P.incidence = some (.made minTag ![1 / 4, 1 / 4, 1 / 4]) := by
    have n1 : ¬ SameGeometry (vtx 2 (1 / 4) (1 / 4) (1 / 4)) (vtx 0 0 0 0) P.incidence := by
      rw [hi]
      exact not_close 0 (by simp [vtx]; norm_num)
    have n2 : ¬ SameGeometry (vtx 2 (1 / 4) (1 / 4) (1 / 4)) (vtx 1 (1 / 2) (1 / 2) (1 / 2)) P.incidence := by
      rw [hi]
      exact not_close 2 (by simp [vtx]; norm_num)
    have k1 : ¬ Close P.collapse P.collapse (![0, 0, 0] : Pt ℝ) ![1 / 4, 1 / 4, 1 / 4] := by
      rw [hcol]
      exact not_close 0 (by simp; norm_num)
    have k2 : ¬ Close P.collapse P.collapse (![1 / 2, 1 / 2, 1 / 2] : Pt ℝ) ![1 / 4, 1 / 4, 1 / 4] := by
      rw [hcol]
      exact not_close 0 (by simp; norm_num)
    have hseg : (![1 / 4, 1 / 4, 1 / 4] : Pt ℝ) ∈ segment ℝ (![0, 0, 0] : Pt ℝ) ![1 / 2, 1 / 2, 1 / 2] := by
      refine mem_segment_iff.2 ⟨1 / 2, by norm_num, by norm_num, ?_⟩
      refine pt_ext ?_ ?_ ?_ <;> simp <;> norm_num
    obtain ⟨x, hx, hx'⟩ := pointLine_complete hseg (ctol := P.collapse) (eps := P.incidence) (by rw [hi]; norm_num)
    have : x = ![1 / 4, 1 / 4, 1 / 4] := by
      unfold pointLineIntersection at hx
      rw [if_neg k1, if_neg k2] at hx
      split at hx
      · dsimp only at hx
        split at hx
        · exact (Option.some.inj hx).symm
        · cases hx
      · cases hx
    subst this
    unfold onEdge
    rw [he, no_boundary n1 n2 n1 n2]
    dsimp only
    show (pointLineIntersection P.collapse ![1 / 4, 1 / 4, 1 / 4] ![0, 0, 0] ![1 / 2, 1 / 2, 1 / 2] P.incidence).map _ = _
    rw [hx]
    rfl
  simp only [testVertexEdge, passes_cons, o2, o3, o4]
  refine ⟨by simp, ⟨_, rfl, ?_⟩, ⟨_, rfl, hc _⟩, trivial, by simp, ⟨_, rfl, ?_⟩, ⟨_, rfl, ?_⟩, ⟨_, rfl, hc _⟩, passes_nil⟩
  all_goals
    rintro ⟨h, -⟩
    norm_num [ofVtx, vtx, minTag] at h

/-- C156.  `test_edge_with_same_geometry_q` passes. -/
theorem C156_same_edge (h : IsGlobals P) : Passes (testSameEdge P) := by
  obtain ⟨hcol, -⟩ := h
  simp only [testSameEdge, passes_cons, hcol]
  refine ⟨⟨close_self (by norm_num) (by norm_num) _, close_self (by norm_num) (by norm_num) _⟩, ?_, ?_, passes_nil⟩
  all_goals
    rintro ⟨h, -⟩
    refine not_close 0 ?_ h
    norm_num [vtx, edge, mkEdge]

/-- C156.  `test_edge_strong_equality_q` passes. -/
theorem C156_strong_edge (h : IsGlobals P) : Passes (testStrongEdge P) := by
  obtain ⟨hcol, -⟩ := h
  have hs : ∀ x : Pt ℝ, DefaultClose x x := fun x => close_self (by norm_num) (by norm_num) _
  simp only [testStrongEdge, passes_cons]
  refine ⟨⟨⟨rfl, ⟨rfl, hs _⟩, rfl, hs _⟩, ?_⟩, ?_, ?_, passes_nil⟩
  · rw [hcol]
    exact ⟨close_self (by norm_num) (by norm_num) _, close_self (by norm_num) (by norm_num) _⟩
  all_goals
    rintro ⟨⟨h, -⟩, -⟩
    simp [edge, mkEdge, vtx] at h

/-- The vertices of the second case, found in both orders. -/
theorem corner_meant (hi : P.incidence = 1 / 10 ^ 10) (tag : ℝ) :
    edgeEdgeBoundary P corner0 corner1 tag P.incidence = some (.made tag ![0, 0, 0]) ∧
    edgeEdgeBoundary P corner1 corner0 tag P.incidence = some (.made tag ![0, 0, 0]) := by
  have hc : ∀ x : Pt ℝ, Close P.incidence P.incidence x x := by
    intro x
    rw [hi]
    exact close_self (by norm_num) (by norm_num) _
  have b0 : onBoundary P corner0.first corner1 tag P.incidence = some (.made tag ![0, 0, 0]) := by
    unfold onBoundary
    rw [if_neg, if_neg, if_pos]
    · rfl
    · exact hc _
    · rintro ⟨⟨h, -⟩, -⟩
      simp [corner0, corner1, edge, mkEdge, vtx] at h
    · rintro ⟨⟨h, -⟩, -⟩
      simp [corner0, corner1, edge, mkEdge, vtx] at h
  have b1 : onBoundary P corner1.first corner0 tag P.incidence = some (.made tag ![0, 0, 0]) := by
    unfold onBoundary
    rw [if_neg, if_neg, if_pos]
    · rfl
    · exact hc _
    · rintro ⟨⟨h, -⟩, -⟩
      simp [corner0, corner1, edge, mkEdge, vtx] at h
    · rintro ⟨⟨h, -⟩, -⟩
      simp [corner0, corner1, edge, mkEdge, vtx] at h
  unfold edgeEdgeBoundary
  rw [b0, b1]
  exact ⟨rfl, rfl⟩

/-- Nothing is found for the first case, in any order. -/
theorem apart_none (h : IsGlobals P) (f : Pt ℝ → Pt ℝ → Pt ℝ → ℝ × ℝ) {a b : Edg}
    (hab : a = apart0 ∧ b = apart1 ∨ a = apart1 ∧ b = apart0) (tag : ℝ) :
    edgeEdgeBoundary P a b tag P.incidence = none ∧
    lineLineIntersection ⟨P.collapse, P.incidence⟩ f a.first.point a.second.point b.first.point b.second.point
      P.incidence = .ok .none := by
  obtain ⟨hcol, hi⟩ := h
  have n : ∀ (x y z x' y' z' : ℝ), 1 / 2 ≤ |z - z'| → |z'| ≤ 1 → ∀ eps, eps = 1 / 10 ^ 10 →
      ¬ Close eps eps (![x, y, z] : Pt ℝ) ![x', y', z'] := by
    rintro x y z x' y' z' h1 h2 eps rfl
    refine not_close 2 ?_
    show _ + _ * |z'| < |z - z'|
    have : (1 : ℝ) / 10 ^ 10 ≤ 1 / 8 := by norm_num
    nlinarith [abs_nonneg z']
  have c0 : apart0 = ⟨0, none, vtx 0 0 0 (1 / 2), vtx 1 (1 / 2) (1 / 2) (1 / 2)⟩ := rfl
  have c1 : apart1 = ⟨1, none, vtx 2 0 0 0, vtx 3 (1 / 2) (1 / 2) 0⟩ := rfl
  have z1 : (1 : ℝ) / 2 ≤ |1 / 2 - 0| := by rw [sub_zero, abs_of_nonneg] <;> norm_num
  have z2 : (1 : ℝ) / 2 ≤ |0 - 1 / 2| := by rw [zero_sub, abs_neg, abs_of_nonneg] <;> norm_num
  have z3 : |(1 : ℝ) / 2| ≤ 1 := by rw [abs_of_nonneg] <;> norm_num
  have z4 : |(0 : ℝ)| ≤ 1 := by rw [abs_zero]; norm_num
  have off : pointLineIntersection P.collapse a.first.point b.first.point b.second.point P.incidence = none ∧
      pointLineIntersection P.collapse a.second.point b.first.point b.second.point P.incidence = none := by
    rcases hab with ⟨rfl, rfl⟩ | ⟨rfl, rfl⟩
    · rw [c0, c1]
      refine ⟨off_line hi (n _ _ _ _ _ _ z2 z3 _ hcol) (n _ _ _ _ _ _ z2 z3 _ hcol) 0 ?_,
        off_line hi (n _ _ _ _ _ _ z2 z3 _ hcol) (n _ _ _ _ _ _ z2 z3 _ hcol) 0 ?_⟩ <;>
        (simp [vtx] <;> norm_num)
    · rw [c0, c1]
      refine ⟨off_line hi (n _ _ _ _ _ _ z1 z4 _ hcol) (n _ _ _ _ _ _ z1 z4 _ hcol) 0 ?_,
        off_line hi (n _ _ _ _ _ _ z1 z4 _ hcol) (n _ _ _ _ _ _ z1 z4 _ hcol) 0 ?_⟩ <;>
        (simp [vtx] <;> norm_num)
  have bd : onBoundary P a.first b tag P.incidence = none ∧ onBoundary P a.second b tag P.incidence = none := by
    rcases hab with ⟨rfl, rfl⟩ | ⟨rfl, rfl⟩
    · rw [c0, c1]
      have m := fun x y x' y' => n x y (1 / 2) x' y' 0 z1 z4 _ hi
      exact ⟨no_boundary (m _ _ _ _) (m _ _ _ _) (m _ _ _ _) (m _ _ _ _),
        no_boundary (m _ _ _ _) (m _ _ _ _) (m _ _ _ _) (m _ _ _ _)⟩
    · rw [c0, c1]
      have m := fun x y x' y' => n x y 0 x' y' (1 / 2) z2 z3 _ hi
      exact ⟨no_boundary (m _ _ _ _) (m _ _ _ _) (m _ _ _ _) (m _ _ _ _),
        no_boundary (m _ _ _ _) (m _ _ _ _) (m _ _ _ _) (m _ _ _ _)⟩
  constructor
  · unfold edgeEdgeBoundary onEdge
    simp only [bd.1, bd.2, off.1, off.2, Option.map_none]
  · rw [lineLine_interior off.1 off.2]
    dsimp only
    rw [if_neg]
    rintro ⟨h, -⟩
    obtain ⟨t, ht⟩ : ∃ t, t = (f (a.second.point - a.first.point) (b.second.point - b.first.point)
      (b.first.point - a.first.point)) := ⟨_, rfl⟩
    rw [← ht] at h
    have e : ∀ (u : ℝ) (x y x' y' z : ℝ), (![x, y, z] : Pt ℝ) + u • (![x', y', z] - ![x, y, z]) =
        ![x + u * (x' - x), y + u * (y' - y), z] := by
      intro u x y x' y' z
      refine pt_ext ?_ ?_ ?_ <;> simp
    rcases hab with ⟨rfl, rfl⟩ | ⟨rfl, rfl⟩
    · rw [c0, c1] at h
      dsimp only [vtx] at h
      rw [e, e] at h
      exact n _ _ _ _ _ _ z1 z4 _ hi h
    · rw [c0, c1] at h
      dsimp only [vtx] at h
      rw [e, e] at h
      exact n _ _ _ _ _ _ z2 z3 _ hi h

/-- C156.  `test_edge_edge_intersection` passes, whatever the least squares solutions. -/
theorem C156_edge_edge (h : IsGlobals P) (f : Pt ℝ → Pt ℝ → Pt ℝ → ℝ × ℝ) : Passes (testEdgeEdge P f) := by
  have hi := h.2
  have hs : ∀ x : Pt ℝ, DefaultClose x x := fun x => close_self (by norm_num) (by norm_num) _
  have hc : ∀ x : Pt ℝ, Close P.incidence P.incidence x x := by
    intro x
    rw [hi]
    exact close_self (by norm_num) (by norm_num) _
  have a0 : edgeEdge P f apart0 apart1 2 P.incidence P.incidence = .ok none := by
    obtain ⟨k1, k2⟩ := apart_none h f (Or.inl ⟨rfl, rfl⟩) P.incidence
    unfold edgeEdge
    rw [k1, k2]
    rfl
  have a1 : edgeEdge P f apart1 apart0 2 P.incidence P.incidence = .ok none := by
    obtain ⟨k1, k2⟩ := apart_none h f (Or.inr ⟨rfl, rfl⟩) P.incidence
    unfold edgeEdge
    rw [k1, k2]
    rfl
  have b0 : edgeEdge P f corner0 corner1 2 P.incidence P.incidence = .ok (some (.made P.incidence ![0, 0, 0])) := by
    unfold edgeEdge
    rw [(corner_meant hi _).1]
    rfl
  have b1 : edgeEdge P f corner1 corner0 2 P.incidence P.incidence = .ok (some (.made P.incidence ![0, 0, 0])) := by
    unfold edgeEdge
    rw [(corner_meant hi _).2]
    rfl
  simp only [testEdgeEdge, testEdgeEdgeOf, passes_cons, a0, a1, b0, b1]
  refine ⟨trivial, trivial, ⟨_, _, ⟨_, rfl, rfl⟩, ⟨_, rfl, rfl⟩, ⟨rfl, hs _⟩, hc _⟩, ⟨_, ⟨_, rfl, rfl⟩, ?_⟩,
    ⟨_, ⟨_, rfl, rfl⟩, ?_⟩, ⟨_, ⟨_, rfl, rfl⟩, hc _⟩, ⟨_, ⟨_, rfl, rfl⟩, hc _⟩, passes_nil⟩
  all_goals
    rintro ⟨⟨h, -⟩, -⟩
    rw [hi] at h
    norm_num [ofVtx, vtx] at h

/-- C156.  The fifth assertion of this test passes only since the tag is not used: were the vertex given the tag 2
that the test asks for, it would be equal to the vertex `v2` with the tag 2. -/
theorem C156_meant_violated (h : IsGlobals P) (f : Pt ℝ → Pt ℝ → Pt ℝ → ℝ × ℝ) :
    ¬ Passes (testEdgeEdgeOf P fun a b tag => edgeEdgeMeant P f a b tag P.incidence P.incidence) := by
  have hi := h.2
  have b0 : edgeEdgeMeant P f corner0 corner1 2 P.incidence P.incidence = .ok (some (.made 2 ![0, 0, 0])) := by
    unfold edgeEdgeMeant
    rw [(corner_meant hi _).1]
    rfl
  intro hp
  simp only [testEdgeEdgeOf, passes_cons, b0] at hp
  obtain ⟨-, -, -, -, ⟨o, ⟨r, h1, h2⟩, h3⟩, -⟩ := hp
  cases h1
  cases h2
  refine h3 ⟨⟨?_, close_self (by norm_num) (by norm_num) _⟩, ?_⟩
  · simp [ofVtx, vtx]
  · unfold Same
    rw [hi]
    exact close_self (by norm_num) (by norm_num) _

#print axioms C156_same_geometry

#print axioms C156_strong_equality
#print axioms C156_vertex_vertex
#print axioms C156_vertex_edge
#print axioms C156_same_edge
#print axioms C156_strong_edge
#print axioms C156_edge_edge
#print axioms C156_meant_violated

end Verif.VertexTests
