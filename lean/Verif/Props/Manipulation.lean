/-
Property theorems C114: comparing vertices, edges and points.
-/
import Verif.Lemmas.Manipulation
import Mathlib.Analysis.Convex.Segment
import Mathlib.Tactic.FinCases
import Mathlib.Tactic.NormNum
import Mathlib.Tactic.Linarith
import Mathlib.Tactic.FieldSimp
import Mathlib.Tactic.LinearCombination

namespace Verif.Manip
open MeshBuild MeshGraph Trace MeshMetrics Geometry VertexOps
open scoped Classical

/-- C114: vertices at the same point have the same geometry, and for the tolerance zero no others have; vertices with the
same geometry are within `eps (1 + |b|)` in every coordinate. -/
theorem C114_same_geometry (a b : Vtx) {eps : ℝ} (he : 0 ≤ eps) :
    (a.point = b.point → SameGeometry a b eps) ∧ (SameGeometry a b 0 ↔ a.point = b.point) ∧
      (SameGeometry a b eps ↔ ∀ k, |a.point k - b.point k| ≤ eps * (1 + |b.point k|)) := by
  refine ⟨fun h => ?_, ⟨fun h => ?_, fun h => ?_⟩, ?_⟩
  · unfold SameGeometry
    rw [h]
    exact close_refl he he _
  · funext k
    have := h k
    unfold IsClose at this
    rw [zero_mul, add_zero] at this
    exact sub_eq_zero.1 (abs_nonpos_iff.1 this)
  · unfold SameGeometry
    rw [h]
    exact close_refl le_rfl le_rfl _
  · unfold SameGeometry Close IsClose
    refine forall_congr' fun k => ?_
    rw [mul_add, mul_one]

/-- C114, disagreement: having the same geometry is no equivalence: the tolerance is relative to the second point, and a
chain of points each close to the next ends far away. -/
theorem C114_equivalence_violated :
    (∃ a b : Vtx, SameGeometry a b collapseTol ∧ ¬ SameGeometry b a collapseTol) ∧
    ∃ a b c : Vtx, SameGeometry a b collapseTol ∧ SameGeometry b c collapseTol ∧ ¬ SameGeometry a c collapseTol := by
  constructor
  · refine ⟨⟨0, none, ![0, 0, 0]⟩, ⟨0, none, ![1 / (10 ^ 10 - 1), 0, 0]⟩, fun k => ?_, fun h => ?_⟩
    · unfold IsClose collapseTol
      fin_cases k <;> norm_num
    · have := h 0
      unfold IsClose collapseTol at this
      norm_num at this
  · refine ⟨⟨0, none, ![0, 0, 0]⟩, ⟨0, none, ![1 / 10 ^ 10, 0, 0]⟩, ⟨0, none, ![2 / 10 ^ 10, 0, 0]⟩, fun k => ?_,
      fun k => ?_, fun h => ?_⟩
    · unfold IsClose collapseTol
      fin_cases k <;> norm_num
    · unfold IsClose collapseTol
      fin_cases k <;> norm_num
    · have := h 0
      unfold IsClose collapseTol at this
      norm_num at this

/-- C114: `collapse_vertex`.  The vertex that is returned has the tag of the tool and is at its place if the two are at the
same place (exactly there, unless the tool itself is returned), and is the unchanged object otherwise; the object changes
only if it is returned in place of the tool. -/
theorem C114_collapse (tool object : Vtx) {eps : ℝ} :
    (StrongEquality tool object → collapseVertex tool object eps = (.tool, object)) ∧
    (¬ StrongEquality tool object → SameGeometry tool object eps → collapseVertex tool object eps = (.object, tool)) ∧
    (¬ StrongEquality tool object → ¬ SameGeometry tool object eps →
      collapseVertex tool object eps = (.object, object)) := by
  unfold collapseVertex
  refine ⟨fun h => if_pos h, fun h g => ?_, fun h g => ?_⟩
  · rw [if_neg h, if_pos g]
    rfl
  · rw [if_neg h, if_neg g]

/-- C114: collapsing once more changes nothing: the tool is returned. -/
theorem C114_collapse_again (tool object : Vtx) {eps : ℝ} (h : SameGeometry tool object eps) :
    (collapseVertex tool (collapseVertex tool object eps).2 eps).1 = .tool := by
  by_cases hs : StrongEquality tool object
  · rw [(C114_collapse tool object).1 hs, (C114_collapse tool object).1 hs]
  · rw [(C114_collapse tool object).2.1 hs h, (C114_collapse tool tool).1 (strong_refl tool)]

/-- C114, disagreement: the argument `eps` is not passed on to the strong equality, so vertices with the same tag are
collapsed although they are further apart than `eps`. -/
theorem C114_eps_violated : ∃ tool object : Vtx, ¬ SameGeometry tool object 0 ∧ (collapseVertex tool object 0).1 = .tool := by
  refine ⟨⟨0, none, ![0, 0, 0]⟩, ⟨0, none, ![1 / 10 ^ 11, 0, 0]⟩, fun h => ?_, ?_⟩
  · have := h 0
    unfold IsClose at this
    norm_num at this
  · have : StrongEquality ⟨0, none, ![0, 0, 0]⟩ ⟨0, none, ![1 / 10 ^ 11, 0, 0]⟩ := by
      refine ⟨⟨rfl, fun k => ?_⟩, fun k => ?_⟩
      · unfold IsClose
        fin_cases k <;> norm_num
      · unfold IsClose collapseTol
        fin_cases k <;> norm_num
    rw [(C114_collapse _ _).1 this]

/-- C114: `point_line_intersection` for points `A` and `B` that differ: the point is on the line in the coordinates in which
`A` and `B` differ; the other coordinates are not looked at.  If `A = B` the point has to be this point. -/
theorem C114_point_line (A B P : Pt ℝ) :
    (A = B → (pointLine A B P = true ↔ P = A)) ∧
    (A ≠ B → (pointLine A B P = true ↔ ∃ t : ℝ, ∀ k, A k ≠ B k → P k = A k + t * (B k - A k))) := by
  have three : ∀ u v : Pt ℝ, u = v ↔ u 0 = v 0 ∧ u 1 = v 1 ∧ u 2 = v 2 := by
    intro u v
    constructor
    · rintro rfl
      exact ⟨rfl, rfl, rfl⟩
    · rintro ⟨h0, h1, h2⟩
      funext k
      fin_cases k
      · exact h0
      · exact h1
      · exact h2
  have param : ∀ {a b p t : ℝ}, b ≠ a → ((p - a) / (b - a) = t ↔ p = a + t * (b - a)) := by
    intro a b p t h
    rw [div_eq_iff (sub_ne_zero.2 h)]
    constructor <;> intro e <;> linarith
  constructor
  · intro h
    unfold pointLine
    rw [if_pos ((three A B).1 h), decide_eq_true_iff, three]
  · intro h
    unfold pointLine
    rw [if_neg (fun e => h ((three A B).2 e))]
    have all3 : ∀ t : ℝ, (∀ k, A k ≠ B k → P k = A k + t * (B k - A k)) ↔
        (A 0 ≠ B 0 → P 0 = A 0 + t * (B 0 - A 0)) ∧ (A 1 ≠ B 1 → P 1 = A 1 + t * (B 1 - A 1)) ∧
          (A 2 ≠ B 2 → P 2 = A 2 + t * (B 2 - A 2)) := by
      intro t
      constructor
      · intro g
        exact ⟨g 0, g 1, g 2⟩
      · rintro ⟨g0, g1, g2⟩ k
        fin_cases k
        · exact g0
        · exact g1
        · exact g2
    simp only [all3]
    have hd : ¬ (A 0 = B 0 ∧ A 1 = B 1 ∧ A 2 = B 2) := fun e => h ((three A B).2 e)
    unfold parameter
    by_cases h0 : A 0 = B 0 <;> by_cases h1 : A 1 = B 1 <;> by_cases h2 : A 2 = B 2
    · exact absurd ⟨h0, h1, h2⟩ hd
    all_goals
      simp only [ne_eq, eq_comm (a := B 0), eq_comm (a := B 1), eq_comm (a := B 2), h0, h1, h2, not_true_eq_false, not_false_eq_true, if_true, if_false,
        List.filterMap_cons, List.filterMap_nil, id, List.all_cons, List.all_nil, Bool.and_true, decide_true,
        Bool.true_and, Bool.and_eq_true, decide_eq_true_eq, false_imp_iff, true_imp_iff, true_and, and_true]
    · simp only [← param (Ne.symm h2), exists_eq']
    · simp only [← param (Ne.symm h1), exists_eq']
    · simp only [← param (Ne.symm h1), ← param (Ne.symm h2), exists_eq_left']
    · simp only [← param (Ne.symm h0), exists_eq']
    · simp only [← param (Ne.symm h0), ← param (Ne.symm h2), exists_eq_left']
    · simp only [← param (Ne.symm h0), ← param (Ne.symm h1), exists_eq_left']
    · simp only [← param (Ne.symm h0), ← param (Ne.symm h1), ← param (Ne.symm h2), exists_eq_left']

/-- C114: every point of the line is accepted, and where `A` and `B` differ in all coordinates no other. -/
theorem C114_line (A B P : Pt ℝ) :
    ((∃ t : ℝ, P = A + t • (B - A)) → pointLine A B P = true) ∧
    ((∀ k, A k ≠ B k) → pointLine A B P = true → ∃ t : ℝ, P = A + t • (B - A)) := by
  constructor
  · rintro ⟨t, rfl⟩
    by_cases h : A = B
    · rw [(C114_point_line A B _).1 h, ← h, sub_self, smul_zero, add_zero]
    · rw [(C114_point_line A B _).2 h]
      exact ⟨t, fun k _ => rfl⟩
  · intro hd h
    have hne : A ≠ B := fun e => hd 0 (by rw [e])
    obtain ⟨t, ht⟩ := ((C114_point_line A B P).2 hne).1 h
    exact ⟨t, funext fun k => ht k (hd k)⟩

/-- C114, disagreement: along an axis the other coordinates are ignored, so a point far off the line is accepted; and
points on the line beyond the ends of the segment are accepted. -/
theorem C114_off_line_violated :
    (pointLine ![0, 0, 0] ![1, 0, 0] ![1 / 2, 7, 0] = true ∧ ¬ ∃ t : ℝ, (![1 / 2, 7, 0] : Pt ℝ) = ![0, 0, 0] +
      t • (![1, 0, 0] - ![0, 0, 0])) ∧
    (pointLine ![0, 0, 0] ![1, 1, 1] ![2, 2, 2] = true ∧ (![2, 2, 2] : Pt ℝ) ∉ segment ℝ ![0, 0, 0] ![1, 1, 1]) := by
  refine ⟨⟨?_, ?_⟩, ?_, ?_⟩
  · rw [(C114_point_line _ _ _).2 (fun h => by simpa using congrFun h 0)]
    refine ⟨1 / 2, fun k hk => ?_⟩
    fin_cases k
    · norm_num
    · exact absurd rfl hk
    · exact absurd rfl hk
  · rintro ⟨t, h⟩
    have := congrFun h 1
    norm_num at this
  · refine (C114_line _ _ _).1 ⟨2, ?_⟩
    funext k
    fin_cases k <;> norm_num
  · rintro ⟨a, b, ha, hb, hab, h⟩
    have := congrFun h 0
    norm_num at this
    linarith

/-- C114: `vertex_edge_boundary_intersection` and `point_on_edge_boundary` return the first end of the edge at the place of
the vertex or the point; an edge without two ends raises an `IndexError`. -/
theorem C114_ends (tool : Vtx) (point : Pt ℝ) (t : Int) (a b : Vtx) (l : List Vtx) (eps : ℝ) :
    vertexEdgeBoundary tool ⟨t, a :: b :: l⟩ eps =
      .ok (if SameGeometry tool a eps then some 0 else if SameGeometry tool b eps then some 1 else none) ∧
    pointOnEdge point ⟨t, a :: b :: l⟩ =
      .ok (if DefaultClose point a.point then some 0 else if DefaultClose point b.point then some 1 else none) ∧
    vertexEdgeBoundary tool ⟨t, []⟩ eps = .error .indexError ∧ pointOnEdge point ⟨t, []⟩ = .error .indexError ∧
    vertexEdge tool ⟨t, []⟩ eps = .error .indexError :=
  ⟨firstOf_spec _ t a b l, firstOf_spec _ t a b l, rfl, rfl, rfl⟩

/-- C114: `vertex_edge_intersection` returns an end of the edge at the place of the vertex, for the tolerance given or for
`1e-10`, and nothing else. -/
theorem C114_vertex_edge (tool : Vtx) (t : Int) (a b : Vtx) (l : List Vtx) (eps : ℝ) :
    ∃ r, vertexEdge tool ⟨t, a :: b :: l⟩ eps = .ok r ∧
      (r = none ↔ ¬ SameGeometry tool a eps ∧ ¬ SameGeometry tool b eps ∧ ¬ SameGeometry tool a collapseTol ∧
        ¬ SameGeometry tool b collapseTol) ∧
      (r = some 0 → SameGeometry tool a eps ∨ SameGeometry tool a collapseTol) ∧
      (r = some 1 → SameGeometry tool b eps ∨ SameGeometry tool b collapseTol) ∧ (∀ i, r = some i → i < 2) := by
  unfold vertexEdge
  rw [(C114_ends tool tool.point t a b l eps).1]
  by_cases ha : SameGeometry tool a eps
  · exact ⟨some 0, by rw [if_pos ha]; rfl, by simp [ha], fun _ => .inl ha, by simp, by simp⟩
  · by_cases hb : SameGeometry tool b eps
    · exact ⟨some 1, by rw [if_neg ha, if_pos hb]; rfl, by simp [hb], by simp, fun _ => .inl hb, by simp⟩
    · rw [if_neg ha, if_neg hb]
      refine ⟨_, firstOf_spec (fun v => SameGeometry tool v collapseTol) t a b l, ?_⟩
      by_cases hc : SameGeometry tool a collapseTol <;> by_cases hd : SameGeometry tool b collapseTol <;>
        simp [ha, hb, hc, hd]

/-- C114, disagreement: the inside of the edge is never looked at: a vertex in the middle of an edge has no intersection
with it. -/
theorem C114_inside_violated : ∃ tool a b : Vtx, tool.point ∈ segment ℝ a.point b.point ∧
    vertexEdge tool ⟨0, [a, b]⟩ collapseTol = .ok none := by
  refine ⟨⟨3, none, ![1 / 2, 0, 0]⟩, ⟨1, none, ![0, 0, 0]⟩, ⟨2, none, ![1, 0, 0]⟩, ?_, ?_⟩
  · refine ⟨1 / 2, 1 / 2, by norm_num, by norm_num, by norm_num, ?_⟩
    funext k
    fin_cases k <;> norm_num
  · obtain ⟨r, h, hn, -⟩ := C114_vertex_edge ⟨3, none, ![1 / 2, 0, 0]⟩ 0 ⟨1, none, ![0, 0, 0]⟩ ⟨2, none, ![1, 0, 0]⟩ []
      collapseTol
    have h1 : ¬ SameGeometry ⟨3, none, ![1 / 2, 0, 0]⟩ ⟨1, none, ![0, 0, 0]⟩ collapseTol := by
      intro g
      have := g 0
      unfold IsClose collapseTol at this
      norm_num at this
    have h2 : ¬ SameGeometry ⟨3, none, ![1 / 2, 0, 0]⟩ ⟨2, none, ![1, 0, 0]⟩ collapseTol := by
      intro g
      have := g 0
      unfold IsClose collapseTol at this
      norm_num [abs_le] at this
    rw [h, hn.2 ⟨h1, h2, h1, h2⟩]

/-- C114: `points_on_face_boundary` returns the first edge of the boundary that joins the two points, in one of the orders,
and nothing if no edge does. -/
theorem C114_face (x y : Pt ℝ) (wires : List (List BEdge)) (h : ∀ w ∈ wires, ∀ e ∈ w, 2 ≤ e.ends.length) :
    onFace x y wires = .ok (wires.flatten.find? fun e => decide (Joins x y e)) ∧
      (onFace x y wires = .ok none ↔ ∀ w ∈ wires, ∀ e ∈ w, ¬ Joins x y e) := by
  have main : onFace x y wires = .ok (wires.flatten.find? fun e => decide (Joins x y e)) := by
    induction wires with
    | nil => rfl
    | cons w ws ih =>
      have ih := ih fun w hw => h w (List.mem_cons_of_mem _ hw)
      show (onWire x y w).bind (fun r => match r with
        | some e => (pure (some e) : Res (Option BEdge))
        | none => onFace x y ws) = _
      rw [onWire_spec x y w (h w List.mem_cons_self), List.flatten_cons, List.find?_append, ih]
      cases List.find? (fun e => decide (Joins x y e)) w <;> rfl
  refine ⟨main, ?_⟩
  rw [main]
  simp only [Except.ok.injEq, List.find?_eq_none, List.mem_flatten, decide_eq_true_eq]
  exact ⟨fun g w hw e he => g e ⟨w, hw, he⟩, fun g e ⟨w, hw, he⟩ => g w hw e he⟩

/-- C114: an edge without two ends that is reached raises an `IndexError`. -/
theorem C114_face_errors (x y : Pt ℝ) (t : Int) (v : Vtx) (es : List BEdge) (ws : List (List BEdge)) :
    onFace x y ((⟨t, [v]⟩ :: es) :: ws) = .error .indexError ∧
      onFace x y ((⟨t, []⟩ :: es) :: ws) = .error .indexError := ⟨rfl, rfl⟩

/-- A triangle: its second side joins its second and third corner. -/
example : let a : Vtx := ⟨1, none, ![0, 0, 0]⟩
    let b : Vtx := ⟨2, none, ![1, 0, 0]⟩
    let c : Vtx := ⟨3, none, ![0, 1, 0]⟩
    onFace ![0, 1, 0] ![1, 0, 0] [[⟨1, [a, b]⟩, ⟨2, [b, c]⟩, ⟨3, [a, c]⟩]] = .ok (some ⟨2, [b, c]⟩) := by
  intro a b c
  rw [(C114_face _ _ _ (by simp)).1]
  have h1 : ¬ Joins ![0, 1, 0] ![1, 0, 0] ⟨1, [a, b]⟩ := by
    rintro ⟨a', b', l, e, h⟩
    simp only [List.cons.injEq] at e
    obtain ⟨rfl, rfl, -⟩ := e
    rcases h with ⟨h, -⟩ | ⟨h, -⟩
    · have := h 1
      norm_num [IsClose, a] at this
    · have := h 1
      norm_num [IsClose, b] at this
  have h2 : Joins ![0, 1, 0] ![1, 0, 0] ⟨2, [b, c]⟩ :=
    ⟨b, c, [], rfl, .inr ⟨close_refl (by positivity) (by positivity) _, close_refl (by positivity) (by positivity) _⟩⟩
  simp [h1, h2]

#print axioms C114_same_geometry
#print axioms C114_equivalence_violated
#print axioms C114_collapse
#print axioms C114_collapse_again
#print axioms C114_eps_violated
#print axioms C114_point_line
#print axioms C114_line
#print axioms C114_off_line_violated
#print axioms C114_ends
#print axioms C114_vertex_edge
#print axioms C114_inside_violated
#print axioms C114_face
#print axioms C114_face_errors

end Verif.Manip
