/-
C162: the example of a fractured line.
-/
import Verif.Model.FracturedLine
import Verif.Props.LineGeometry

namespace Verif.FracturedLine
open MeshBuild MeshGraph Trace MeshMetrics Geometry
open scoped Classical

/-- The three edges -/
def e0 : Line := (![0, 0, 0], ![1, 0, 1])
def e1 : Line := (![1, 0, 0], ![0, 1, 0])
def e2 : Line := (![0, 1, 0], ![0, 0, 0])

theorem C162_lines : lines = .ok [e0, e1, e2] := rfl

/-- C162, disagreement.  The first edge and the second have no common point. -/
theorem C162_apart_violated : ∀ x, ¬ (x ∈ segment ℝ e0.1 e0.2 ∧ x ∈ segment ℝ e1.1 e1.2) := by
  rintro x ⟨h1, h2⟩
  obtain ⟨t, -, -, rfl⟩ := mem_segment_iff.1 h1
  obtain ⟨s, -, -, h⟩ := mem_segment_iff.1 h2
  have a0 := congrFun h 0
  have a1 := congrFun h 1
  have a2 := congrFun h 2
  simp [e0, e1] at a0 a1 a2
  linarith

theorem meet02 {f : Pt ℝ → Pt ℝ → Pt ℝ → ℝ × ℝ} (hf : IsLstsq f) :
    lineLineIntersection ⟨0, 0⟩ f e0.1 e0.2 e2.1 e2.2 0 = .ok (.points [![0, 0, 0]]) ∧
      lineLineIntersection ⟨0, 0⟩ f e2.1 e2.2 e0.1 e0.2 0 = .ok (.points [![0, 0, 0]]) := by
  have h1 : (![0, 0, 0] : Pt ℝ) ∈ segment ℝ e0.1 e0.2 := left_mem_segment ℝ _ _
  have h2 : (![0, 0, 0] : Pt ℝ) ∈ segment ℝ e2.1 e2.2 := right_mem_segment ℝ _ _
  constructor
  · refine (C52_exact hf ?_).1 _ h1 h2
    intro h; have := congrFun h 0; simp [cross, e0, e2] at this
  · refine (C52_exact hf ?_).1 _ h2 h1
    intro h; have := congrFun h 0; simp [cross, e0, e2] at this

theorem meet12 {f : Pt ℝ → Pt ℝ → Pt ℝ → ℝ × ℝ} (hf : IsLstsq f) :
    lineLineIntersection ⟨0, 0⟩ f e1.1 e1.2 e2.1 e2.2 0 = .ok (.points [![0, 1, 0]]) ∧
      lineLineIntersection ⟨0, 0⟩ f e2.1 e2.2 e1.1 e1.2 0 = .ok (.points [![0, 1, 0]]) := by
  have h1 : (![0, 1, 0] : Pt ℝ) ∈ segment ℝ e1.1 e1.2 := right_mem_segment ℝ _ _
  have h2 : (![0, 1, 0] : Pt ℝ) ∈ segment ℝ e2.1 e2.2 := left_mem_segment ℝ _ _
  constructor
  · refine (C52_exact hf ?_).1 _ h1 h2
    intro h; have := congrFun h 2; simp [cross, e1, e2] at this
  · refine (C52_exact hf ?_).1 _ h2 h1
    intro h; have := congrFun h 2; simp [cross, e1, e2] at this

theorem meet01 {f : Pt ℝ → Pt ℝ → Pt ℝ → ℝ × ℝ} (hf : IsLstsq f) :
    lineLineIntersection ⟨0, 0⟩ f e0.1 e0.2 e1.1 e1.2 0 = .ok .none ∧
      lineLineIntersection ⟨0, 0⟩ f e1.1 e1.2 e0.1 e0.2 0 = .ok .none := by
  constructor
  · refine (C52_exact hf ?_).2 C162_apart_violated
    intro h; have := congrFun h 0; simp [cross, e0, e1] at this
  · refine (C52_exact hf ?_).2 fun x h => C162_apart_violated x h.symm
    intro h; have := congrFun h 0; simp [cross, e0, e1] at this

/-- The other edges are the tools. -/
noncomputable def others (o : Line) : List Line := [e0, e1, e2].filter fun t =>
  ¬ (Close (1 / 10 ^ 5) (1 / 10 ^ 8) t.1 o.1 ∧ Close (1 / 10 ^ 5) (1 / 10 ^ 8) t.2 o.2)

theorem same (l : Line) : Close (1 / 10 ^ 5) (1 / 10 ^ 8) l.1 l.1 ∧ Close (1 / 10 ^ 5) (1 / 10 ^ 8) l.2 l.2 :=
  ⟨close_self (by positivity) (by positivity) _, close_self (by positivity) (by positivity) _⟩

theorem differ : ∀ {a b : Pt ℝ} (k : Fin 3), (a k = 1 ∧ b k = 0) ∨ (a k = 0 ∧ b k = 1) →
    ¬ Close (1 / 10 ^ 5) (1 / 10 ^ 8) a b := by
  intro a b k h hc
  have := hc k
  unfold IsClose at this
  rcases h with ⟨h1, h2⟩ | ⟨h1, h2⟩ <;> rw [h1, h2] at this <;> norm_num at this

theorem others_eq : others e0 = [e1, e2] ∧ others e1 = [e0, e2] ∧ others e2 = [e0, e1] := by
  have s0 := same e0
  have s1 := same e1
  have s2 := same e2
  have d01 : ¬ Close (1 / 10 ^ 5) (1 / 10 ^ 8) e0.1 e1.1 := differ 0 (by simp [e0, e1])
  have d10 : ¬ Close (1 / 10 ^ 5) (1 / 10 ^ 8) e1.1 e0.1 := differ 0 (by simp [e0, e1])
  have d02 : ¬ Close (1 / 10 ^ 5) (1 / 10 ^ 8) e0.1 e2.1 := differ 1 (by simp [e0, e2])
  have d20 : ¬ Close (1 / 10 ^ 5) (1 / 10 ^ 8) e2.1 e0.1 := differ 1 (by simp [e0, e2])
  have d12 : ¬ Close (1 / 10 ^ 5) (1 / 10 ^ 8) e1.1 e2.1 := differ 0 (by simp [e1, e2])
  have d21 : ¬ Close (1 / 10 ^ 5) (1 / 10 ^ 8) e2.1 e1.1 := differ 0 (by simp [e1, e2])
  refine ⟨?_, ?_, ?_⟩
  · unfold others
    rw [List.filter_cons_of_neg (by simpa using s0), List.filter_cons_of_pos (by exact decide_eq_true fun h => d10 h.1),
      List.filter_cons_of_pos (by exact decide_eq_true fun h => d20 h.1), List.filter_nil]
  · unfold others
    rw [List.filter_cons_of_pos (by exact decide_eq_true fun h => d01 h.1), List.filter_cons_of_neg (by simpa using s1),
      List.filter_cons_of_pos (by exact decide_eq_true fun h => d21 h.1), List.filter_nil]
  · unfold others
    rw [List.filter_cons_of_pos (by exact decide_eq_true fun h => d02 h.1), List.filter_cons_of_pos (by exact decide_eq_true fun h => d12 h.1),
      List.filter_cons_of_neg (by simpa using s2), List.filter_nil]

/-- C162.  The intersections of the edges: two points, each found from both of its edges. -/
theorem C162_intersections {f : Pt ℝ → Pt ℝ → Pt ℝ → ℝ × ℝ} (hf : IsLstsq f) :
    linesLinesIntersection ⟨0, 0⟩ f [e0, e1, e2] [e0, e1, e2] 0 =
      .ok [[[![0, 0, 0]]], [[![0, 1, 0]]], [[![0, 0, 0]], [![0, 1, 0]]]] := by
  obtain ⟨o0, o1, o2⟩ := others_eq
  have h0 : linesLineIntersection ⟨0, 0⟩ f (others e0) e0.1 e0.2 0 = .ok [[![0, 0, 0]]] := by
    rw [o0]
    unfold linesLineIntersection
    simp only [mapRes, (meet01 hf).2, (meet02 hf).2, Res.bind_ok, pure, Except.pure, linesLineIntersection.collect]
  have h1 : linesLineIntersection ⟨0, 0⟩ f (others e1) e1.1 e1.2 0 = .ok [[![0, 1, 0]]] := by
    rw [o1]
    unfold linesLineIntersection
    simp only [mapRes, (meet01 hf).1, (meet12 hf).2, Res.bind_ok, pure, Except.pure, linesLineIntersection.collect]
  have h2 : linesLineIntersection ⟨0, 0⟩ f (others e2) e2.1 e2.2 0 = .ok [[![0, 0, 0]], [![0, 1, 0]]] := by
    rw [o2]
    unfold linesLineIntersection
    simp only [mapRes, (meet02 hf).1, (meet12 hf).1, Res.bind_ok, pure, Except.pure, linesLineIntersection.collect]
  unfold linesLinesIntersection
  unfold others at h0 h1 h2
  simp only [mapRes, h0, h1, h2, Res.bind_ok, pure, Except.pure]

example : ∃ f, IsLstsq f := exists_lstsq

/-- C162.  If `np.unique` keeps one of each, two vertices of the intersections are made. -/
theorem C162_points {f : Pt ℝ → Pt ℝ → Pt ℝ → ℝ × ℝ} (hf : IsLstsq f) {dedup : List (Pt ℝ) → List (Pt ℝ)}
    (hd : ∀ l, (dedup l).Nodup ∧ ∀ x, x ∈ dedup l ↔ x ∈ l) :
    ∃ xs, uniquePoints f dedup = .ok xs ∧ xs.Perm [![0, 0, 0], ![0, 1, 0]] := by
  refine ⟨dedup [![0, 0, 0], ![0, 1, 0], ![0, 0, 0], ![0, 1, 0]], ?_, ?_⟩
  · unfold uniquePoints linesLinesPoints
    rw [C162_lines, Res.bind_ok, C162_intersections hf, Res.bind_ok]
    rfl
  · obtain ⟨h1, h2⟩ := hd [![0, 0, 0], ![0, 1, 0], ![0, 0, 0], ![0, 1, 0]]
    rw [List.perm_ext_iff_of_nodup h1]
    · intro x
      rw [h2]
      simp only [List.mem_cons, List.not_mem_nil, or_false]
      tauto
    · rw [List.nodup_cons]
      refine ⟨?_, List.nodup_singleton _⟩
      rw [List.mem_singleton]
      intro h
      have := congrFun h 1
      simp at this

example : ∃ dedup : List (Pt ℝ) → List (Pt ℝ), ∀ l, (dedup l).Nodup ∧ ∀ x, x ∈ dedup l ↔ x ∈ l :=
  ⟨fun l => l.dedup, fun l => ⟨List.nodup_dedup l, fun _ => List.mem_dedup⟩⟩

theorem newTags_eq (tag : Nat) : ∀ xs : List (Pt ℝ), (newTags tag xs).map (·.1) = List.range' tag xs.length ∧
    (newTags tag xs).map (·.2) = xs
  | [] => ⟨rfl, rfl⟩
  | x :: xs => by
    obtain ⟨h1, h2⟩ := newTags_eq (tag + 1) xs
    exact ⟨by simp [newTags, h1, List.range'_succ], by simp [newTags, h2]⟩

/-- C162.  The new vertices have new tags, one each. -/
theorem C162_tags (tag : Nat) (xs : List (Pt ℝ)) : (newTags tag xs).map (·.1) = List.range' tag xs.length ∧
    (newTags tag xs).map (·.2) = xs := newTags_eq tag xs

/-- C162, disagreement.  The script does not reach its mesh: `generate_mesh` takes no second argument. -/
theorem C162_mesh_violated {D : Type} (f : Pt ℝ → Pt ℝ → Pt ℝ → ℝ × ℝ) (dedup : List (Pt ℝ) → List (Pt ℝ))
    (domain : List (Nat × Pt ℝ) → Res D) (d : D) : script f dedup domain ≠ .ok d := by
  unfold script
  intro h
  obtain ⟨xs, -, h⟩ := Res.bind_eq_ok.1 h
  obtain ⟨d', -, h⟩ := Res.bind_eq_ok.1 h
  obtain ⟨u, h, -⟩ := Res.bind_eq_ok.1 h
  cases h

#print axioms C162_lines

#print axioms C162_apart_violated
#print axioms C162_intersections
#print axioms C162_points
#print axioms C162_tags
#print axioms C162_mesh_violated

end Verif.FracturedLine
