/-
C38 shape equality, C39 boundary shapes, C40 wires.
-/
import Verif.Lemmas.Shape
import Mathlib.Data.Fin.VecNotation
import Mathlib.Tactic.Positivity

namespace Verif.Topology
open Shape
variable {P : Type} {close : P → P → Bool}

/-! ### C38 -/

/-- C38.  A shape equals itself. -/
theorem C38_reflexive (hc : ∀ x, close x x = true) (s : Shape P) :
    equal close s s = .ok true :=
  eq_refl hc _

/-- C38, partial: equal shapes have the same dimension, tag and numbers of boundary and immersed
shapes; the immersed shapes are equal one by one, and so are the boundary shapes if there are no
immersed shapes. -/
theorem C38_equal_partial {a b : Shape P} (h : equal close a b = .ok true) :
    a.dimension = b.dimension ∧ a.tag = b.tag ∧
    a.view.boundary.length = b.view.boundary.length ∧
    List.Forall₂ (Equal close) a.view.immersed b.view.immersed ∧
    (a.view.immersed = [] → List.Forall₂ (Equal close) a.view.boundary b.view.boundary) := by
  rw [← view_dimension a, ← view_dimension b, ← view_tag a, ← view_tag b]
  unfold equal at h
  generalize a.view = a at *
  generalize b.view = b at *
  cases a with
  | vertex t p x =>
    cases b with
    | vertex t' p' x' =>
      simp only [eq, Except.ok.injEq, Bool.and_eq_true, beq_iff_eq] at h
      exact ⟨rfl, h.1, rfl, .nil, fun _ => .nil⟩
    | composed => simp [eq] at h
  | composed k t p bs is =>
    obtain ⟨h1, h2, h3, h4, h5, h6⟩ := eq_composed.1 h
    refine ⟨h1, h2, h3, ?_, h5⟩
    by_cases h0 : is = []
    · subst h0
      have : b.immersed = [] := List.length_eq_zero_iff.1 (by simpa using h4.symm)
      rw [this]
      exact .nil
    · exact (h6 h0).1

/-- C38.  Equal vertices have the same tag and close points, and vertices with the same tag and
close points are equal. -/
theorem C38_vertices (t t' : Int) (p p' : Option Int) (x x' : P) :
    equal close (.vertex t p x) (.vertex t' p' x') = .ok true ↔ t = t' ∧ close x x' = true := by
  simp [equal, view, eq]

/-- C38.  What is compared of a wire are its edges: an immersed shape with immersed shapes of its own
is replaced by these, in order, and every other immersed shape is kept. -/
theorem C38_wire_edges (t : Int) (p : Option Int) (b i : List (Shape P)) :
    (view (.composed .wire t p b i)).immersed =
      (i.map view).flatMap fun s => if s.immersed = [] then [s] else s.immersed := by
  simp only [view, viewAll_eq, if_true, Shape.immersed, expand]

/-- C38.  The immersed shapes of the other shapes are compared as they are. -/
theorem C38_not_wire (k : Kind) (hk : k ≠ .wire) (t : Int) (p : Option Int) (b i : List (Shape P)) :
    (view (.composed k t p b i)).immersed = i.map view := by
  simp only [view, viewAll_eq, hk, if_false, Shape.immersed]

/-- A wire made of a wire of two edges and one more edge shows three edges. -/
example : ((view (.composed .wire 5 none [] [.composed .wire 4 none [] [.composed .edge 0 none [] [],
    .composed .edge 1 none [] []], .composed .edge 2 none [] []] : Shape P)).immersed).map tag =
    [0, 1, 2] := by
  simp [view, viewAll, expand, Shape.immersed, tag]

/-- C38.  Edges with the same tag are equal exactly when their vertices are. -/
theorem C38_edges (t t' : Int) (p p' : Option Int) (b b' : List (Shape P)) :
    equal close (.composed .edge t p b []) (.composed .edge t' p' b' []) = .ok true ↔
      t = t' ∧ List.Forall₂ (fun v w => equal close v w = .ok true) b b' := by
  unfold equal
  simp only [view, viewAll_eq, List.map_nil, reduceCtorEq, if_false]
  refine eq_composed.trans ?_
  simp only [dimension, tag, boundary, immersed, List.length_map, true_and, List.length_nil,
    forall_const, ne_eq, not_true_eq_false, false_implies, and_true, List.forall₂_map_left_iff,
    List.forall₂_map_right_iff, Equal]
  exact ⟨fun h => ⟨h.1, h.2.2⟩, fun h => ⟨h.1, h.2.length_eq, h.2⟩⟩

/-- C38, partial: if closeness of points is symmetric, then whenever both comparisons give an
answer and one of them is `True`, so is the other. -/
theorem C38_symmetric_partial (hc : ∀ x y, close x y = true → close y x = true) {a b : Shape P}
    (h : equal close a b = .ok true) {r : Bool} (hr : equal close b a = .ok r) : r = true :=
  eq_symm hc _ _ h _ hr

/-- The vertex with the given tag at `(x, 0, 0)`. -/
def vertexAt (t : Int) (x : ℚ) : Shape (Fin 3 → ℚ) := .vertex t none ![x, 0, 0]

theorem closePoints_refl (x : Fin 3 → ℚ) : closePoints x x = true := by
  have : ∀ y : ℚ, isclose y y = true := by
    intro y
    have : 0 ≤ |y| := abs_nonneg y
    simp only [isclose, sub_self, abs_zero, decide_eq_true_eq]
    positivity
  simp [closePoints, this]

/-- C38 does not hold for shapes with immersed shapes: two edges with the same immersed shapes are
equal whatever their end points, because shape.py:144 overwrites the comparison of the boundaries. -/
theorem C38_boundary_ignored :
    equal closePoints
      (.composed .edge 0 none [vertexAt 0 0, vertexAt 1 1] [vertexAt 2 (1 / 2)])
      (.composed .edge 0 none [vertexAt 3 5, vertexAt 4 6] [vertexAt 2 (1 / 2)]) = .ok true ∧
    equal closePoints (vertexAt 0 0) (vertexAt 3 5) = .ok false ∧
    equal closePoints (vertexAt 1 1) (vertexAt 4 6) = .ok false := by
  refine ⟨?_, ?_, ?_⟩ <;> decide +kernel

/-- C38, symmetry fails: `np.isclose` is relative to its second argument. -/
theorem C38_not_symmetric :
    equal closePoints (vertexAt 0 1) (vertexAt 0 (1 + 1 / 10 ^ 8 + 1 / 10 ^ 5 + 5 / 10 ^ 11)) =
      .ok true ∧
    equal closePoints (vertexAt 0 (1 + 1 / 10 ^ 8 + 1 / 10 ^ 5 + 5 / 10 ^ 11)) (vertexAt 0 1) =
      .ok false := by
  refine ⟨?_, ?_⟩ <;> decide +kernel

/-- C38, symmetry fails: a vertex on the left of `==` raises `AttributeError` if the right hand
side is no vertex, while the other way round the answer is `False`. -/
theorem C38_vertex_and_edge (t t' : Int) (p p' : Option Int) (x v w : P) (t₁ t₂ : Int) :
    equal close (.vertex t p x)
      (.composed .edge t' p' [.vertex t₁ none v, .vertex t₂ none w] []) =
        .error .attributeError ∧
    equal close (.composed .edge t' p' [.vertex t₁ none v, .vertex t₂ none w] [])
      (.vertex t p x) = .ok false := by
  constructor
  · rfl
  · simp [equal, view, viewAll, eq, dimension, Kind.dimension, boundary, immersed, bind,
      Except.bind, pure, Except.pure]

example : equal closePoints (.composed .edge 7 none [vertexAt 0 0, vertexAt 1 1] [])
    (.composed .edge 7 (some 3) [vertexAt 0 0, vertexAt 1 1] []) = .ok true := by decide +kernel

example : equal closePoints (.composed .edge 7 none [vertexAt 0 0, vertexAt 1 1] [])
    (.composed .edge 7 none [vertexAt 0 0, vertexAt 1 2] []) = .ok false := by decide +kernel

/-! ### C39 -/

/-- C39.  Assigning `boundary_shapes` accepts exactly the lists whose shapes all have an
admissible dimension, and stores a rearrangement of them in the order of their tags; otherwise it
raises `ValueError`. -/
theorem C39_boundary_shapes {argsort : List Int → List Nat} (ha : IsArgsort argsort) (k : Kind)
    (shapes : List (Shape P)) :
    ((∀ s ∈ shapes, s.dimension ∈ k.admissible) → ∃ l, setBoundary argsort k shapes = .ok l ∧
      l.Perm shapes ∧ (l.map tag).Pairwise (· ≤ ·)) ∧
    ((∃ s ∈ shapes, s.dimension ∉ k.admissible) →
      setBoundary argsort k shapes = .error .valueError) := by
  have hperm : ((argsort (shapes.map tag)).filterMap fun i => shapes[i]?).Perm shapes := by
    have := (ha.perm (shapes.map tag)).filterMap fun i => shapes[i]?
    rw [List.length_map, perm_filterMap_range] at this
    exact this
  have hsort := ha.sorted (shapes.map tag)
  have hmap : ((argsort (shapes.map tag)).filterMap fun i => (shapes.map tag)[i]?) =
      ((argsort (shapes.map tag)).filterMap fun i => shapes[i]?).map tag := by
    rw [List.map_filterMap]
    congr 1
    funext i
    rw [List.getElem?_map]
  rw [hmap] at hsort
  constructor
  · intro h
    refine ⟨_, ?_, hperm, hsort⟩
    simp only [setBoundary]
    rw [if_pos (List.all_eq_true.2 fun s hs => by simpa using h s (hperm.mem_iff.1 hs))]
    rfl
  · rintro ⟨s, hs, hd⟩
    simp only [setBoundary]
    rw [if_neg]
    intro h
    exact hd (by simpa using List.all_eq_true.1 h s (hperm.mem_iff.2 hs))

/-- C39.  The dimensions admitted in the boundary are those up to the dimension of the shape: points
and curves for edges and wires, also surfaces for faces and shells, also volumes for solids. -/
theorem C39_admissible (k : Kind) (n : Nat) : n ∈ k.admissible ↔ n ≤ k.dimension := by
  cases k <;> simp only [Kind.admissible, Kind.dimension, List.mem_cons, List.not_mem_nil, or_false]
    <;> omega

/-- C39.  The constructors `Edge`, `Face` and `Solid` build the shape with that boundary, those of
the composite shapes also keep the immersed shapes as given. -/
theorem C39_constructors {argsort : List Int → List Nat} (ha : IsArgsort argsort) (k : Kind)
    (t : Int) (immersed boundary : List (Shape P))
    (hi : ∀ s ∈ immersed, s.dimension ∈ k.admissible)
    (hb : ∀ s ∈ boundary, s.dimension ∈ k.admissible) :
    ∃ l, l.Perm boundary ∧ (l.map tag).Pairwise (· ≤ ·) ∧
      mkSimple argsort k t boundary = .ok (.composed k t none l []) ∧
      mkComposite argsort k t immersed boundary = .ok (.composed k t none l immersed) := by
  obtain ⟨l, h1, h2, h3⟩ := (C39_boundary_shapes ha k boundary).1 hb
  have h4 : setImmersed k immersed = .ok immersed := by
    unfold setImmersed
    rw [if_pos (List.all_eq_true.2 fun s hs => by simpa using hi s hs)]
    rfl
  refine ⟨l, h2, h3, ?_, ?_⟩ <;>
    simp [mkSimple, mkComposite, h1, h4, bind, Except.bind, pure, Except.pure]

/-- C39.  A composite shape rejects immersed shapes of inadmissible dimension. -/
theorem C39_immersed_rejected {argsort : List Int → List Nat} (k : Kind) (t : Int)
    (immersed boundary : List (Shape P)) (hi : ∃ s ∈ immersed, s.dimension ∉ k.admissible) :
    mkComposite argsort k t immersed boundary = .error .valueError := by
  obtain ⟨s, hs, hd⟩ := hi
  have h4 : setImmersed k immersed = .error .valueError := by
    unfold setImmersed
    rw [if_neg]
    intro h
    exact hd (by simpa using List.all_eq_true.1 h s hs)
  simp [mkComposite, h4, bind, Except.bind]

/-- An `argsort`: positions sorted by value. -/
def stableArgsort (l : List Int) : List Nat :=
  (List.range l.length).insertionSort fun i j => l.getD i 0 ≤ l.getD j 0

theorem stableArgsort_is : IsArgsort stableArgsort := by
  refine ⟨fun l => List.perm_insertionSort _ _, fun l => ?_⟩
  have hs : (stableArgsort l).Pairwise fun i j => l.getD i 0 ≤ l.getD j 0 := by
    unfold stableArgsort
    haveI : Std.Total fun i j : Nat => l.getD i 0 ≤ l.getD j 0 := ⟨fun i j => Int.le_total _ _⟩
    haveI : IsTrans Nat fun i j : Nat => l.getD i 0 ≤ l.getD j 0 :=
      ⟨fun i j k h h' => Int.le_trans h h'⟩
    exact List.pairwise_insertionSort (r := fun i j : Nat => l.getD i 0 ≤ l.getD j 0) _
  rw [List.pairwise_filterMap]
  refine hs.imp ?_
  intro i j h x hx y hy
  simpa [List.getD_eq_getElem?_getD, hx, hy] using h

example : mkSimple stableArgsort .edge 3 [vertexAt 5 1, vertexAt 2 0] =
    .ok (.composed .edge 3 none [vertexAt 2 0, vertexAt 5 1] []) := rfl

example : mkSimple (P := Fin 3 → ℚ) stableArgsort .edge 3 [.composed .face 0 none [] []] =
    .error .valueError := rfl

/-! ### C40 -/

/-- C40, partial: if the edges of a wire form a chain, whose first edge goes from its vertex with
the smaller tag to the one with the larger tag, then the signs follow the chain head to tail, the
oriented vertices are those of the chain in order, and the boundary points are its two ends. -/
theorem C40_wire_partial (hc : ∀ x, close x x = true) {edges vs : List (Shape P)}
    (hne : edges ≠ []) (h : IsChain edges vs) (hd : StepsDiffer vs)
    (hfirst : ∀ v w, vs[0]? = some v → vs[1]? = some w → v.tag < w.tag) :
    ∃ signs, orientEdges close edges = .ok signs ∧ FollowsChain edges vs signs ∧
      orientVertices close edges = .ok (vs.take edges.length) ∧
      ∃ x y p p' t t', vs[0]? = some (.vertex t p x) ∧
        vs[edges.length]? = some (.vertex t' p' y) ∧
        wireBoundaryPoints edges signs = .ok (x, y) := by
  obtain ⟨e, es, rfl⟩ := List.exists_cons_of_ne_nil hne
  match vs, h, hd, hfirst with
  | [], h, _, _ => have := h.length; simp at this
  | [_], h, _, _ => have := h.length; simp at this
  | v :: w :: vs, h, hd, hfirst =>
    have hlt := hfirst v w rfl rfl
    obtain ⟨signs, h1, h2⟩ := orientFrom_chain hc h hd
    have hseed := seedVertex_chain h hlt
    refine ⟨signs, ?_, h2, ?_, ?_⟩
    · simp [orientEdges, hseed, h1, bind, Except.bind]
    · simp only [orientVertices, hseed, Res.bind_ok]
      exact verticesFrom_chain hc h hd
    · have hlen := h.length
      obtain ⟨hl, hf⟩ := h2
      obtain ⟨t, p, x, hv⟩ := vertex_cases (h.isVertex v (by simp))
      have hn : (e :: es).length < (v :: w :: vs).length := by rw [hlen]; omega
      obtain ⟨z, hz⟩ : ∃ z, (v :: w :: vs)[(e :: es).length]? = some z :=
        ⟨_, List.getElem?_eq_getElem hn⟩
      obtain ⟨t', p', y, rfl⟩ := vertex_cases (h.isVertex z (List.mem_of_getElem? hz))
      refine ⟨x, y, p, p', t, t', by rw [hv]; rfl, hz, ?_⟩
      obtain ⟨s0, hs0⟩ : ∃ s, signs[0]? = some s := ⟨_, List.getElem?_eq_getElem (by simp [hl])⟩
      obtain ⟨s1, hs1⟩ : ∃ s, signs[es.length]? = some s :=
        ⟨_, List.getElem?_eq_getElem (by simp [hl])⟩
      obtain ⟨el, hel⟩ : ∃ e', (e :: es)[es.length]? = some e' :=
        ⟨_, List.getElem?_eq_getElem (by simp)⟩
      obtain ⟨u, hu⟩ : ∃ u, (v :: w :: vs)[es.length]? = some u :=
        ⟨_, List.getElem?_eq_getElem (by simp only [List.length_cons] at hn ⊢; omega)⟩
      have f0 := hf 0 e v w s0 rfl rfl rfl hs0
      have f1 := hf es.length el u _ s1 hel hu hz hs1
      have g0 : endPoint e (if 0 < s0 then 0 else 1) = .ok v := by
        rcases f0 with ⟨rfl, hb⟩ | ⟨rfl, hb⟩ <;> simp [endPoint, hb, getIdx]
      have g1 : endPoint el (if 0 < s1 then 1 else 0) = .ok (.vertex t' p' y) := by
        rcases f1 with ⟨rfl, hb⟩ | ⟨rfl, hb⟩ <;> simp [endPoint, hb, getIdx]
      have i1 : getIdx (e :: es) ((e :: es).length - 1) = .ok el := by
        simp only [List.length_cons, Nat.add_sub_cancel, getIdx, hel]
      have i2 : getIdx signs (signs.length - 1) = .ok s1 := by
        simp only [hl, List.length_cons, Nat.add_sub_cancel, getIdx, hs1]
      have i3 : getIdx signs 0 = .ok s0 := by simp only [getIdx, hs0]
      have i4 : getIdx (e :: es) 0 = .ok e := rfl
      simp only [wireBoundaryPoints, i1, i2, i3, i4, Res.bind_ok, g0, g1]
      rw [hv]
      rfl

/-- The edge with the given tag between two vertices. -/
def edgeOf (t : Int) (v w : Shape P) : Shape P := .composed .edge t none [v, w] []

/-- C40 does not hold for every closed chain: these three edges form the closed chain 1, 0, 2, 1,
whose first edge goes from the larger to the smaller tag, and the computed signs are not head to
tail along any closed chain of these edges. -/
theorem C40_wrong_start :
    let v : Int → Shape (Fin 3 → ℚ) := fun t => vertexAt t t
    let edges := [edgeOf 0 (v 0) (v 1), edgeOf 1 (v 0) (v 2), edgeOf 2 (v 1) (v 2)]
    IsChain edges [v 1, v 0, v 2, v 1] ∧ StepsDiffer [v 1, v 0, v 2, v 1] ∧
      orientEdges closePoints edges = .ok [1, -1, -1] ∧
      ∀ vs, vs.length = 4 → ¬ FollowsChain edges vs [1, -1, -1] := by
  intro v edges
  refine ⟨⟨rfl, ?_, ?_⟩, ?_, by decide +kernel, ?_⟩
  · intro i e a b h1 h2 h3
    match i with
    | 0 => simp only [edges, List.getElem?_cons_zero, List.getElem?_cons_succ,
        Option.some.injEq, Nat.zero_add] at h1 h2 h3; subst h1 h2 h3; exact Or.inr rfl
    | 1 => simp only [edges, List.getElem?_cons_zero, List.getElem?_cons_succ,
        Option.some.injEq] at h1 h2 h3; subst h1 h2 h3; exact Or.inl rfl
    | 2 => simp only [edges, List.getElem?_cons_zero, List.getElem?_cons_succ,
        Option.some.injEq] at h1 h2 h3; subst h1 h2 h3; exact Or.inr rfl
    | i + 3 => simp [edges] at h1
  · intro a ha
    simp only [List.mem_cons, List.not_mem_nil, or_false] at ha
    rcases ha with rfl | rfl | rfl | rfl <;> rfl
  · intro i a b h1 h2
    match i with
    | 0 => simp only [List.getElem?_cons_zero, List.getElem?_cons_succ,
        Option.some.injEq, Nat.zero_add] at h1 h2; subst h1 h2; simp [v, vertexAt, tag]
    | 1 => simp only [List.getElem?_cons_zero, List.getElem?_cons_succ,
        Option.some.injEq] at h1 h2; subst h1 h2; simp [v, vertexAt, tag]
    | 2 => simp only [List.getElem?_cons_zero, List.getElem?_cons_succ,
        Option.some.injEq] at h1 h2; subst h1 h2; simp [v, vertexAt, tag]
    | i + 3 => simp at h2
  · rintro vs hl ⟨-, hf⟩
    match vs, hl with
    | [a, b, c, d], _ =>
      rcases hf 0 _ a b 1 rfl rfl rfl rfl with ⟨-, h⟩ | ⟨h, -⟩
      · rcases hf 1 _ b c (-1) rfl rfl rfl rfl with ⟨h', -⟩ | ⟨-, h'⟩
        · simp at h'
        · simp only [edgeOf, boundary, List.cons.injEq, and_true] at h h'
          have := h.2.trans h'.2.symm
          simp [v, vertexAt] at this
      · simp at h

/-- C40.  A wire without edges, or whose first edge has less than two boundary shapes, raises
`IndexError`. -/
theorem C40_rejects (close : P → P → Bool) :
    orientEdges close [] = .error .indexError ∧
    ∀ (e : Shape P) (es : List (Shape P)), e.boundary.length < 2 →
      orientEdges close (e :: es) = .error .indexError := by
  refine ⟨rfl, fun e es h => ?_⟩
  match hb : e.boundary, h with
  | [], _ => simp [orientEdges, seedVertex, getIdx, endPoint, hb, bind, Except.bind]
  | [a], _ => simp [orientEdges, seedVertex, getIdx, endPoint, hb, bind, Except.bind]

/-- A square: the hypotheses of `C40_wire_partial` hold. -/
example :
    let v : Int → Shape (Fin 3 → ℚ) := fun t => vertexAt t t
    orientEdges closePoints
      [edgeOf 0 (v 0) (v 1), edgeOf 1 (v 1) (v 2), edgeOf 2 (v 2) (v 3), edgeOf 3 (v 0) (v 3)] =
      .ok [1, 1, 1, -1] := by decide +kernel

example :
    let v : Int → Shape (Fin 3 → ℚ) := fun t => vertexAt t t
    ∃ vs, IsChain [edgeOf 0 (v 0) (v 1), edgeOf 1 (v 0) (v 1)] vs ∧ StepsDiffer vs ∧
      ∀ x y, vs[0]? = some x → vs[1]? = some y → x.tag < y.tag := by
  intro v
  refine ⟨[v 0, v 1, v 0], ⟨rfl, ?_, ?_⟩, ?_, ?_⟩
  · intro i e a b h1 h2 h3
    match i with
    | 0 => simp only [List.getElem?_cons_zero, List.getElem?_cons_succ,
        Option.some.injEq, Nat.zero_add] at h1 h2 h3; subst h1 h2 h3; exact Or.inl rfl
    | 1 => simp only [List.getElem?_cons_zero, List.getElem?_cons_succ,
        Option.some.injEq] at h1 h2 h3; subst h1 h2 h3; exact Or.inr rfl
    | i + 2 => simp at h1
  · intro a ha
    simp only [List.mem_cons, List.not_mem_nil, or_false] at ha
    rcases ha with rfl | rfl | rfl <;> rfl
  · intro i a b h1 h2
    match i with
    | 0 => simp only [List.getElem?_cons_zero, List.getElem?_cons_succ,
        Option.some.injEq, Nat.zero_add] at h1 h2; subst h1 h2; simp [v, vertexAt, tag]
    | 1 => simp only [List.getElem?_cons_zero, List.getElem?_cons_succ,
        Option.some.injEq] at h1 h2; subst h1 h2; simp [v, vertexAt, tag]
    | i + 2 => simp at h2
  · intro x y h1 h2
    simp only [List.getElem?_cons_zero, List.getElem?_cons_succ, Option.some.injEq] at h1 h2
    subst h1 h2
    simp [v, vertexAt, tag]

/-! ### C59 -/

/-- C59, partial: if the boundary shapes have different identities, and so have the immersed
shapes, and all comparisons give an answer, then `other in self` is `True` exactly if a boundary
or immersed shape equals `other`. -/
theorem C59_contains_partial {self other : Shape P}
    (hb : (self.view.boundary.map identity).Nodup) (hi : (self.view.immersed.map identity).Nodup)
    (tb : ∀ s ∈ self.view.boundary, ∃ r, eq close s other.view = .ok r)
    (ti : ∀ s ∈ self.view.immersed, ∃ r, eq close s other.view = .ok r) :
    ∃ r, contains close self other = .ok r ∧
      (r = true ↔ ∃ s, (s ∈ self.view.boundary ∨ s ∈ self.view.immersed) ∧
        eq close s other.view = .ok true) := by
  unfold contains
  rw [containsIn_total tb, containsIn_total ti]
  refine ⟨_, rfl, ?_⟩
  rw [Bool.or_eq_true, decide_eq_true_iff, decide_eq_true_iff, one_of_nodup hb, one_of_nodup hi]
  constructor
  · rintro (⟨s, h1, h2⟩ | ⟨s, h1, h2⟩)
    · exact ⟨s, Or.inl h1, h2⟩
    · exact ⟨s, Or.inr h1, h2⟩
  · rintro ⟨s, h1 | h1, h2⟩
    · exact Or.inl ⟨s, h1, h2⟩
    · exact Or.inr ⟨s, h1, h2⟩

/-- C59 does not hold when a shape is listed twice: a closed edge bounded twice by the same vertex
does not contain it. -/
theorem C59_twice_is_absent :
    contains closePoints (.composed .edge 0 none [vertexAt 5 0, vertexAt 5 0] []) (vertexAt 5 0) =
      .ok false := by decide +kernel

/-- C59.  An edge that contains its two vertices and no other. -/
example : contains closePoints (edgeOf 0 (vertexAt 1 0) (vertexAt 2 1)) (vertexAt 2 1) = .ok true ∧
    contains closePoints (edgeOf 0 (vertexAt 1 0) (vertexAt 2 1)) (vertexAt 3 1) = .ok false := by
  constructor <;> decide +kernel

#print axioms C38_reflexive
#print axioms C38_equal_partial
#print axioms C38_vertices
#print axioms C38_edges
#print axioms C38_symmetric_partial
#print axioms C38_boundary_ignored
#print axioms C38_not_symmetric
#print axioms C38_vertex_and_edge
#print axioms C39_boundary_shapes
#print axioms C39_constructors
#print axioms C39_immersed_rejected
#print axioms C40_wire_partial
#print axioms C40_wrong_start
#print axioms C40_rejects
#print axioms C59_contains_partial
#print axioms C59_twice_is_absent

#print axioms C38_wire_edges
#print axioms C38_not_wire
#print axioms C39_admissible

end Verif.Topology
