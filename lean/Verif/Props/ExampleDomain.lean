/-
Property theorems C136: the domains of the degenerate examples
(examples/degenerate_elliptic_scalar/domain_builder.py).
-/
import Verif.Lemmas.ExampleDomain
import Verif.Props.DomainMarket

namespace Verif.Topology
open Shape MeshGraph
variable {P : Type} {argsort : List Int → List Nat} {close : P → P → Bool}

/-- The physical tags of the vertices of a line -/
def lineEnds (tags : Dict String Int) (i : Nat) : Option Int :=
  if i = 0 then tags.get? "bc_0" else if i = 2 then tags.get? "bc_1" else none

/-- A line through three or more points: one edge between each point and the next, with the tag
`line_i`; the tags of the ends are on the first and on the third point. -/
theorem C136_line (ha : IsArgsort argsort) {points : List P} (h : 3 ≤ points.length)
    (physicalTags : Option (Dict String Int)) :
    let tags := physicalTags.getD defaultTagsLine
    ∃ vs es, buildLine1D argsort points physicalTags = .ok ⟨1, [vs, es]⟩ ∧
      VerticesAt points (lineEnds tags) vs ∧ es.length = points.length - 1 ∧
      ∀ (i : Nat) v w, vs[i]? = some v → vs[i + 1]? = some w →
        es[i]? = some (.composed .edge i (tags.get? ("line_" ++ toString i)) [v, w] []) := by
  intro tags
  have hne : points ≠ [] := by rintro rfl; simp at h
  set old := newVertices points with hold
  have hat : ∀ (i : Nat) (hi : i < points.length),
      old[i]? = some (.vertex i none points[i]) := by
    intro i hi
    rw [hold, newVertices_getElem?, List.getElem?_eq_getElem hi]; rfl
  set vs := (old.set 0 (.vertex (0 : Nat) (tags.get? "bc_0") (points[0]'(by omega)))).set 2
    (.vertex (2 : Nat) (tags.get? "bc_1") (points[2]'(by omega))) with hvs
  have hlen : old.length = points.length := newVertices_length points
  have hv : VerticesAt points (lineEnds tags) vs := by
    refine ⟨by simp [hvs, hlen], ?_⟩
    intro i x hx
    obtain ⟨hi, rfl⟩ := List.getElem?_eq_some_iff.1 hx
    rw [hvs, List.getElem?_set]
    by_cases h2 : i = 2
    · subst h2
      rw [if_pos rfl, if_pos (by simp [hlen]; omega)]
      rfl
    · rw [if_neg (Ne.symm h2), List.getElem?_set]
      by_cases h0 : i = 0
      · subst h0
        rw [if_pos rfl, if_pos (by omega)]
        rfl
      · rw [if_neg (Ne.symm h0), hat i hi, lineEnds, if_neg h0, if_neg h2]
  let f : Nat → Shape P := fun i => vs.getD i (.vertex 0 none (points[0]'(by omega)))
  have hf : ∀ i < points.length, vs[i]? = some (f i) := by
    intro i hi
    have := hv.2 i _ (List.getElem?_eq_getElem hi)
    simp only [f, List.getD_eq_getElem?_getD, this, Option.getD_some]
  have hshape : ∀ i < points.length, (f i).dimension = 0 ∧ (f i).tag = (i : Int) := by
    intro i hi
    have h1 := hv.2 i _ (List.getElem?_eq_getElem hi)
    have h2 := Option.some.inj ((hf i hi).symm.trans h1)
    rw [h2]; exact ⟨rfl, rfl⟩
  refine ⟨vs, (List.range (points.length - 1)).map fun i : Nat =>
    segment (i : Int) (tags.get? (lineLabel i)) (f i) (f (i + 1)), ?_, hv, by simp, ?_⟩
  · unfold buildLine1D
    dsimp only
    rw [append_vertices hne, ← hold]
    simp only [bind, Except.bind, List.replicate, List.set_cons_zero]
    rw [show getIdx [old, []] 0 = .ok old from rfl]
    simp only []
    rw [getIdx_ok (hat 0 (by omega))]
    simp only []
    rw [getIdx_ok (l := List.set old 0 _) (i := 2)
      (a := .vertex (2 : Nat) none (points[2]'(by omega))) (by
        rw [List.getElem?_set, if_neg (by omega)]; exact hat 2 (by omega))]
    simp only [Shape.tagged]
    exact lineEdges_ok ha hf (fun i hi => (hshape i hi).1) (fun i hi => (hshape i hi).2) _ []
      (by intro i hi; simp at hi; omega)
  · intro i v w h1 h2
    have hi : i + 1 < points.length := by
      have := (List.getElem?_eq_some_iff.1 h2).1
      rw [← hv.1]; exact this
    have e1 := Option.some.inj ((hf i (by omega)).symm.trans h1)
    have e2 := Option.some.inj ((hf (i + 1) hi).symm.trans h2)
    rw [List.getElem?_map, List.getElem?_range (by omega)]
    show some (segment (i : Int) (tags.get? (lineLabel i)) (f i) (f (i + 1))) = _
    rw [e1, e2]; rfl

/-- A line between two points cannot be built. -/
theorem C136_line_short_violated {points : List P} (h : points.length < 3)
    (physicalTags : Option (Dict String Int)) :
    buildLine1D argsort points physicalTags = .error .indexError := by
  match points, h with
  | [], _ => rfl
  | [x], _ => rfl
  | [x, y], _ => rfl

/-- With exactly three points the two ends of the line, and no other vertex, have physical
tags. -/
theorem C136_line_ends (ha : IsArgsort argsort) (x y z : P) :
    ∃ v u w e e', buildLine1D argsort [x, y, z] none = .ok ⟨1, [[v, u, w], [e, e']]⟩ ∧
      v = .vertex 0 (some 3) x ∧ u = .vertex 1 none y ∧ w = .vertex 2 (some 4) z ∧
      e = .composed .edge 0 (some 1) [v, u] [] ∧ e' = .composed .edge 1 (some 2) [u, w] [] := by
  obtain ⟨vs, es, h1, ⟨h2, h3⟩, h4, h5⟩ := C136_line ha (points := [x, y, z]) (by simp) none
  have a0 := h3 0 x rfl
  have a1 := h3 1 y rfl
  have a2 := h3 2 z rfl
  have b0 := h5 0 _ _ a0 a1
  have b1 := h5 1 _ _ a1 a2
  match vs, h2 with
  | [v, u, w], _ =>
    match es, h4 with
    | [e, e'], _ =>
      refine ⟨v, u, w, e, e', h1, ?_, ?_, ?_, ?_, ?_⟩
      · exact Option.some.inj a0
      · exact Option.some.inj a1
      · exact Option.some.inj a2
      · have c0 : v = _ := Option.some.inj a0
        have c1 : u = _ := Option.some.inj a1
        have d0 : e = _ := Option.some.inj b0
        rw [d0, c0, c1]; rfl
      · have c0 : u = _ := Option.some.inj a1
        have c1 : w = _ := Option.some.inj a2
        have d0 : e' = _ := Option.some.inj b1
        rw [d0, c0, c1]; rfl

/-- With more points the last one has no physical tag: the tag of the end is on the third, which
is the end of two edges. -/
theorem C136_line_end_violated (ha : IsArgsort argsort) {points : List P} (h : 4 ≤ points.length)
    {x y : P} (hx : points[2]? = some x) (hy : points[points.length - 1]? = some y) :
    ∃ vs es e e', buildLine1D argsort points none = .ok ⟨1, [vs, es]⟩ ∧
      vs[2]? = some (.vertex 2 (some 4) x) ∧ es[1]? = some e ∧ es[2]? = some e' ∧
      .vertex 2 (some 4) x ∈ e.boundary ∧ .vertex 2 (some 4) x ∈ e'.boundary ∧
      e'.physicalTag = none ∧
      vs[points.length - 1]? = some (.vertex (points.length - 1 : Nat) none y) := by
  obtain ⟨vs, es, h1, ⟨h2, h3⟩, h4, h5⟩ := C136_line ha (points := points) (by omega) none
  have a1 := h3 1 _ (List.getElem?_eq_getElem (by omega))
  have a2 := h3 2 _ hx
  have a3 := h3 3 _ (List.getElem?_eq_getElem (by omega))
  have b1 := h5 1 _ _ a1 a2
  have b2 := h5 2 _ _ a2 a3
  refine ⟨vs, es, _, _, h1, a2, b1, b2, ?_, ?_, ?_, ?_⟩
  · exact List.mem_cons_of_mem _ (List.mem_singleton.2 rfl)
  · exact List.mem_cons_self
  · show Dict.get? defaultTagsLine ("line_" ++ toString 2) = none
    decide
  · have := h3 _ _ hy
    rw [lineEnds, if_neg (by omega), if_neg (by omega)] at this
    exact this

set_option maxHeartbeats 1000000 in
/-- The surface on seven or more points has two regions with a common interface of the edges 6 and
7.  The first region is bounded by the loop through the points 0, 1, 2, 6, 4, 5 and the second by
the loop through 2, 3, 4, 6.  The edges have the physical tags 3, 4, … apart from those to skip. -/
theorem C136_surface (hc : ∀ x, close x x = true) (ha : IsArgsort argsort) {points : List P}
    (h7 : 7 ≤ points.length) (physicalTags : Option (Dict String Int))
    (skipTags : Option (List Nat)) :
    let tags := physicalTags.getD defaultTagsSurface
    let skip := skipTags.getD [6, 7]
    ∃ vs es w w' f f', buildSurface2D close argsort points physicalTags skipTags =
        .ok ⟨2, [vs, es ++ [w, w'], [f, f']]⟩ ∧
      VerticesAt points (fun _ => none) vs ∧
      (es.length = 8 ∧ ∀ (i a b : Nat), surfaceConnectivity[i]? = some [a, b] →
        ∃ v u, vs[min a b]? = some v ∧ vs[max a b]? = some u ∧
          es[i]? = some (.composed .edge i (numbered skip 3 i) [v, u] [])) ∧
      (∃ v es1, vs[0]? = some v ∧ pick es [0, 1, 7, 6, 4, 5] = .ok es1 ∧
        w = .composed .wire 8 none [v, v] es1 ∧
        storedOrientation close w = [1, 1, 1, -1, 1, -1] ∧
        ∃ c, pick vs [0, 1, 2, 6, 4, 5] = .ok c ∧ ClosedLoop close es1 c) ∧
      (∃ v es2, vs[2]? = some v ∧ pick es [2, 3, 6, 7] = .ok es2 ∧
        w' = .composed .wire 9 none [v, v] es2 ∧
        storedOrientation close w' = [1, 1, 1, -1] ∧
        ∃ c, pick vs [2, 3, 4, 6] = .ok c ∧ ClosedLoop close es2 c) ∧
      f = .composed .face 1 (tags.get? "area_0") [w] [] ∧
      f' = .composed .face 0 (tags.get? "area_1") [w'] [] := by
  intro tags skip
  match points, h7 with
  | x0 :: x1 :: x2 :: x3 :: x4 :: x5 :: x6 :: rest, _ =>
  set points := x0 :: x1 :: x2 :: x3 :: x4 :: x5 :: x6 :: rest with hpoints
  set others := (newVertices points).drop 7 with ho
  have hn : newVertices points = corner 0 x0 :: corner 1 x1 :: corner 2 x2 :: corner 3 x3 ::
      corner 4 x4 :: corner 5 x5 :: corner 6 x6 :: others := by
    rw [ho, hpoints]
    simp [newVertices, List.zipIdx_cons, corner]
  set vs := corner 0 x0 :: corner 1 x1 :: corner 2 x2 :: corner 3 x3 ::
      corner 4 x4 :: corner 5 x5 :: corner 6 x6 :: others with hvs
  -- the counters
  let q : Nat → Int := fun i => 3 + (((List.range i).filter (· ∉ skip)).length : Int)
  have hq0 : q 0 = 3 := rfl
  have hq : ∀ i, (if i ∈ skip then q i else q i + 1) = q (i + 1) := by
    intro i
    simp only [q, List.range_succ, List.filter_append, List.length_append]
    by_cases h : i ∈ skip
    · simp [h]
    · simp [h]; omega
  have hnum : ∀ i, (if i ∈ skip then none else some (q i)) = numbered skip 3 i := fun i => rfl
  set e0 : Shape P := segment (0 : Nat) (numbered skip 3 0) (corner 0 x0) (corner 1 x1) with he0
  set e1 : Shape P := segment (1 : Nat) (numbered skip 3 1) (corner 1 x1) (corner 2 x2) with he1
  set e2 : Shape P := segment (2 : Nat) (numbered skip 3 2) (corner 2 x2) (corner 3 x3) with he2
  set e3 : Shape P := segment (3 : Nat) (numbered skip 3 3) (corner 3 x3) (corner 4 x4) with he3
  set e4 : Shape P := segment (4 : Nat) (numbered skip 3 4) (corner 4 x4) (corner 5 x5) with he4
  set e5 : Shape P := segment (5 : Nat) (numbered skip 3 5) (corner 0 x0) (corner 5 x5) with he5
  set e6 : Shape P := segment (6 : Nat) (numbered skip 3 6) (corner 4 x4) (corner 6 x6) with he6
  set e7 : Shape P := segment (7 : Nat) (numbered skip 3 7) (corner 2 x2) (corner 6 x6) with he7
  have step : ∀ {tag i j : Nat} {cons : List (List Nat)} {v w e : Shape P} {l : List (Shape P)},
      vs[i]? = some v → vs[j]? = some w → v.dimension = 0 → w.dimension = 0 → v.tag ≠ w.tag →
      joined tag (numbered skip 3 tag) v w = e →
      surfaceEdges argsort skip ⟨2, [vs, [], []]⟩ (tag + 1) (q (tag + 1)) cons = .ok l →
      surfaceEdges argsort skip ⟨2, [vs, [], []]⟩ tag (q tag) ([i, j] :: cons) = .ok (e :: l) := by
    intro tag i j cons v w e l hv hw dv dw hne he hr
    rw [← hq tag] at hr
    rw [surfaceEdges_cons ha hv hw dv dw hne hr, hnum, he]
  have hedges : surfaceEdges argsort skip ⟨2, [vs, [], []]⟩ 0 3 surfaceConnectivity =
      .ok [e0, e1, e2, e3, e4, e5, e6, e7] := by
    rw [← hq0]
    refine step (v := corner 0 x0) (w := corner 1 x1) rfl rfl rfl rfl
      (by show (0 : Int) ≠ 1; decide) (joined_up (by show (0 : Int) < 1; decide)) ?_
    refine step (v := corner 1 x1) (w := corner 2 x2) rfl rfl rfl rfl
      (by show (1 : Int) ≠ 2; decide) (joined_up (by show (1 : Int) < 2; decide)) ?_
    refine step (v := corner 2 x2) (w := corner 3 x3) rfl rfl rfl rfl
      (by show (2 : Int) ≠ 3; decide) (joined_up (by show (2 : Int) < 3; decide)) ?_
    refine step (v := corner 3 x3) (w := corner 4 x4) rfl rfl rfl rfl
      (by show (3 : Int) ≠ 4; decide) (joined_up (by show (3 : Int) < 4; decide)) ?_
    refine step (v := corner 4 x4) (w := corner 5 x5) rfl rfl rfl rfl
      (by show (4 : Int) ≠ 5; decide) (joined_up (by show (4 : Int) < 5; decide)) ?_
    refine step (v := corner 5 x5) (w := corner 0 x0) rfl rfl rfl rfl
      (by show (5 : Int) ≠ 0; decide) (joined_down (by show (0 : Int) < 5; decide)) ?_
    refine step (v := corner 4 x4) (w := corner 6 x6) rfl rfl rfl rfl
      (by show (4 : Int) ≠ 6; decide) (joined_up (by show (4 : Int) < 6; decide)) ?_
    refine step (v := corner 6 x6) (w := corner 2 x2) rfl rfl rfl rfl
      (by show (6 : Int) ≠ 2; decide) (joined_down (by show (2 : Int) < 6; decide)) ?_
    rfl
  have seg : ∀ {t : Int} {p : Option Int} {i j : Nat} {x y : P},
      IsSegment (segment t p (corner i x) (corner j y)) :=
    ⟨_, _, _, _, rfl, rfl, rfl⟩
  have o1 : orientEdges close [e0, e1, e7, e6, e4, e5] = .ok [1, 1, 1, -1, 1, -1] := by
    simp [orientEdges, seedVertex, orientFrom, endPoint, getIdx, he0, he1, he7, he6, he4, he5,
      segment, Shape.boundary, corner, Shape.tag, Shape.eq, hc, bind, Except.bind, pure,
      Except.pure]
  have o2 : orientEdges close [e2, e3, e6, e7] = .ok [1, 1, 1, -1] := by
    simp [orientEdges, seedVertex, orientFrom, endPoint, getIdx, he2, he3, he7, he6,
      segment, Shape.boundary, corner, Shape.tag, Shape.eq, hc, bind, Except.bind, pure,
      Except.pure]
  have s1 : ∀ e ∈ [e0, e1, e7, e6, e4, e5], IsSegment e := by
    intro e he
    simp only [List.mem_cons, List.not_mem_nil, or_false] at he
    rcases he with rfl | rfl | rfl | rfl | rfl | rfl <;> exact seg
  have s2 : ∀ e ∈ [e2, e3, e6, e7], IsSegment e := by
    intro e he
    simp only [List.mem_cons, List.not_mem_nil, or_false] at he
    rcases he with rfl | rfl | rfl | rfl <;> exact seg
  have c1 : IsChain [e0, e1, e7, e6, e4, e5] [corner 0 x0, corner 1 x1, corner 2 x2,
      corner 6 x6, corner 4 x4, corner 5 x5, corner 0 x0] :=
    isChain_cons (Or.inl rfl) rfl (isChain_cons (Or.inl rfl) rfl (isChain_cons (Or.inl rfl) rfl
      (isChain_cons (Or.inr rfl) rfl (isChain_cons (Or.inl rfl) rfl (isChain_cons (Or.inr rfl) rfl
        (isChain_nil rfl))))))
  have c2 : IsChain [e2, e3, e6, e7] [corner 2 x2, corner 3 x3, corner 4 x4, corner 6 x6,
      corner 2 x2] :=
    isChain_cons (Or.inl rfl) rfl (isChain_cons (Or.inl rfl) rfl (isChain_cons (Or.inl rfl) rfl
      (isChain_cons (Or.inr rfl) rfl (isChain_nil rfl))))
  have d1 : StepsDiffer [corner 0 x0, corner 1 x1, corner 2 x2,
      corner 6 x6, corner 4 x4, corner 5 x5, corner 0 x0] :=
    stepsDiffer_cons (by show (0 : Int) ≠ 1; decide) (stepsDiffer_cons
      (by show (1 : Int) ≠ 2; decide) (stepsDiffer_cons (by show (2 : Int) ≠ 6; decide)
      (stepsDiffer_cons (by show (6 : Int) ≠ 4; decide) (stepsDiffer_cons
      (by show (4 : Int) ≠ 5; decide) (stepsDiffer_cons (by show (5 : Int) ≠ 0; decide)
      (stepsDiffer_one _))))))
  have d2 : StepsDiffer [corner 2 x2, corner 3 x3, corner 4 x4, corner 6 x6, corner 2 x2] :=
    stepsDiffer_cons (by show (2 : Int) ≠ 3; decide) (stepsDiffer_cons
      (by show (3 : Int) ≠ 4; decide) (stepsDiffer_cons (by show (4 : Int) ≠ 6; decide)
      (stepsDiffer_cons (by show (6 : Int) ≠ 2; decide) (stepsDiffer_one _))))
  obtain ⟨g1, t1, f1, -⟩ := C40_wire_partial hc (by simp) c1 d1 (by
    intro a b hx hy
    obtain rfl := Option.some.inj hx
    obtain rfl := Option.some.inj hy
    show (0 : Int) < 1; decide)
  obtain ⟨g2, t2, f2, -⟩ := C40_wire_partial hc (by simp) c2 d2 (by
    intro a b hx hy
    obtain rfl := Option.some.inj hx
    obtain rfl := Option.some.inj hy
    show (2 : Int) < 3; decide)
  refine ⟨vs, [e0, e1, e2, e3, e4, e5, e6, e7],
    .composed .wire 8 none [corner 0 x0, corner 0 x0] [e0, e1, e7, e6, e4, e5],
    .composed .wire 9 none [corner 2 x2, corner 2 x2] [e2, e3, e6, e7], _, _, ?_, ?_, ⟨rfl, ?_⟩,
    ⟨corner 0 x0, _, rfl, rfl, rfl, ?_, _, rfl, ?_⟩,
    ⟨corner 2 x2, _, rfl, rfl, rfl, ?_, _, rfl, ?_⟩, rfl, rfl⟩
  · unfold buildSurface2D
    dsimp only
    rw [append_vertices (by simp [hpoints]), hn]
    have r1 := appendRegion_ok (close := close) ha (vs := vs)
      (es := [e0, e1, e2, e3, e4, e5, e6, e7]) (fs := [])
      (edges := [e0, e1, e2, e3, e4, e5, e6, e7]) (positions := [0, 1, 7, 6, 4, 5]) (start := 0)
      (wireTag := 8) (faceTag := 1) (physical := tags.get? "area_0") (v := corner 0 x0) rfl rfl rfl
      s1 o1
    have r2 := appendRegion_ok (close := close) ha (vs := vs)
      (es := [e0, e1, e2, e3, e4, e5, e6, e7] ++
        [.composed .wire 8 none [corner 0 x0, corner 0 x0] [e0, e1, e7, e6, e4, e5]])
      (fs := [.composed .face 1 (tags.get? "area_0")
        [.composed .wire 8 none [corner 0 x0, corner 0 x0] [e0, e1, e7, e6, e4, e5]] []])
      (edges := [e0, e1, e2, e3, e4, e5, e6, e7]) (positions := [2, 3, 6, 7]) (start := 2)
      (wireTag := 9) (faceTag := 0) (physical := tags.get? "area_1") (v := corner 2 x2) rfl rfl rfl
      s2 o2
    have ap : (⟨2, [vs, [], []]⟩ : Domain P).append [e0, e1, e2, e3, e4, e5, e6, e7]
        = .ok ⟨2, [vs, [e0, e1, e2, e3, e4, e5, e6, e7], []]⟩ := by
      rw [append_same (k := 1) (by simp) (by
        intro s hs
        simp only [List.mem_cons, List.not_mem_nil, or_false] at hs
        rcases hs with rfl | rfl | rfl | rfl | rfl | rfl | rfl | rfl <;> rfl)]
      rfl
    rw [show (List.replicate (2 + 1) ([] : List (Shape P))).set 0 vs = [vs, [], []] from rfl]
    simp only [bind, Except.bind]
    rw [show surfaceEdges argsort (skipTags.getD [6, 7]) ⟨2, [vs, [], []]⟩ 0 3 surfaceConnectivity
      = .ok [e0, e1, e2, e3, e4, e5, e6, e7] from hedges]
    simp only []
    rw [ap]
    simp only []
    rw [r1]
    simp only [List.nil_append]
    rw [r2]
    rfl
  · refine ⟨by rw [← hn]; exact newVertices_length points, ?_⟩
    intro i x hx
    rw [← hn, newVertices_getElem?, hx]; rfl
  · intro i a b hi
    match i with
    | 0 => cases hi; exact ⟨_, _, rfl, rfl, rfl⟩
    | 1 => cases hi; exact ⟨_, _, rfl, rfl, rfl⟩
    | 2 => cases hi; exact ⟨_, _, rfl, rfl, rfl⟩
    | 3 => cases hi; exact ⟨_, _, rfl, rfl, rfl⟩
    | 4 => cases hi; exact ⟨_, _, rfl, rfl, rfl⟩
    | 5 => cases hi; exact ⟨_, _, rfl, rfl, rfl⟩
    | 6 => cases hi; exact ⟨_, _, rfl, rfl, rfl⟩
    | 7 => cases hi; exact ⟨_, _, rfl, rfl, rfl⟩
    | i + 8 => exact absurd hi (by simp [surfaceConnectivity])
  · rw [storedOrientation, view_loop rfl s1]
    rw [show (composed .wire 8 none [corner 0 x0, corner 0 x0]
      [e0, e1, e7, e6, e4, e5]).immersed = [e0, e1, e7, e6, e4, e5] from rfl, o1]
  · exact ⟨_, _, g1, rfl, c1, t1, f1⟩
  · rw [storedOrientation, view_loop rfl s2]
    rw [show (composed .wire 9 none [corner 2 x2, corner 2 x2]
      [e2, e3, e6, e7]).immersed = [e2, e3, e6, e7] from rfl, o2]
  · exact ⟨_, _, g2, rfl, c2, t2, f2⟩

/-- The edges of the interface are in both loops and passed in opposite directions; every other
edge is in exactly one of them. -/
theorem C136_surface_interface (hc : ∀ x, close x x = true) (ha : IsArgsort argsort)
    {points : List P} (h7 : 7 ≤ points.length) (physicalTags : Option (Dict String Int))
    (skipTags : Option (List Nat)) :
    ∃ vs es w w' fs, buildSurface2D close argsort points physicalTags skipTags =
        .ok ⟨2, [vs, es ++ [w, w'], fs]⟩ ∧
      (∀ t, t = 6 ∨ t = 7 → ∃ s, (s = 1 ∨ s = -1) ∧ signsOf close w t = [s] ∧
        signsOf close w' t = [-s]) ∧
      ∀ t : Int, 0 ≤ t → t < 6 →
        (signsOf close w t).length + (signsOf close w' t).length = 1 := by
  obtain ⟨vs, es, w, w', f, f', h1, -, ⟨hl, he⟩, ⟨v, es1, -, p1, rfl, o1, -⟩,
    ⟨v', es2, -, p2, rfl, o2, -⟩, -, -⟩ := C136_surface hc ha h7 physicalTags skipTags
  obtain ⟨_, _, -, -, a0⟩ := he 0 0 1 rfl
  obtain ⟨_, _, -, -, a1⟩ := he 1 1 2 rfl
  obtain ⟨_, _, -, -, a2⟩ := he 2 2 3 rfl
  obtain ⟨_, _, -, -, a3⟩ := he 3 3 4 rfl
  obtain ⟨_, _, -, -, a4⟩ := he 4 4 5 rfl
  obtain ⟨_, _, -, -, a5⟩ := he 5 5 0 rfl
  obtain ⟨_, _, -, -, a6⟩ := he 6 4 6 rfl
  obtain ⟨_, _, -, -, a7⟩ := he 7 6 2 rfl
  refine ⟨vs, es, _, _, _, h1, ?_, ?_⟩
  all_goals
    simp only [pick, mapRes, getIdx, a0, a1, a2, a3, a4, a5, a6, a7, bind, Except.bind, pure,
      Except.pure, Except.ok.injEq] at p1 p2
    subst p1
    subst p2
    simp only [signsOf, o1, o2, Shape.immersed]
  · rintro t (rfl | rfl)
    · exact ⟨-1, Or.inr rfl, rfl, rfl⟩
    · exact ⟨1, Or.inl rfl, rfl, rfl⟩
  · intro t h0 h6
    have : t = 0 ∨ t = 1 ∨ t = 2 ∨ t = 3 ∨ t = 4 ∨ t = 5 := by omega
    rcases this with rfl | rfl | rfl | rfl | rfl | rfl <;> rfl

/-- With less than seven points the construction stops. -/
theorem C136_surface_short (ha : IsArgsort argsort) {points : List P} (h7 : points.length < 7)
    (physicalTags : Option (Dict String Int)) (skipTags : Option (List Nat)) :
    buildSurface2D close argsort points physicalTags skipTags = .error .indexError := by
  by_cases hne : points = []
  · subst hne; rfl
  · unfold buildSurface2D
    dsimp only
    rw [append_vertices hne]
    show (surfaceEdges argsort (skipTags.getD [6, 7]) ⟨2, [newVertices points, [], []]⟩ 0 3
      surfaceConnectivity).bind _ = _
    rw [surfaceEdges_short ha (by decide) ⟨[4, 6], by decide, 6, by decide, by omega⟩]
    rfl

/-- Different edges have different physical tags, none below 3: with the default tags of the
regions no tag is used twice. -/
theorem C136_surface_tags (skip : List Nat) {i j : Nat} {p : Int}
    (hi : numbered skip 3 i = some p) (hj : numbered skip 3 j = some p) :
    i = j ∧ 3 ≤ p ∧ p ≤ 3 + i := by
  unfold numbered at hi hj
  split at hi
  · cases hi
  split at hj
  · cases hj
  rename_i ni nj
  have mono : ∀ {a b : Nat}, a < b → a ∉ skip →
      ((List.range a).filter (· ∉ skip)).length < ((List.range b).filter (· ∉ skip)).length := by
    intro a b hab ha
    obtain ⟨c, rfl⟩ := Nat.exists_eq_add_of_lt hab
    have hs : List.Sublist (List.range (a + 1)) (List.range (a + c + 1)) :=
      List.range_sublist.2 (by omega)
    have := (hs.filter (fun x => decide (x ∉ skip))).length_le
    rw [List.range_succ, List.filter_append, List.length_append] at this
    simp only [List.filter_cons, List.filter_nil, ha, not_false_eq_true, decide_true, if_true,
      List.length_cons, List.length_nil] at this
    omega
  have hle : ((List.range i).filter (· ∉ skip)).length ≤ i := by
    simpa using List.length_filter_le (fun x => decide (x ∉ skip)) (List.range i)
  have hi' := Option.some.inj hi
  have hj' := Option.some.inj hj
  refine ⟨?_, by omega, by omega⟩
  rcases lt_trichotomy i j with h | h | h
  · have := mono h ni; omega
  · exact h
  · have := mono h nj; omega

/-- With the lists of the drivers, `[6, 7]` and `[]`, the physical tags 3 to 8 of their boundary
conditions (darcy_elliptic_degenerate_scenario_1.py:55) are those of the outer edges, and of no
edge of the interface. -/
theorem C136_surface_boundary {skip : List Nat} (h : ∀ k ∈ skip, 6 ≤ k) (i : Nat) :
    (i < 6 → numbered skip 3 i = some (3 + (i : Int))) ∧
    (6 ≤ i → ∀ p, numbered skip 3 i = some p → 9 ≤ p) := by
  have low : ∀ j ≤ 6, ((List.range j).filter (· ∉ skip)) = List.range j := by
    intro j hj
    refine List.filter_eq_self.2 ?_
    intro k hk
    have := List.mem_range.1 hk
    simp only [decide_eq_true_eq]
    intro hm
    have := h k hm
    omega
  constructor
  · intro hi
    rw [numbered, if_neg (fun hm => by have := h i hm; omega), low i (by omega)]
    simp
  · intro hi p hp
    unfold numbered at hp
    split at hp
    · cases hp
    · have hs : List.Sublist (List.range 6) (List.range i) := List.range_sublist.2 hi
      have := (hs.filter (fun x => decide (x ∉ skip))).length_le
      rw [low 6 (by omega), List.length_range] at this
      have := Option.some.inj hp
      omega

/-- A dictionary that gives a region the tag 3 makes it share the tag with an edge: the tags of
the edges are not taken from the dictionary. -/
theorem C136_surface_tags_violated (hc : ∀ x, close x x = true) (ha : IsArgsort argsort)
    {points : List P} (h7 : 7 ≤ points.length) :
    ∃ vs es f f' e, buildSurface2D close argsort points
        (some [("area_0", 3), ("area_1", 4), ("bc_0", 9)]) none = .ok ⟨2, [vs, es, [f, f']]⟩ ∧
      es[0]? = some e ∧ f.physicalTag = some 3 ∧ e.physicalTag = some 3 := by
  obtain ⟨vs, es, w, w', f, f', h1, -, ⟨hl, he⟩, -, -, rfl, -⟩ := C136_surface hc ha h7
    (some [("area_0", 3), ("area_1", 4), ("bc_0", 9)]) none
  obtain ⟨v, u, -, -, a0⟩ := he 0 0 1 rfl
  refine ⟨vs, _, _, _, .composed .edge (0 : Nat) (some 3) [v, u] [], h1, ?_, ?_, ?_⟩
  · rw [List.getElem?_append_left (by omega), a0]; rfl
  · show Dict.get? ([("area_0", 3), ("area_1", 4), ("bc_0", 9)] : Dict String Int) "area_0"
      = some 3
    decide
  · rfl

/-- Seven points of the unit square with two regions -/
def twoRegions : List (Fin 3 → ℚ) :=
  [pointAt' 0 0, pointAt' 1 0, pointAt' 1 (1/2), pointAt' 1 1, pointAt' 0 1, pointAt' 0 (1/2),
    pointAt' (1/2) (1/2)]
where pointAt' (x y : ℚ) : Fin 3 → ℚ
  | 0 => x
  | 1 => y
  | 2 => 0

example : (buildSurface2D closePoints stableArgsort twoRegions none none).toOption.map
    Domain.summary =
    some [(0, none, [], []), (1, none, [], []), (2, none, [], []), (3, none, [], []),
      (4, none, [], []), (5, none, [], []), (6, none, [], []),
      (0, some 3, [0, 1], []), (1, some 4, [1, 2], []), (2, some 5, [2, 3], []),
      (3, some 6, [3, 4], []), (4, some 7, [4, 5], []), (5, some 8, [0, 5], []),
      (6, none, [4, 6], []), (7, none, [2, 6], []),
      (8, none, [0, 0], [0, 1, 7, 6, 4, 5]), (9, none, [2, 2], [2, 3, 6, 7]),
      (1, some 1, [8], []), (0, some 2, [9], [])] := by
  decide +kernel

example : (buildLine1D stableArgsort (twoRegions.take 4) none).toOption.map Domain.summary =
    some [(0, some 3, [], []), (1, none, [], []), (2, some 4, [], []), (3, none, [], []),
      (0, some 1, [0, 1], []), (1, some 2, [1, 2], []), (2, none, [2, 3], [])] := by
  decide +kernel

/-- C136: without tags of their own the two regions have the physical tags 1 and 2, which no edge has. -/
theorem C136_default_tags (skip : List Nat) : Dict.get? defaultTagsSurface "area_0" = some 1 ∧
    Dict.get? defaultTagsSurface "area_1" = some 2 ∧ ∀ i t, numbered skip 3 i = some t → 2 < t := by
  refine ⟨rfl, rfl, ?_⟩
  intro i t h
  unfold numbered at h
  split at h
  · exact absurd h (by simp)
  · have := Option.some.inj h
    omega

#print axioms C136_line
#print axioms C136_line_short_violated
#print axioms C136_line_ends
#print axioms C136_line_end_violated
#print axioms C136_surface
#print axioms C136_surface_interface
#print axioms C136_surface_short
#print axioms C136_surface_tags
#print axioms C136_surface_boundary
#print axioms C136_surface_tags_violated

#print axioms C136_default_tags

end Verif.Topology
