/-
Helper lemmas on boxes with lines.
-/
import Verif.Spec.LinesBox
import Verif.Lemmas.IntersectEdges
import Verif.Lemmas.MdBoxMake

namespace Verif.LinesBox
open MeshBuild MeshGraph Trace MeshMetrics Geometry VertexOps Topology
open MdBox (asEdg asVtx vertexShape close corners IsBox)
open scoped Classical

theorem asEdg_part (e : Edg) : asEdg (partShape e) = .ok e := rfl

theorem part_of_asEdg {t : Int} {p : Option Int} {b : List (Shape (Pt ℝ))} {e : Edg}
    (h : asEdg (.composed .edge t p b []) = .ok e) : .composed .edge t p b [] = partShape e := by
  unfold asEdg at h
  obtain ⟨vs, h1, h2⟩ := Res.bind_eq_ok.1 h
  simp only [Shape.boundary] at h1
  match vs, h1, h2 with
  | [v, w], h1, h2 =>
    have h3 := mapRes_iff.1 h1
    match b, h3 with
    | [x, y], h3 =>
      simp only [List.forall₂_cons, List.forall₂_nil_right_iff, and_true] at h3
      cases x <;> cases y <;> simp only [asVtx, reduceCtorEq, false_and, and_false, Except.ok.injEq] at h3
      obtain ⟨rfl, rfl⟩ := h3
      simp only [Res.pure_eq, Except.ok.injEq, Shape.tag, Shape.physicalTag] at h2
      subst h2
      rfl
  | [], _, h2 => simp at h2
  | [_], _, h2 => simp at h2
  | _ :: _ :: _ :: _, _, h2 => simp at h2

/-- The box -/
theorem box_form {argsort : List Int → List Nat} (ha : IsArgsort argsort) {points : List (Pt ℝ)}
    (h2 : 2 ≤ points.length) (tags : Dict String Int) :
    ∃ rock v, IsBox points tags rock ∧ (corners points)[0]? = some v ∧
      buildBox2D close argsort points (some tags) = .ok ⟨2, [(corners points).map vertexShape,
        rock.map partShape ++ [.composed .wire points.length none [vertexShape v, vertexShape v] (rock.map partShape)],
        [.composed .face 0 (tags.get? "area") [.composed .wire points.length none [vertexShape v, vertexShape v]
          (rock.map partShape)] []]]⟩ := by
  obtain ⟨vs, es, v, wire, face, h1, ⟨hvl, hvs⟩, hv0, hel, hes, hloop, hw, hf⟩ :=
    C70_polygon MdBox.close_self ha h2 (some tags)
  obtain ⟨d, rock, b1, b2, b3, -⟩ := MdBox.box_spec ha h2 tags
  rw [h1, Except.ok.injEq] at b1
  subst b1
  simp only [Option.getD_some] at hes hf
  have e1 : vs = (corners points).map vertexShape := by
    refine List.ext_getElem? fun i => ?_
    by_cases hi : i < points.length
    · rw [hvs i _ (List.getElem?_eq_getElem hi), List.getElem?_map, MdBox.corners_getElem?,
        List.getElem?_eq_getElem hi]
      rfl
    · rw [List.getElem?_eq_none (by omega), List.getElem?_eq_none (by simp [corners]; omega)]
  have hfilter : (es ++ [wire]).filter (fun s => !s.composite) = es := by
    rw [List.filter_append, List.filter_eq_self.2, List.filter_eq_nil_iff.2, List.append_nil]
    · intro s hs
      rw [List.mem_singleton.1 hs, hw]
      simp [Shape.composite, Kind.composite]
    · intro s hs
      obtain ⟨i, hi⟩ := List.mem_iff_getElem?.1 hs
      obtain ⟨b, -, rfl⟩ := hes i s hi
      rfl
  have e2 : es = rock.map partShape := by
    unfold MdBox.rockEdges at b2
    simp only [show getIdx [vs, es ++ [wire], [face]] 1 = .ok (es ++ [wire]) from rfl, Res.bind_ok] at b2
    rw [hfilter] at b2
    have h3 := mapRes_iff.1 b2
    refine List.ext_getElem (by rw [List.length_map, h3.length_eq]) fun i hi1 hi2 => ?_
    obtain ⟨b, -, h4⟩ := hes i _ (List.getElem?_eq_getElem hi1)
    have h5 := List.forall₂_iff_get.1 h3 |>.2 i hi1 (by simpa using hi2)
    simp only [List.get_eq_getElem] at h5
    rw [List.getElem_map]
    rw [h4] at h5 ⊢
    exact part_of_asEdg h5
  have hlen : 0 < points.length := by omega
  refine ⟨rock, ⟨0, none, points[0]⟩, b3, by rw [MdBox.corners_getElem?, List.getElem?_eq_getElem hlen]; rfl, ?_⟩
  have : v = vertexShape ⟨0, none, points[0]⟩ := by
    rw [hvs 0 _ (List.getElem?_eq_getElem hlen), Option.some.injEq] at hv0
    rw [← hv0]
    rfl
  rw [h1, hf, hw, this, e1, e2]

theorem disjointLines_eq (n : Nat) (p : Int) : ∀ (lines : List Line) (j : Nat),
    disjointLines (n + 2 * j) (n + 1 + j) (p + 1 + j) lines =
      (lines.zipIdx j).map fun x => ((lineEdge n p x.2 x.1).first, (lineEdge n p x.2 x.1).second, lineEdge n p x.2 x.1)
  | [], _ => rfl
  | l :: ls, j => by
    have ih := disjointLines_eq n p ls (j + 1)
    simp only [disjointLines, List.zipIdx_cons, List.map_cons]
    rw [← ih]
    congr 1
    · simp only [lineEdge, mkEdge]
      rw [if_neg (by omega)]
    · congr 1 <;> push_cast <;> ring

theorem disjointLines_spec (n : Nat) (p : Int) (lines : List Line) :
    disjointLines n ((n + 1 : Nat) : Int) (p + 1) lines = (lineEdges n p lines).map fun e => (e.first, e.second, e) := by
  have := disjointLines_eq n p lines 0
  simp only [Nat.cast_zero, mul_zero, add_zero] at this
  push_cast
  rw [this, lineEdges, List.map_map]
  rfl

theorem asItem_part (e : Edg) : asItem (partShape e) = .ok (some (bare e)) := rfl

theorem asItems (rock ls : List Edg) (v : Vtx) (n : Int) (i : List (Shape (Pt ℝ))) :
    mapRes asItem (rock.map partShape ++ [.composed .wire n none [vertexShape v, vertexShape v] i] ++
      ls.map partShape) = .ok (drawn rock ls) := by
  rw [mapRes_iff]
  unfold drawn
  have key : ∀ l : List Edg, List.Forall₂ (fun a b => asItem a = Except.ok b) (l.map partShape)
      (l.map fun e => some (bare e)) := by
    intro l
    rw [List.forall₂_map_left_iff, List.forall₂_map_right_iff, List.forall₂_same]
    intro e _
    rfl
  rw [List.append_assoc]
  refine List.rel_append (key rock) ?_
  exact List.Forall₂.cons rfl (key ls)

theorem writeEdges_eq : ∀ (ss : List (Shape (Pt ℝ))) (es : List LEdge), ss.length = es.length →
    ∀ (rest : List (Shape (Pt ℝ))) (items : List Item),
    writeEdges (ss ++ rest) (es.map some ++ items) = es.map edgeShape ++ writeEdges rest items
  | [], [], _, _, _ => rfl
  | s :: ss, e :: es, h, rest, items => by
    simp only [List.cons_append, List.map_cons, writeEdges]
    rw [writeEdges_eq ss es (by simpa using h)]

theorem all_some : ∀ {l : List Item}, (∀ x ∈ l, x ≠ none) → ∃ es : List LEdge, l = es.map some
  | [], _ => ⟨[], rfl⟩
  | none :: _, h => absurd rfl (h none (by simp))
  | some e :: l, h => by
    obtain ⟨es, rfl⟩ := all_some (l := l) fun x hx => h x (by simp [hx])
    exact ⟨e :: es, rfl⟩

theorem drawn_side {rock ls : List Edg} {i : Nat} (h : i < rock.length) :
    (drawn rock ls)[i]? = some (some (bare rock[i])) := by
  unfold drawn
  rw [List.getElem?_append_left (by simpa using h), List.getElem?_map, List.getElem?_eq_getElem h]
  rfl

theorem drawn_wire {rock ls : List Edg} : (drawn rock ls)[rock.length]? = some none := by
  unfold drawn
  rw [List.getElem?_append_right (by simp)]
  simp

theorem drawn_line {rock ls : List Edg} (j : Nat) :
    (drawn rock ls)[rock.length + 1 + j]? = ls[j]?.map fun e => some (bare e) := by
  unfold drawn
  rw [List.getElem?_append_right (by simp; omega), List.length_map,
    show rock.length + 1 + j - rock.length = j + 1 by omega, List.getElem?_cons_succ, List.getElem?_map]

theorem drawn_length {rock ls : List Edg} : (drawn rock ls).length = rock.length + 1 + ls.length := by
  simp [drawn]
  omega

theorem drawn_cases {rock ls : List Edg} {k : Nat} {e : LEdge} (h : (drawn rock ls)[k]? = some (some e)) :
    (∃ r, rock[k]? = some r ∧ e = bare r) ∨ ∃ j l, k = rock.length + 1 + j ∧ ls[j]? = some l ∧ e = bare l := by
  by_cases h1 : k < rock.length
  · rw [drawn_side h1, Option.some.injEq, Option.some.injEq] at h
    exact Or.inl ⟨_, List.getElem?_eq_getElem h1, h.symm⟩
  · by_cases h2 : k = rock.length
    · subst h2
      rw [drawn_wire] at h
      simp at h
    · obtain ⟨j, rfl⟩ : ∃ j, k = rock.length + 1 + j := ⟨k - (rock.length + 1), by omega⟩
      rw [drawn_line, Option.map_eq_some_iff] at h
      obtain ⟨l, hl, h⟩ := h
      exact Or.inr ⟨j, l, rfl, hl, by simpa using h.symm⟩

/-- The fragments, by kind -/
theorem fragments_split {N : Nat → Set (Pt ℝ)} {rock ls : List Edg} {etag vtag ptag : Int} {out : Fragments}
    (F : IsFragments N (drawn rock ls) etag vtag ptag out) :
    ∃ sides cut : List LEdge, out.items = sides.map some ++ none :: cut.map some ∧ sides.length = rock.length ∧
      cut.length = ls.length := by
  have hl := F.length
  rw [drawn_length] at hl
  have hsome : ∀ (k : Nat) x, out.items[k]? = some x → k ≠ rock.length → x ≠ none := by
    intro k x hk hne
    have hlt : k < (drawn rock ls).length := by
      rw [← F.length]
      exact (List.getElem?_eq_some_iff.1 hk).1
    cases hd : (drawn rock ls)[k]? with
    | none => rw [List.getElem?_eq_none_iff] at hd; omega
    | some y =>
      cases y with
      | none =>
        exfalso
        rw [drawn_length] at hlt
        by_cases h1 : k < rock.length
        · rw [drawn_side h1] at hd
          simp at hd
        · obtain ⟨j, rfl⟩ : ∃ j, k = rock.length + 1 + j := ⟨k - (rock.length + 1), by omega⟩
          rw [drawn_line, List.getElem?_eq_getElem (by omega)] at hd
          simp at hd
      | some e =>
        obtain ⟨e', h1, -⟩ := F.cut k e hd
        rw [h1, Option.some.injEq] at hk
        rw [← hk]
        simp
  obtain ⟨sides, hs⟩ := all_some (l := out.items.take rock.length) fun x hx => by
    obtain ⟨k, hk⟩ := List.mem_iff_getElem?.1 hx
    rw [List.getElem?_take] at hk
    split at hk
    · exact hsome k x hk (by omega)
    · simp at hk
  obtain ⟨cut, hc⟩ := all_some (l := out.items.drop (rock.length + 1)) fun x hx => by
    obtain ⟨k, hk⟩ := List.mem_iff_getElem?.1 hx
    rw [List.getElem?_drop] at hk
    exact hsome _ x hk (by omega)
  have hw := F.wires rock.length drawn_wire
  have hlt : rock.length < out.items.length := by omega
  refine ⟨sides, cut, ?_, ?_, ?_⟩
  · rw [← hs, ← hc]
    have h3 : out.items.drop rock.length = none :: out.items.drop (rock.length + 1) := by
      rw [List.drop_eq_getElem_cons hlt]
      rw [List.getElem?_eq_getElem hlt, Option.some.injEq] at hw
      rw [hw]
    rw [← h3, List.take_append_drop]
  · have := congrArg List.length hs
    simp only [List.length_take, List.length_map] at this
    omega
  · have := congrArg List.length hc
    simp only [List.length_drop, List.length_map] at this
    omega

section
variable {points : List (Pt ℝ)} {tags : Dict String Int} {rock : List Edg} {p : Int} {lines : List Line}
  {N : Nat → Set (Pt ℝ)} {ptag : Int} {out : Fragments} {sides cut : List LEdge}

theorem items_side (hi : out.items = sides.map some ++ none :: cut.map some) {k : Nat} {e : LEdge}
    (h : sides[k]? = some e) : out.items[k]? = some (some e) := by
  have := (List.getElem?_eq_some_iff.1 h).1
  rw [hi, List.getElem?_append_left (by simpa using this), List.getElem?_map, h]
  rfl

theorem items_line (hi : out.items = sides.map some ++ none :: cut.map some) {k : Nat} {e : LEdge}
    (h : cut[k]? = some e) : out.items[sides.length + 1 + k]? = some (some e) := by
  rw [hi, List.getElem?_append_right (by simp; omega), List.length_map,
    show sides.length + 1 + k - sides.length = k + 1 by omega, List.getElem?_cons_succ, List.getElem?_map, h]
  rfl

theorem items_cases (hi : out.items = sides.map some ++ none :: cut.map some) {k : Nat} {e : LEdge}
    (h : out.items[k]? = some (some e)) :
    sides[k]? = some e ∨ ∃ j, k = sides.length + 1 + j ∧ cut[j]? = some e := by
  rw [hi] at h
  by_cases h1 : k < sides.length
  · left
    rw [List.getElem?_append_left (by simpa using h1), List.getElem?_map, Option.map_eq_some_iff] at h
    obtain ⟨a, h, h'⟩ := h
    rw [h, Option.some.inj h']
  · right
    rw [List.getElem?_append_right (by simpa using h1), List.length_map] at h
    obtain ⟨j, hj⟩ : ∃ j, k - sides.length = j := ⟨_, rfl⟩
    rw [hj] at h
    match j, h with
    | 0, h => simp at h
    | j + 1, h =>
      rw [List.getElem?_cons_succ, List.getElem?_map, Option.map_eq_some_iff] at h
      obtain ⟨a, h, h'⟩ := h
      exact ⟨j, by omega, by rw [h, Option.some.inj h']⟩

theorem newEdges_split (hi : out.items = sides.map some ++ none :: cut.map some) :
    newEdges out.items = allParts sides ++ allParts cut := by
  unfold newEdges allParts
  rw [hi, List.flatMap_append, List.flatMap_cons, List.flatMap_map, List.flatMap_map]
  rfl

theorem lineEdges_length (n : Nat) : (lineEdges n p lines).length = lines.length := by simp [lineEdges]

theorem lineEdges_getElem? {n j : Nat} {e : Edg} (h : (lineEdges n p lines)[j]? = some e) :
    ∃ l, lines[j]? = some l ∧ e = lineEdge n p j l := by
  unfold lineEdges at h
  rw [List.getElem?_map, List.getElem?_zipIdx, Option.map_map, Option.map_eq_some_iff] at h
  obtain ⟨l, hl, rfl⟩ := h
  exact ⟨l, hl, by simp⟩

theorem corners_length : (corners points).length = points.length := by simp [corners]

theorem corners_tag {k : Nat} {v : Vtx} (h : (corners points)[k]? = some v) : v.tag = k := by
  rw [MdBox.corners_getElem?, Option.map_eq_some_iff] at h
  obtain ⟨x, -, rfl⟩ := h
  rfl

theorem side_tag (hB : IsBox points tags rock) {etag vtag : Int}
    (F : IsFragments N (drawn rock (lineEdges points.length p lines)) etag vtag ptag out)
    (hi : out.items = sides.map some ++ none :: cut.map some) (hl : sides.length = rock.length) {k : Nat} {e : LEdge}
    (h : sides[k]? = some e) : e.tag = k := by
  have hlt := (List.getElem?_eq_some_iff.1 h).1
  obtain ⟨e', h1, h2⟩ := F.cut k _ (drawn_side (by omega))
  rw [items_side hi h, Option.some.injEq, Option.some.injEq] at h1
  subst h1
  rw [h2.same.1]
  exact (hB.side k _ (List.getElem?_eq_getElem (by omega))).1

theorem cut_tag (hB : IsBox points tags rock) {etag vtag : Int}
    (F : IsFragments N (drawn rock (lineEdges points.length p lines)) etag vtag ptag out)
    (hi : out.items = sides.map some ++ none :: cut.map some) (hl : sides.length = rock.length)
    (hc : cut.length = (lineEdges points.length p lines).length) {k : Nat} {e : LEdge}
    (h : cut[k]? = some e) : e.tag = points.length + 1 + k := by
  have hlt := (List.getElem?_eq_some_iff.1 h).1
  have h3 : (lineEdges points.length p lines)[k]? = some (lineEdges points.length p lines)[k] :=
    List.getElem?_eq_getElem (by omega)
  obtain ⟨e', h1, h2⟩ := F.cut (rock.length + 1 + k) _ (by rw [drawn_line, h3]; rfl)
  rw [← hl, items_line hi h, Option.some.injEq, Option.some.injEq] at h1
  subst h1
  rw [h2.same.1]
  obtain ⟨l, -, h4⟩ := lineEdges_getElem? h3
  rw [h4]
  rfl

theorem parts_tag {etag vtag : Int} {items : List Item} (F : IsFragments N items etag vtag ptag out)
    (hi : out.items = sides.map some ++ none :: cut.map some) {k : Nat} {e : Edg}
    (h : (allParts sides ++ allParts cut)[k]? = some e) : e.tag = etag + k := by
  have h1 := F.etags
  rw [F.edges_eq, newEdges_split hi] at h1
  have h2 := congrArg (fun l : List Int => l[k]?) h1
  have hlt := (List.getElem?_eq_some_iff.1 h).1
  simp only [List.getElem?_map, h, Option.map_some, consec, List.getElem?_range hlt, Option.some.injEq] at h2
  exact h2

end
end Verif.LinesBox
