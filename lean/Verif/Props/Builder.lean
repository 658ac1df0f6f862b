/-
C85: the cells of `GeometryBuilder`.
-/
import Verif.Lemmas.Builder

namespace Verif.Builder
open MeshGraph Mesher Trace
variable {P : Type}

theorem connectivities_eq {n : Nat} (hn : 0 < n) :
    connectivities n = (List.range n).map fun i => [i, (i + 1) % n] := by
  unfold connectivities
  refine List.ext_getElem (by simp) fun i h1 h2 => ?_
  have hi : i < n := by simpa using h2
  simp only [List.getElem_map, List.getElem_zip, List.getElem_tail, List.getElem_append,
    List.getElem_range, List.length_range, hi, dite_true, List.cons.injEq, true_and, and_true]
  split
  · rename_i h
    rw [Nat.mod_eq_of_lt h]
  · have : i + 1 = n := by omega
    simp [this]

theorem zipIdx_range {α : Type} (f : Nat → α) (n : Nat) :
    ((List.range n).map f).zipIdx = (List.range n).map fun i => (f i, i) :=
  List.ext_getElem (by simp) fun i h1 h2 => by simp

/-- The corners, the sides and the interior of the polygon by position. -/
theorem polygon_get {tags : Dict Name Int} {n i : Nat} {c : GCell}
    (h : (polygonCells tags n)[i]? = some c) :
    (i < n ∧ c = ⟨0, i, none, some i, [], [], []⟩) ∨
    (∃ j < n, i = n + j ∧ c = ⟨1, n + j, tags.get? (.bc j), none, [j, (j + 1) % n], [], []⟩) ∨
    (i = n + n ∧ c = ⟨2, n + n, tags.get? .area, none, (List.range n).map (n + ·), [], []⟩) := by
  unfold polygonCells at h
  rw [List.getElem?_append] at h
  split at h
  · rw [List.getElem?_append] at h
    split at h
    · rename_i h1 h2
      rw [List.length_map, List.length_range] at h2
      rw [List.getElem?_map, List.getElem?_range h2] at h
      exact .inl ⟨h2, (Option.some.inj h).symm⟩
    · rename_i h1 h2
      simp only [List.length_append, List.length_map, List.length_range] at h1 h2
      rw [List.length_map, List.length_range, List.getElem?_map,
        List.getElem?_range (by omega)] at h
      refine .inr (.inl ⟨i - n, by omega, by omega, ?_⟩)
      exact (Option.some.inj h).symm
  · rename_i h1
    simp only [List.length_append, List.length_map, List.length_range] at h h1
    have : i - (n + n) = 0 := by
      by_contra hne
      rw [List.getElem?_eq_none (by simp; omega)] at h
      cases h
    rw [this] at h
    exact .inr (.inr ⟨by omega, (Option.some.inj h).symm⟩)

theorem polygon_length (tags : Dict Name Int) (n : Nat) :
    (polygonCells tags n).length = n + n + 1 := by
  simp [polygonCells]; omega

theorem polygon_side (tags : Dict Name Int) {n j : Nat} (hj : j < n) : (polygonCells tags n)[n + j]? =
    some ⟨1, n + j, tags.get? (.bc j), none, [j, (j + 1) % n], [], []⟩ := by
  have hlt : n + j < (polygonCells tags n).length := by rw [polygon_length]; omega
  rcases polygon_get (List.getElem?_eq_getElem hlt) with ⟨h, -⟩ | ⟨k, hk, h1, h2⟩ | ⟨h, -⟩
  · omega
  · rw [List.getElem?_eq_getElem hlt, h2]
    obtain rfl : j = k := by omega
    rfl
  · omega

theorem polygon_inner (tags : Dict Name Int) (n : Nat) : (polygonCells tags n)[n + n]? =
    some ⟨2, n + n, tags.get? .area, none, (List.range n).map (n + ·), [], []⟩ := by
  have hlt : n + n < (polygonCells tags n).length := by rw [polygon_length]; omega
  rcases polygon_get (List.getElem?_eq_getElem hlt) with ⟨h, -⟩ | ⟨k, hk, h1, h2⟩ | ⟨h, h2⟩
  · omega
  · omega
  · rw [List.getElem?_eq_getElem hlt, h2]

theorem polygon_layered (tags : Dict Name Int) {n : Nat} (hn : 0 < n) :
    Layered (fun i => if i < n then 0 else if i < n + n then 1 else 2) (polygonCells tags n) := by
  refine ⟨?_, ?_, ?_, ?_⟩
  · intro i c h
    rcases polygon_get h with ⟨-, rfl⟩ | ⟨j, hj, rfl, rfl⟩ | ⟨rfl, rfl⟩ <;> rfl
  · intro i c h k hk
    rw [polygon_length]
    rcases polygon_get h with ⟨-, rfl⟩ | ⟨j, hj, rfl, rfl⟩ | ⟨rfl, rfl⟩
    · simp [GCell.refs] at hk
    · have hm := Nat.mod_lt (j + 1) hn
      have : k < n := by
        simp only [GCell.refs, List.append_nil, List.mem_cons, List.not_mem_nil, or_false] at hk
        rcases hk with rfl | rfl <;> omega
      refine ⟨by omega, ?_⟩
      rw [if_pos this, if_neg (by omega), if_pos (by omega)]
      omega
    · simp only [GCell.refs, List.append_nil, List.mem_map, List.mem_range] at hk
      obtain ⟨j, hj, rfl⟩ := hk
      refine ⟨by omega, ?_⟩
      rw [if_neg (by omega), if_pos (by omega), if_neg (by omega), if_neg (by omega)]
      omega
  · intro i c h h0
    rcases polygon_get h with ⟨-, rfl⟩ | ⟨j, hj, rfl, rfl⟩ | ⟨rfl, rfl⟩
    · rfl
    · cases h0
    · cases h0
  · intro i hi
    split
    · omega
    · split <;> omega

/-- C85.  `build_box_2D` makes the polygon through the given points, in the given order, and the
graph of its cells. -/
theorem C85_polygon (tags : Dict Name Int) {box : List P} (hb : box ≠ []) :
    ∃ g, buildArea (.new tags) box = .ok ⟨box, polygonCells (tagsOr tags areaTags) box.length,
        tagsOr tags areaTags, some g⟩ ∧
      IsGraph (polygonCells (tagsOr tags areaTags) box.length) g := by
  have hn : 0 < box.length := List.length_pos_iff.2 hb
  have hL := polygon_layered (tagsOr tags areaTags) hn
  obtain ⟨g, e, hg⟩ := graphOf_ok hL
    (selected := (polygonCells (tagsOr tags areaTags) box.length).filter
      fun c => c.immersed.length = 0) (fun c hc => (List.mem_filter.1 hc).1)
    (by
      intro c hc hn
      exfalso
      apply hn
      obtain ⟨i, hi⟩ := List.getElem?_of_mem hc
      refine List.mem_filter.2 ⟨hc, ?_⟩
      rcases polygon_get hi with ⟨-, rfl⟩ | ⟨j, hj, rfl, rfl⟩ | ⟨rfl, rfl⟩ <;> rfl)
    (by
      intro i hi
      rw [polygon_length] at hi
      by_cases h1 : i < box.length
      · exact ⟨_, _, polygon_side _ h1, .inl (by simp [GCell.refs])⟩
      · by_cases h2 : i < box.length + box.length
        · refine ⟨_, _, polygon_inner _ _, .inl ?_⟩
          simp only [GCell.refs, List.append_nil, List.mem_map, List.mem_range]
          exact ⟨i - box.length, by omega, by omega⟩
        · refine ⟨_, _, polygon_inner _ _, .inr ⟨by omega, ?_⟩⟩
          simp [GCell.refs]
          omega)
  refine ⟨g, ?_, hg⟩
  unfold buildArea addPoints
  rw [if_neg hb]
  rw [Res.pure_eq, Res.bind_ok]
  dsimp only [Builder.new]
  rw [connectivities_eq hn, zipIdx_range, foldlM_add (k := box.length)
    (g := fun p => ⟨1, box.length + p.2, (tagsOr tags areaTags).get? (.bc p.2), none, p.1, [], []⟩)
    _ _ (by simp), Res.bind_ok, addCell_ok]
  · have : [] ++ (List.range box.length).map vertexCell ++
        ((List.range box.length).map fun i => ([i, (i + 1) % box.length], i)).map
          (fun p => (⟨1, box.length + p.2, (tagsOr tags areaTags).get? (.bc p.2), none, p.1, [], []⟩ :
            GCell)) ++
        [⟨2, box.length + box.length, (tagsOr tags areaTags).get? .area, none,
          (List.range box.length).map (box.length + ·), [], []⟩] =
        polygonCells (tagsOr tags areaTags) box.length := by
      rw [List.map_map]; rfl
    rw [Res.bind_ok, this, List.nil_append]
    unfold buildGraph
    rw [if_neg (by simp), e]; rfl
  · intro i hi
    obtain ⟨j, hj, rfl⟩ := List.mem_map.1 hi
    have := List.mem_range.1 hj
    simp; omega
  · intro p hp c hc
    obtain ⟨j, hj, rfl⟩ := List.mem_map.1 hp
    have := List.mem_range.1 hj
    have hm := Nat.mod_lt (j + 1) hn
    refine addCell_ok fun i hi => ?_
    simp only [List.mem_cons, List.not_mem_nil, or_false] at hi
    rcases hi with rfl | rfl <;> omega

/-- What the graph of a cell depends on. -/
def GCell.skeleton (c : GCell) : Nat × Nat × List Nat := (c.dimension, c.id, c.refs)

/-- Cells with these skeletons have a graph; the conditions can be checked by evaluation. -/
theorem graph_of_skeleton {cells : List GCell} {sk : List (Nat × Nat × List Nat)}
    (hsk : cells.map GCell.skeleton = sk) (himm : ∀ c ∈ cells, c.immersed.length = 0)
    (h1 : ∀ i < sk.length, ∀ s ∈ sk[i]?, s.2.1 = i ∧ s.1 < 1000 ∧ (s.1 = 0 → s.2.2 = []) ∧
      ∀ j ∈ s.2.2, j < sk.length ∧ ∀ t ∈ sk[j]?, t.1 < s.1)
    (h2 : ∀ i < sk.length, sk.any fun s => i ∈ s.2.2 ∨ s.2.1 = i ∧ s.2.2 ≠ []) :
    ∃ g, buildGraph false cells = .ok g ∧ IsGraph cells g := by
  have hlen : sk.length = cells.length := by rw [← hsk, List.length_map]
  have get : ∀ {i : Nat} {c : GCell}, cells[i]? = some c → sk[i]? = some c.skeleton := by
    intro i c h
    rw [← hsk, List.getElem?_map, h]; rfl
  have lt : ∀ {i : Nat} {c : GCell}, cells[i]? = some c → i < sk.length := by
    intro i c h
    rw [hlen]; exact (List.getElem?_eq_some_iff.1 h).1
  have hL : Layered (fun i => (sk[i]?.map Prod.fst).getD 0) cells := by
    refine ⟨?_, ?_, ?_, ?_⟩
    · intro i c h
      exact (h1 i (lt h) _ (get h)).1
    · intro i c h j hj
      obtain ⟨-, -, -, h4⟩ := h1 i (lt h) _ (get h)
      obtain ⟨h5, h6⟩ := h4 j hj
      refine ⟨hlen ▸ h5, ?_⟩
      have h7 := h6 _ (List.getElem?_eq_getElem h5)
      rw [get h, List.getElem?_eq_getElem h5]
      exact h7
    · intro i c h h0
      exact (h1 i (lt h) _ (get h)).2.2.1 h0
    · intro i hi
      rw [← hlen] at hi
      rw [List.getElem?_eq_getElem hi]
      exact (h1 i hi _ (List.getElem?_eq_getElem hi)).2.1
  have hall : cells.filter (fun c => c.immersed.length = 0) = cells :=
    List.filter_eq_self.2 fun c hc => by simpa using himm c hc
  unfold buildGraph
  rw [if_neg (by simp), hall]
  refine graphOf_ok hL (fun _ h => h) (fun c h1 h2 => absurd h1 h2) fun i hi => ?_
  obtain ⟨s, hs, h3⟩ := List.any_eq_true.1 (h2 i (hlen ▸ hi))
  rw [← hsk] at hs
  obtain ⟨c, hc, rfl⟩ := List.mem_map.1 hs
  obtain ⟨j, hj⟩ := List.getElem?_of_mem hc
  refine ⟨j, c, hj, ?_⟩
  rw [← hL.ids j c hj]
  exact of_decide_eq_true h3

/-- C85.  `build_box_1D` makes the line between two points. -/
theorem C85_line (tags : Dict Name Int) (x y : P) :
    ∃ g, buildLine (.new tags) [x, y] = .ok ⟨[x, y], lineCells (tagsOr tags lineTags),
        tagsOr tags lineTags, some g⟩ ∧ IsGraph (lineCells (tagsOr tags lineTags)) g := by
  obtain ⟨g, e, hg⟩ := graph_of_skeleton (cells := lineCells (tagsOr tags lineTags))
    (sk := [(0, 0, []), (0, 1, []), (1, 2, [0, 1])]) rfl (by simp [lineCells]) (by decide) (by decide)
  refine ⟨g, ?_, hg⟩
  have : buildLine (.new tags) [x, y] = (do
      let graph ← buildGraph false (lineCells (tagsOr tags lineTags))
      pure ⟨[x, y], lineCells (tagsOr tags lineTags), tagsOr tags lineTags, some graph⟩) := rfl
  rw [this, e]; rfl

/-- C85.  `build_box` makes the hexahedron with the given eight corners. -/
theorem C85_box (tags : Dict Name Int) {box : List P} (hb : box.length = 8) :
    ∃ g, buildBox (.new tags) box = .ok ⟨box, boxCells (tagsOr tags volumeTags),
        tagsOr tags volumeTags, some g⟩ ∧ IsGraph (boxCells (tagsOr tags volumeTags)) g := by
  obtain ⟨g, e, hg⟩ := graph_of_skeleton (cells := boxCells (tagsOr tags volumeTags))
    (sk := (List.range 8).map (fun i => (0, i, [])) ++ boxEdges.zipIdx.map (fun p => (1, 8 + p.2, p.1)) ++
      boxFaces.zipIdx.map (fun p => (2, 20 + p.2, p.1.1)) ++ [(3, 26, [20, 21, 22, 23, 24, 25])]) rfl
    (by
      intro c hc
      simp only [boxCells, List.mem_append, List.mem_map, List.mem_singleton] at hc
      rcases hc with ((⟨_, -, rfl⟩ | ⟨_, -, rfl⟩) | ⟨_, -, rfl⟩) | rfl <;> rfl)
    (by decide +kernel) (by decide +kernel)
  refine ⟨g, ?_, hg⟩
  unfold buildBox addPoints
  rw [if_neg (by rintro rfl; simp at hb), hb, Res.pure_eq, Res.bind_ok]
  dsimp only [Builder.new]
  rw [foldlM_add (k := 8) (g := fun p => ⟨1, 8 + p.2, none, none, p.1, [], []⟩) _ _ (by simp),
    Res.bind_ok, foldlM_add (k := 20)
      (g := fun p => ⟨2, 20 + p.2, (tagsOr tags volumeTags).get? (.bc p.2), none, p.1.1, p.1.2, []⟩)
      _ _ (by simp [boxEdges]), Res.bind_ok, addCell_ok, Res.bind_ok]
  · rw [List.nil_append, List.nil_append]
    change (buildGraph false (boxCells (tagsOr tags volumeTags)) >>= _) = _
    rw [e]; rfl
  · simp [boxEdges, boxFaces]
  · intro p hp c hc
    refine addCell_ok fun i hi => lt_of_lt_of_le ?_ hc
    revert p i
    decide
  · intro p hp c hc
    refine addCell_ok fun i hi => lt_of_lt_of_le ?_ hc
    revert p i
    decide

/-- C85 (errors).  Without points all three raise `ValueError`; a line needs two points. -/
theorem C85_rejects (b : Builder P) (x : P) :
    buildLine b [] = .error .valueError ∧ buildArea b [] = .error .valueError ∧
    buildBox b [] = .error .valueError ∧
    buildLine (.new b.tags) [x] = .error .indexError := by
  refine ⟨?_, ?_, ?_, rfl⟩ <;> rfl

/-- C85 (tags).  Tags given beforehand are kept; otherwise each builder has its own. -/
theorem C85_tags (tags : Dict Name Int) {box : List P} (x y : P) :
    (∃ b, buildLine (.new tags) [x, y] = .ok b ∧ (tags ≠ [] → b.tags = tags) ∧
      (tags = [] → b.tags = [(.line, 1), (.bc 0, 2), (.bc 1, 3)])) ∧
    (box ≠ [] → ∃ b, buildArea (.new tags) box = .ok b ∧ (tags ≠ [] → b.tags = tags) ∧
      (tags = [] → b.tags = (.area, 1) :: (List.range 4).map fun i : Nat => (.bc i, (i : Int) + 2))) ∧
    (box.length = 8 → ∃ b, buildBox (.new tags) box = .ok b ∧ (tags ≠ [] → b.tags = tags) ∧
      (tags = [] → b.tags = (.volume, 1) :: (List.range 6).map fun i : Nat => (.bc i, (i : Int) + 2))) := by
  have h : ∀ defaults, (tags ≠ [] → tagsOr tags defaults = tags) ∧
      (tags = [] → tagsOr tags defaults = defaults) := by
    intro defaults
    unfold tagsOr
    constructor
    · intro h
      exact if_neg (by rw [List.length_eq_zero_iff]; exact h)
    · intro h
      exact if_pos (by rw [h]; rfl)
  refine ⟨?_, fun hb => ?_, fun hb => ?_⟩
  · obtain ⟨g, e, -⟩ := C85_line tags x y
    exact ⟨_, e, (h _).1, (h _).2⟩
  · obtain ⟨g, e, -⟩ := C85_polygon tags hb
    exact ⟨_, e, (h _).1, (h _).2⟩
  · obtain ⟨g, e, -⟩ := C85_box tags hb
    exact ⟨_, e, (h _).1, (h _).2⟩

/-- C85 does not hold for a line through more than two points: the third point gets a vertex that no
cell refers to and that is not in the graph. -/
theorem C85_line_violated (tags : Dict Name Int) (x y z : P) :
    ∃ b g, buildLine (.new tags) [x, y, z] = .ok b ∧ b.graph = some g ∧
      b.cells[2]? = some (vertexCell 2) ∧ 2 ∉ g.nodes := by
  exact ⟨_, ⟨[3, 0, 1], [(3, 0), (3, 1)]⟩, rfl, rfl, rfl, by decide⟩

/-- C85 does not hold for a second polygon: its sides refer to the corners of the first one, and the
ids are used twice. -/
theorem C85_again_violated :
    ∃ b b' : Builder (Nat × Nat), buildArea (.new []) [(0, 0), (1, 0), (0, 1)] = .ok b ∧
      buildArea b [(5, 5), (6, 5), (5, 6)] = .ok b' ∧
      b'.cells[10]? = some ⟨1, 3, some 2, none, [0, 1], [], []⟩ ∧
      b'.cells[3]? = some ⟨1, 3, some 2, none, [0, 1], [], []⟩ ∧
      b'.points[0]? = some (0, 0) := by
  refine ⟨_, _, rfl, rfl, ?_, ?_, ?_⟩ <;> decide +kernel

/-- C85 does not hold for a box of more than eight points: the faces refer to the ids as positions,
so that the first one gets a vertex instead of its first edge. -/
theorem C85_points_violated :
    ∃ b : Builder Nat, buildBox (.new []) (List.range 9) = .ok b ∧
      (∃ f, b.cells[21]? = some f ∧ f.dimension = 2 ∧ 8 ∈ f.boundary) ∧
      ∃ v, b.cells[8]? = some v ∧ v.dimension = 0 := by
  have h : ((buildBox (.new []) (List.range 9)).toOption.map fun b : Builder Nat =>
      decide (b.cells[21]? = some ⟨2, 20, some 2, none, [8, 17, 12, 16], [8, 17, -12, -16], []⟩ ∧
        b.cells[8]? = some (vertexCell 8))) = some true := by
    decide +kernel
  cases hc : buildBox (.new []) (List.range 9) with
  | error e => rw [hc] at h; cases h
  | ok b =>
    rw [hc] at h
    obtain ⟨h1, h2⟩ := of_decide_eq_true (Option.some.inj h)
    exact ⟨b, rfl, ⟨_, h1, rfl, by decide⟩, _, h2, rfl⟩

/-- The tables of `build_box` are the edges and faces of the hexahedron: every edge belongs to two
faces, and the faces at the lower sides have them first. -/
example : boxEdges = hexEdges ∧ boxFaces.map Prod.snd = hexFaces.map loopOf ∧
    ∀ e ∈ List.range 12, (boxFaces.filter fun f => 8 + e ∈ f.1).length = 2 := by decide +kernel

#print axioms C85_polygon
#print axioms C85_line
#print axioms C85_box
#print axioms C85_rejects
#print axioms C85_line_violated
#print axioms C85_again_violated
#print axioms C85_points_violated

#print axioms C85_tags

end Verif.Builder
