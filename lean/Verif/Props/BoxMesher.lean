/-
C86: the description of the cells of `GeometryBuilder` for gmsh.
-/
import Verif.Props.Builder

namespace Verif.Builder
open MeshGraph Mesher Trace
variable {P : Type}

/-- The side from corner `i` to the next one. -/
def sideCall (n i : Nat) : Call P :=
  .addLine ((i : Int) + 1) (((i + 1) % n : Nat) + 1) ((n + i : Nat) : Int)

/-- The calls for the polygon with `n` corners, up to the order of the groups of the sides. -/
def polygonCalls (box : List P) (groups : List (Call P)) (a : Int) : List (Call P) :=
  pointCalls box ++
  (List.range box.length).map (sideCall box.length) ++
  [.addCurveLoop ((List.range box.length).map fun i => ((box.length + i : Nat) : Int))
      (box.length + box.length : Nat),
    .addPlaneSurface [((box.length + box.length : Nat) : Int)] (box.length + box.length : Nat)] ++
  groups ++ [.addPhysicalGroup 2 [((box.length + box.length : Nat) : Int)] a]

/-- The sides of the polygon. -/
def sideCells (tags : Dict Name Int) (n : Nat) : List GCell :=
  (List.range n).map fun i => ⟨1, n + i, tags.get? (.bc i), none, [i, (i + 1) % n], [], []⟩

theorem ofDim_polygon (tags : Dict Name Int) (n : Nat) :
    ofDim 1 (polygonCells tags n) = sideCells tags n ∧
    ofDim 2 (polygonCells tags n) =
      [⟨2, n + n, tags.get? .area, none, (List.range n).map (n + ·), [], []⟩] := by
  unfold ofDim polygonCells sideCells
  simp only [List.filter_append, List.filter_map, Function.comp_def]
  constructor <;> simp

theorem fancy_sides (tags : Dict Name Int) (n : Nat) :
    fancy (polygonCells tags n) ((List.range n).map (n + ·)) = .ok (sideCells tags n) := by
  refine fancy_iff.2 ?_
  unfold sideCells
  refine List.forall₂_map_left_iff.2 (List.forall₂_map_right_iff.2 ?_)
  refine List.forall₂_same.2 fun i hi => polygon_side tags (List.mem_range.1 hi)

theorem polygon_vertex (tags : Dict Name Int) {n i : Nat} (hi : i < n) :
    (polygonCells tags n)[i]? = some ⟨0, i, none, some i, [], [], []⟩ := by
  have hlt : i < (polygonCells tags n).length := by rw [polygon_length]; omega
  rcases polygon_get (List.getElem?_eq_getElem hlt) with ⟨h, h2⟩ | ⟨k, hk, h1, h2⟩ | ⟨h, -⟩
  · rw [List.getElem?_eq_getElem hlt, h2]
  · omega
  · omega

theorem lineCall_side (tags : Dict Name Int) {n i : Nat} (hi : i < n) :
    lineCall (P := P) (polygonCells tags n)
      ⟨1, n + i, tags.get? (.bc i), none, [i, (i + 1) % n], [], []⟩ =
    .ok (sideCall n i) := by
  unfold lineCall endTags
  rw [getIdx_of (show [i, (i + 1) % n][0]? = some i from rfl), Res.bind_ok,
    getIdx_of (polygon_vertex tags hi), Res.bind_ok,
    getIdx_of (show [i, (i + 1) % n][1]? = some ((i + 1) % n) from rfl)]
  simp only [pointTag, Res.pure_eq, Res.bind_ok]
  rw [getIdx_of (polygon_vertex tags (Nat.mod_lt _ (by omega)))]
  rfl

theorem surface_polygon (tags : Dict Name Int) (n : Nat) :
    surfaceCalls (P := P) (polygonCells tags n)
      ⟨2, n + n, tags.get? .area, none, (List.range n).map (n + ·), [], []⟩ =
    .ok ((List.range n).map (sideCall n) ++
      [.addCurveLoop ((List.range n).map fun i => ((n + i : Nat) : Int)) (n + n : Nat),
        .addPlaneSurface [((n + n : Nat) : Int)] (n + n : Nat)]) := by
  unfold surfaceCalls
  rw [fancy_sides, Res.bind_ok]
  have : mapRes (lineCall (P := P) (polygonCells tags n)) (sideCells tags n) =
      .ok ((List.range n).map (sideCall n)) := by
    unfold sideCells
    refine mapRes_iff.2 (List.forall₂_map_left_iff.2 (List.forall₂_map_right_iff.2 ?_))
    exact List.forall₂_same.2 fun i hi => lineCall_side tags (List.mem_range.1 hi)
  rw [this, Res.bind_ok]
  simp [tagsOf, sideCells, Function.comp_def]

/-- The calls for the polygon after its points. -/
def areaCalls (n : Nat) (groups : List (Call P)) (a : Int) : List (Call P) :=
  (List.range n).map (sideCall n) ++
  [.addCurveLoop ((List.range n).map fun i => ((n + i : Nat) : Int)) (n + n : Nat),
    .addPlaneSurface [((n + n : Nat) : Int)] (n + n : Nat)] ++
  groups ++ [.addPhysicalGroup 2 [((n + n : Nat) : Int)] a]

theorem polygonCalls_eq (box : List P) (groups : List (Call P)) (a : Int) :
    polygonCalls box groups a = pointCalls box ++ areaCalls box.length groups a := by
  simp [polygonCalls, areaCalls]

theorem describe_polygon {tags : Dict Name Int} {box : List P} {b : Builder P} {t : Nat → Int} {a : Int}
    (hb : box ≠ []) (h : buildArea (.new tags) box = .ok b)
    (ht : ∀ i < box.length, (tagsOr tags areaTags).get? (.bc i) = some (t i))
    (ha : (tagsOr tags areaTags).get? .area = some a) :
    ∃ groups, groups.Perm ((List.range box.length).map fun i =>
        .addPhysicalGroup 1 [((box.length + i : Nat) : Int)] (t i)) ∧
      describe 2 b = .ok (areaCalls box.length groups a, [((box.length + box.length : Nat) : Int)]) ∧
      b.points = box ∧ b.cells.length = box.length + box.length + 1 := by
  obtain ⟨g, e, hg⟩ := C85_polygon tags hb
  rw [e] at h
  cases h
  generalize tagsOr tags areaTags = tags at *
  obtain ⟨geo, e1, hp⟩ := geo_perm hg
  obtain ⟨d1, d2⟩ := ofDim_polygon tags box.length
  have p1 := d1 ▸ ofDim_perm (k := 1) hp
  have p2 := List.perm_singleton.1 (d2 ▸ ofDim_perm (k := 2) hp)
  refine ⟨(ofDim 1 geo).map fun c => .addPhysicalGroup 1 [(c.id : Int)] (c.physical.getD 0), ?_, ?_, rfl, ?_⟩
  · refine (p1.map _).trans (List.Perm.of_eq ?_)
    unfold sideCells
    rw [List.map_map]
    refine List.map_congr_left fun i hi => ?_
    simp [ht i (List.mem_range.1 hi)]
  · unfold describe
    rw [if_neg (by decide), if_pos rfl]
    unfold describeArea nodesOf
    dsimp only
    rw [Res.pure_eq, Res.bind_ok, e1, Res.bind_ok, p2]
    rw [Topology.mapRes_ok_of (f := fun c : GCell => group (P := P) 1 [(c.id : Int)] c.physical)
      (g := fun c => .addPhysicalGroup 1 [(c.id : Int)] (c.physical.getD 0))]
    · simp only [mapRes, surface_polygon, Res.bind_ok, Res.pure_eq]
      simp [areaCalls, ha, group, tagsOf]
    · intro c hc
      have := p1.mem_iff.1 hc
      obtain ⟨i, hi, rfl⟩ := List.mem_map.1 this
      simp [group, ht i (List.mem_range.1 hi)]
  · rw [polygon_length]

/-- C86.  The description of a polygon for gmsh: its points, its sides in order, the loop along the
sides, the surface, one group for every side and one for the surface. -/
theorem C86_polygon {tags : Dict Name Int} {box : List P} {b : Builder P} {t : Nat → Int} {a : Int}
    (hb : box ≠ []) (h : buildArea (.new tags) box = .ok b)
    (ht : ∀ i < box.length, (tagsOr tags areaTags).get? (.bc i) = some (t i))
    (ha : (tagsOr tags areaTags).get? .area = some a) :
    ∃ groups, groups.Perm ((List.range box.length).map fun i =>
        .addPhysicalGroup 1 [((box.length + i : Nat) : Int)] (t i)) ∧
      generate 2 b none = .ok (polygonCalls box groups a) := by
  obtain ⟨groups, h1, h2, h3, -⟩ := describe_polygon hb h ht ha
  refine ⟨groups, h1, ?_⟩
  unfold generate
  rw [h2, Res.bind_ok, polygonCalls_eq, h3]
  simp

/-- C86.  Every call for a polygon refers to entities made before, entities of the same dimension
have different positive tags, and the loop of the surface is closed: it leads through all points. -/
theorem C86_polygon_valid {box : List P} (hb : box ≠ []) {groups : List (Call P)} {t : Nat → Int}
    {a : Int} (hg : groups.Perm ((List.range box.length).map fun i =>
        .addPhysicalGroup 1 [((box.length + i : Nat) : Int)] (t i))) :
    WellFormed [] (polygonCalls box groups a) ∧ (created (polygonCalls box groups a)).Nodup ∧
    (∀ e ∈ created (polygonCalls box groups a), 0 < e.tag) ∧
    Closed (polygonCalls box groups a)
      ((List.range box.length).map fun i => ((box.length + i : Nat) : Int))
      ((List.range box.length).map fun i : Nat => (i : Int) + 1) ∧
    (groupKeys (polygonCalls box groups a)).Perm
      ((2, a) :: (List.range box.length).map fun i => (1, t i)) := by
  have hn : 0 < box.length := List.length_pos_iff.2 hb
  have hsides : created ((List.range box.length).map (sideCall (P := P) box.length)) =
      (List.range box.length).map fun i => .dim 1 ((box.length + i : Nat) : Int) := by
    unfold created
    rw [List.flatMap_map]
    simp only [sideCall, Call.creates]
    rw [← List.map_eq_flatMap]
  have hgroups : created groups = [] := created_nil fun c hc => by
    obtain ⟨i, -, rfl⟩ := List.mem_map.1 (hg.mem_iff.1 hc)
    rfl
  have hcre : created (polygonCalls box groups a) =
      ((List.range box.length).map fun i : Nat => Ent.dim 0 ((i : Int) + 1)) ++
      ((List.range box.length).map fun i => .dim 1 ((box.length + i : Nat) : Int)) ++
      [.curveLoop (box.length + box.length : Nat), .dim 2 (box.length + box.length : Nat)] := by
    unfold polygonCalls
    simp only [created_append, hsides, hgroups, created_points]
    simp [created, Call.creates]
  refine ⟨?_, ?_, ?_, ?_, ?_⟩
  · unfold polygonCalls
    simp only [wf_append, created_append, hsides, hgroups, created_points, List.nil_append]
    refine ⟨⟨⟨⟨?_, ?_⟩, ?_⟩, ?_⟩, ?_⟩
    · refine wf_of_refs _ fun c hc => ?_
      obtain ⟨p, -, rfl⟩ := List.mem_map.1 hc
      simp [Call.refs]
    · refine wf_of_refs _ fun c hc r hr => ?_
      obtain ⟨i, hi, rfl⟩ := List.mem_map.1 hc
      have hm := Nat.mod_lt (i + 1) hn
      simp only [sideCall, Call.refs, List.mem_cons, List.not_mem_nil, or_false] at hr
      rcases hr with rfl | rfl
      · exact List.mem_map.2 ⟨i, hi, rfl⟩
      · exact List.mem_map.2 ⟨_, List.mem_range.2 hm, rfl⟩
    · refine ⟨?_, ?_, trivial⟩
      · intro r hr
        simp only [Call.refs, List.map_map, List.mem_map, Function.comp] at hr
        obtain ⟨i, hi, rfl⟩ := hr
        rw [Int.abs_natCast]
        exact List.mem_append_right _ (List.mem_map.2 ⟨i, hi, rfl⟩)
      · intro r hr
        simp only [Call.refs, List.map_cons, List.map_nil, List.mem_singleton] at hr
        subst hr
        exact List.mem_append_right _ (by simp [Call.creates])
    · refine wf_of_refs _ fun c hc r hr => ?_
      obtain ⟨i, hi, rfl⟩ := List.mem_map.1 (hg.mem_iff.1 hc)
      simp only [Call.refs, List.map_cons, List.map_nil, List.mem_singleton] at hr
      subst hr
      exact List.mem_append_left _ (List.mem_append_right _ (List.mem_map.2 ⟨i, hi, rfl⟩))
    · refine wf_of_refs _ fun c hc r hr => ?_
      cases List.mem_singleton.1 hc
      simp only [Call.refs, List.map_cons, List.map_nil, List.mem_singleton] at hr
      subst hr
      simp [created, Call.creates]
  · rw [hcre]
    refine List.nodup_append.2 ⟨List.nodup_append.2 ⟨?_, ?_, ?_⟩, by simp, ?_⟩
    · refine List.Nodup.map ?_ List.nodup_range
      intro i j h
      simpa using h
    · refine List.Nodup.map ?_ List.nodup_range
      intro i j h
      simpa using h
    · intro x hx y hy
      obtain ⟨i, -, rfl⟩ := List.mem_map.1 hx
      obtain ⟨j, -, rfl⟩ := List.mem_map.1 hy
      simp
    · intro x hx y hy
      rcases List.mem_append.1 hx with hx | hx <;> obtain ⟨i, -, rfl⟩ := List.mem_map.1 hx <;>
        simp only [List.mem_cons, List.not_mem_nil, or_false] at hy <;>
        rcases hy with rfl | rfl <;> simp
  · rw [hcre]
    intro e he
    simp only [List.mem_append, List.mem_map, List.mem_cons, List.not_mem_nil, or_false] at he
    rcases he with (⟨i, -, rfl⟩ | ⟨i, -, rfl⟩) | rfl | rfl <;> simp only [Ent.tag] <;> omega
  · refine ⟨by simp, fun i hi => ?_⟩
    rw [List.length_map, List.length_range] at hi ⊢
    have hm := Nat.mod_lt (i + 1) hn
    refine ⟨((box.length + i : Nat) : Int), (i : Int) + 1, (((i + 1) % box.length : Nat) : Int) + 1,
      ?_, ?_, ?_, .inl ⟨by omega, ?_⟩⟩
    · rw [List.getElem?_map, List.getElem?_range hi]; rfl
    · rw [List.getElem?_map, List.getElem?_range hi]; rfl
    · rw [List.getElem?_map, List.getElem?_range hm]; rfl
    · unfold polygonCalls
      simp only [List.mem_append]
      exact .inl (.inl (.inl (.inr (List.mem_map.2 ⟨i, List.mem_range.2 hi, rfl⟩))))
  · have hk := hg.filterMap fun c : Call P => match c with
      | .addPhysicalGroup k _ p => some (k, p)
      | _ => none
    rw [List.filterMap_map] at hk
    have h1 : groupKeys (polygonCalls box groups a) = groupKeys groups ++ [(2, a)] := by
      unfold polygonCalls groupKeys pointCalls
      simp only [List.filterMap_append, List.filterMap_map]
      simp [sideCall]
    rw [h1]
    refine List.perm_append_comm.trans ?_
    refine List.Perm.cons _ (hk.trans (List.Perm.of_eq ?_))
    simp [Function.comp_def]

/-- C86.  The description of a line: its two points, the line, one group for each end and one for the
line. -/
theorem C86_line {tags : Dict Name Int} {x y : P} {b : Builder P} {t0 t1 l : Int}
    (h : buildLine (.new tags) [x, y] = .ok b)
    (h0 : (tagsOr tags lineTags).get? (.bc 0) = some t0)
    (h1 : (tagsOr tags lineTags).get? (.bc 1) = some t1)
    (hl : (tagsOr tags lineTags).get? .line = some l) :
    generate 1 b none = .ok [.addPoint x 1, .addPoint y 2, .addLine 1 2 2, .addPhysicalGroup 0 [1] t0,
      .addPhysicalGroup 0 [2] t1, .addPhysicalGroup 1 [2] l] := by
  have hb : buildLine (.new tags) [x, y] = .ok ⟨[x, y], lineCells (tagsOr tags lineTags),
      tagsOr tags lineTags, some ⟨[2, 0, 1], [(2, 0), (2, 1)]⟩⟩ := rfl
  rw [hb] at h
  cases h
  clear hb
  generalize tagsOr tags lineTags = tags at *
  unfold generate describe describeLine nodesOf
  dsimp only
  rw [if_pos rfl]
  have : fancy (lineCells tags) [2, 0, 1] = .ok [⟨1, 2, some l, none, [0, 1], [], []⟩,
      ⟨0, 0, some t0, some 0, [], [], []⟩, ⟨0, 1, some t1, some 1, [], [], []⟩] := by
    unfold lineCells
    rw [h0, h1, hl]; rfl
  rw [Res.pure_eq, Res.bind_ok, this]
  rfl

/-- The calls for the box, up to the order of the edges and of the groups of the faces. -/
def boxCalls (box : List P) (lines groups : List (Call P)) (a : Int) : List (Call P) :=
  pointCalls box ++ lines ++
  (hexFaces.zipIdx.flatMap fun p =>
    [.addCurveLoop (loopOf p.1) ((20 + p.2 : Nat) : Int),
      .addPlaneSurface [((20 + p.2 : Nat) : Int)] ((20 + p.2 : Nat) : Int)]) ++
  [.addSurfaceLoop [20, 21, 22, 23, 24, 25] 26, .addVolume [26] 26] ++ groups ++
  [.addPhysicalGroup 3 [26] a]

/-- The edges of the box. -/
def edgeCalls : List (Call P) :=
  hexEdges.zipIdx.map fun p =>
    .addLine ((p.1.headD 0 : Nat) + 1) ((p.1.getLastD 0 : Nat) + 1) ((8 + p.2 : Nat) : Int)

def faceGroups (t : Nat → Int) : List (Call P) :=
  (List.range 6).map fun i => .addPhysicalGroup 2 [((20 + i : Nat) : Int)] (t i)

def boxEdgeCells : List GCell := hexEdges.zipIdx.map (fun p => ⟨1, 8 + p.2, none, none, p.1, [], []⟩)

def boxFaceCells (tags : Dict Name Int) : List GCell := hexFaces.zipIdx.map (fun p =>
    ⟨2, 20 + p.2, tags.get? (.bc p.2), none, (loopOf p.1).map Int.natAbs, loopOf p.1, []⟩)

def boxVolume (tags : Dict Name Int) : GCell :=
  ⟨3, 26, tags.get? .volume, none, [20, 21, 22, 23, 24, 25], [], []⟩

theorem ofDim_box (tags : Dict Name Int) :
    ofDim 1 (boxCells tags) = boxEdgeCells ∧ ofDim 2 (boxCells tags) = boxFaceCells tags ∧
    ofDim 3 (boxCells tags) = [boxVolume tags] := by
  unfold ofDim boxCells boxEdgeCells boxFaceCells
  simp only [List.filter_append, List.filter_map, Function.comp_def]
  refine ⟨?_, ?_, ?_⟩ <;> simp [boxVolume]
  decide

theorem lineCall_box (tags : Dict Name Int) :
    mapRes (lineCall (P := P) (boxCells tags)) boxEdgeCells = .ok edgeCalls := rfl

theorem volume_box (tags : Dict Name Int) :
    volumesCalls (P := P) (boxCells tags) [] [boxVolume tags] =
    .ok ((hexFaces.zipIdx.flatMap fun p =>
        [.addCurveLoop (loopOf p.1) ((20 + p.2 : Nat) : Int),
          .addPlaneSurface [((20 + p.2 : Nat) : Int)] ((20 + p.2 : Nat) : Int)]) ++
      [.addSurfaceLoop [20, 21, 22, 23, 24, 25] 26, .addVolume [26] 26]) := rfl

/-- C86.  The description of a box. -/
theorem C86_box {tags : Dict Name Int} {box : List P} {b : Builder P} {t : Nat → Int} {a : Int}
    (hb : box.length = 8) (h : buildBox (.new tags) box = .ok b)
    (ht : ∀ i < 6, (tagsOr tags volumeTags).get? (.bc i) = some (t i))
    (ha : (tagsOr tags volumeTags).get? .volume = some a) :
    ∃ lines groups, lines.Perm edgeCalls ∧ groups.Perm (faceGroups t) ∧
      generate 3 b none = .ok (boxCalls box lines groups a) := by
  obtain ⟨g, e, hg⟩ := C85_box tags hb
  rw [e] at h
  cases h
  generalize tagsOr tags volumeTags = tags at *
  obtain ⟨geo, e1, hp⟩ := geo_perm hg
  obtain ⟨d1, d2, d3⟩ := ofDim_box tags
  have p1 := d1 ▸ ofDim_perm (k := 1) hp
  have p2 := d2 ▸ ofDim_perm (k := 2) hp
  have p3 := List.perm_singleton.1 (d3 ▸ ofDim_perm (k := 3) hp)
  have hf := mapRes_iff.1 (lineCall_box (P := P) tags)
  obtain ⟨lines, f1, f2⟩ : ∃ lines, List.Forall₂ (fun a b => lineCall (P := P) (boxCells tags) a = .ok b)
      (ofDim 1 geo) lines ∧ lines.Perm edgeCalls := by
    obtain ⟨l, h1, h2⟩ := List.perm_comp_forall₂ p1 hf
    exact ⟨l, h1, h2⟩
  refine ⟨lines, (ofDim 2 geo).map fun c => .addPhysicalGroup 2 [(c.id : Int)] (c.physical.getD 0),
    f2, ?_, ?_⟩
  · refine (p2.map _).trans (List.Perm.of_eq ?_)
    unfold boxFaceCells faceGroups
    simp only [List.map_map, Function.comp_def]
    simp [hexFaces, List.range, List.range.loop, ht]
  · unfold generate describe
    rw [if_neg (by decide), if_neg (by decide), if_pos rfl]
    unfold describeVolume nodesOf
    dsimp only
    rw [Res.pure_eq, Res.bind_ok, e1, Res.bind_ok, p3, mapRes_iff.2 f1, Res.bind_ok, volume_box]
    rw [Topology.mapRes_ok_of (f := fun c : GCell => group (P := P) 2 [(c.id : Int)] c.physical)
      (g := fun c => .addPhysicalGroup 2 [(c.id : Int)] (c.physical.getD 0))]
    · simp only [mapRes, Res.bind_ok, Res.pure_eq, boxVolume, ha, group, tagsOf]
      simp [boxCalls]
    · intro c hc
      have := p2.mem_iff.1 hc
      simp only [boxFaceCells, hexFaces, List.range, List.range.loop, List.zipIdx, List.map_cons,
        List.map_nil, List.cons_append, List.nil_append, List.mem_cons, List.not_mem_nil, or_false]
        at this
      rcases this with rfl | rfl | rfl | rfl | rfl | rfl <;> simp [group, ht]

/-- What the calls for the box make. -/
def boxEntities : List Ent :=
  (List.range 8).map (fun i => .dim 0 ((i : Int) + 1)) ++
  (List.range 12).map (fun i => .dim 1 ((8 + i : Nat) : Int)) ++
  (List.range 6).flatMap (fun i => [.curveLoop ((20 + i : Nat) : Int), .dim 2 ((20 + i : Nat) : Int)]) ++
  [.surfaceLoop 26, .dim 3 26]

/-- C86.  Every call for a box refers to entities made before, entities of the same dimension have
different positive tags, the loop of every face leads through its four corners, and every edge
belongs to the loops of two faces. -/
theorem C86_box_valid {box : List P} (hb : box.length = 8) {lines groups : List (Call P)}
    {t : Nat → Int} {a : Int} (hl : lines.Perm edgeCalls) (hg : groups.Perm (faceGroups t)) :
    WellFormed [] (boxCalls box lines groups a) ∧
    (created (boxCalls box lines groups a)).Perm boxEntities ∧
    boxEntities.Nodup ∧ (∀ e ∈ boxEntities, 0 < e.tag) ∧
    (∀ f ∈ hexFaces, Closed (boxCalls box lines groups a) (loopOf f)
      (f.map fun i : Nat => (i : Int) + 1)) ∧
    (∀ e ∈ List.range 12, (hexFaces.filter fun f =>
      ((8 + e : Nat) : Int) ∈ loopOf f ∨ -((8 + e : Nat) : Int) ∈ loopOf f).length = 2) ∧
    (groupKeys (boxCalls box lines groups a)).Perm
      ((3, a) :: (List.range 6).map fun i => (2, t i)) := by
  have hlines : (created lines).Perm ((List.range 12).map fun i => .dim 1 ((8 + i : Nat) : Int)) :=
    (hl.flatMap_right _).trans (List.Perm.of_eq rfl)
  have hgroups : created groups = [] := created_nil fun c hc => by
    obtain ⟨i, -, rfl⟩ := List.mem_map.1 (hg.mem_iff.1 hc)
    rfl
  have hfaces : created (P := P) (hexFaces.zipIdx.flatMap fun p =>
      [.addCurveLoop (loopOf p.1) ((20 + p.2 : Nat) : Int),
        .addPlaneSurface [((20 + p.2 : Nat) : Int)] ((20 + p.2 : Nat) : Int)]) =
      (List.range 6).flatMap (fun i => [.curveLoop ((20 + i : Nat) : Int),
        .dim 2 ((20 + i : Nat) : Int)]) := rfl
  refine ⟨?_, ?_, by decide +kernel, by decide +kernel, ?_, by decide +kernel, ?_⟩
  · unfold boxCalls
    simp only [wf_append, created_append, hgroups, hfaces, created_points, hb, List.nil_append]
    refine ⟨⟨⟨⟨⟨?_, ?_⟩, ?_⟩, ?_⟩, ?_⟩, ?_⟩
    · refine wf_of_refs _ fun c hc => ?_
      obtain ⟨p, -, rfl⟩ := List.mem_map.1 hc
      simp [Call.refs]
    · refine wf_of_refs _ fun c hc r hr => ?_
      obtain ⟨p, hp, rfl⟩ := List.mem_map.1 (hl.mem_iff.1 hc)
      have : ∀ p ∈ hexEdges.zipIdx,
          (.dim 0 ((p.1.headD 0 : Nat) + 1) : Ent) ∈ (List.range 8).map (fun i => .dim 0 ((i : Int) + 1)) ∧
          (.dim 0 ((p.1.getLastD 0 : Nat) + 1) : Ent) ∈
            (List.range 8).map (fun i => .dim 0 ((i : Int) + 1)) := by decide +kernel
      simp only [Call.refs, List.mem_cons, List.not_mem_nil, or_false] at hr
      rcases hr with rfl | rfl
      · exact (this p hp).1
      · exact (this p hp).2
    · refine wf_mono _ (made := (List.range 12).map fun i => .dim 1 ((8 + i : Nat) : Int)) ?_ ?_
      · intro e he
        exact List.mem_append_right _ (hlines.mem_iff.2 he)
      · have : ∀ f ∈ hexFaces, ∀ c ∈ loopOf f,
            (.dim 1 |c| : Ent) ∈ (List.range 12).map fun i => .dim 1 ((8 + i : Nat) : Int) := by
          decide +kernel
        generalize (List.range 12).map (fun i => (.dim 1 ((8 + i : Nat) : Int) : Ent)) = made at this
        have gen : ∀ (l : List (List Nat × Nat)) (made' : List Ent), (∀ e ∈ made, e ∈ made') →
            (∀ p ∈ l, p.1 ∈ hexFaces) → WellFormed (P := P) made' (l.flatMap fun p =>
              [.addCurveLoop (loopOf p.1) ((20 + p.2 : Nat) : Int),
                .addPlaneSurface [((20 + p.2 : Nat) : Int)] ((20 + p.2 : Nat) : Int)]) := by
          intro l
          induction l with
          | nil => intros; trivial
          | cons p l ih =>
            intro made' hm hp
            rw [List.flatMap_cons]
            refine ⟨?_, ?_, ?_⟩
            · intro r hr
              obtain ⟨c, hc, rfl⟩ := List.mem_map.1 hr
              exact hm _ (this _ (hp p List.mem_cons_self) c hc)
            · intro r hr
              simp only [Call.refs, List.map_cons, List.map_nil, List.mem_singleton] at hr
              subst hr
              exact List.mem_append_right _ (by simp [Call.creates])
            · refine ih _ (fun e he => List.mem_append_left _ (List.mem_append_left _ (hm e he)))
                fun q hq => hp q (List.mem_cons_of_mem _ hq)
        exact gen _ _ (fun _ h => h) fun p hp => (List.mem_zipIdx hp).2.2 ▸ List.getElem_mem _
    · refine ⟨?_, ?_, trivial⟩
      · intro r hr
        refine List.mem_append_right _ ?_
        revert r
        simp only [Call.refs]
        decide
      · intro r hr
        refine List.mem_append_right _ ?_
        simpa [Call.refs, Call.creates] using hr
    · refine wf_of_refs _ fun c hc r hr => ?_
      obtain ⟨i, hi, rfl⟩ := List.mem_map.1 (hg.mem_iff.1 hc)
      simp only [Call.refs, List.map_cons, List.map_nil, List.mem_singleton] at hr
      subst hr
      refine List.mem_append_left _ (List.mem_append_right _ ?_)
      exact List.mem_flatMap.2 ⟨i, hi, by simp⟩
    · refine wf_of_refs _ fun c hc r hr => ?_
      cases List.mem_singleton.1 hc
      simp only [Call.refs, List.map_cons, List.map_nil, List.mem_singleton] at hr
      subst hr
      simp [created, Call.creates]
  · unfold boxCalls boxEntities
    simp only [created_append, hgroups, hfaces, created_points, hb, List.append_nil]
    rw [show created [(.addPhysicalGroup 3 [26] a : Call P)] = [] from rfl, List.append_nil]
    refine List.Perm.append ?_ (List.Perm.of_eq rfl)
    exact (hlines.append_left _).append_right _
  · have key : ∀ f ∈ hexFaces, ∀ i < (loopOf f).length, f.length = (loopOf f).length ∧
        ∃ c ∈ (loopOf f)[i]?, ∃ b ∈ f[i]?, ∃ e ∈ f[(i + 1) % (loopOf f).length]?,
          (0 < c ∧ ([b, e], c.natAbs - 8) ∈ hexEdges.zipIdx ∧ 8 ≤ c) ∨
          (c < 0 ∧ ([e, b], c.natAbs - 8) ∈ hexEdges.zipIdx ∧ 8 ≤ -c) := by
      decide +kernel
    have hedge : ∀ (b e : Nat) (k : Nat), ([b, e], k) ∈ hexEdges.zipIdx →
        .addLine ((b : Int) + 1) ((e : Int) + 1) ((8 + k : Nat) : Int) ∈
          boxCalls box lines groups a := by
      intro b e k hk
      unfold boxCalls
      simp only [List.mem_append]
      refine .inl (.inl (.inl (.inl (.inr (hl.mem_iff.2 (List.mem_map.2 ⟨([b, e], k), hk, rfl⟩))))))
    intro f hf
    refine ⟨?_, fun i hi => ?_⟩
    · rw [List.length_map]
      exact (key f hf 0 (by revert f; decide)).1
    · obtain ⟨-, c, hc, b, hb, e, he, h⟩ := key f hf i hi
      refine ⟨c, (b : Int) + 1, (e : Int) + 1, hc, by rw [List.getElem?_map, hb]; rfl,
        by rw [List.getElem?_map, he]; rfl, ?_⟩
      rcases h with ⟨h1, h2, h3⟩ | ⟨h1, h2, h3⟩
      · refine .inl ⟨h1, ?_⟩
        have := hedge _ _ _ h2
        rwa [show ((8 + (c.natAbs - 8) : Nat) : Int) = c by omega] at this
      · refine .inr ⟨h1, ?_⟩
        have := hedge _ _ _ h2
        rwa [show ((8 + (c.natAbs - 8) : Nat) : Int) = -c by omega] at this
  · have hk := hg.filterMap fun c : Call P => match c with
      | .addPhysicalGroup k _ p => some (k, p)
      | _ => none
    have hk2 : groupKeys lines = [] := by
      unfold groupKeys
      refine List.filterMap_eq_nil_iff.2 fun c hc => ?_
      obtain ⟨p, hp, rfl⟩ := List.mem_map.1 (hl.mem_iff.1 hc)
      rfl
    have h1 : groupKeys (boxCalls box lines groups a) = groupKeys groups ++ [(3, a)] := by
      unfold boxCalls
      have e1 : groupKeys (pointCalls box) = [] := by
        unfold groupKeys pointCalls
        simp [List.filterMap_map]
      unfold groupKeys at e1 hk2 ⊢
      simp only [List.filterMap_append, e1, hk2]
      rfl
    rw [h1]
    refine List.perm_append_comm.trans ?_
    refine List.Perm.cons _ (hk.trans (List.Perm.of_eq ?_))
    rfl

/-- C86 (errors).  A mesher of dimension other than one, two and three raises `ValueError`; a builder
without box has no graph; fractures are for dimension two only. -/
theorem C86_rejects {b : Builder P} :
    (∀ dimension : Int, dimension ≠ 1 → dimension ≠ 2 → dimension ≠ 3 → ∀ net,
      generate dimension b net = .error .valueError) ∧
    (∀ tags, generate 2 (.new tags : Builder P) none = .error .attributeError) ∧
    (∀ net calls, generate 1 b (some net) ≠ .ok calls ∧ generate 3 b (some net) ≠ .ok calls) := by
  refine ⟨?_, fun _ => rfl, ?_⟩
  · intro dimension h1 h2 h3 net
    unfold generate describe
    rw [if_neg h1, if_neg h2, if_neg h3]
    rfl
  · intro net calls
    unfold generate
    constructor <;> intro h <;> obtain ⟨d, -, h⟩ := Res.bind_eq_ok.1 h <;> simp at h

/-- C86 (errors).  A side without physical tag raises `TypeError`. -/
theorem C86_untagged {tags : Dict Name Int} {box : List P} {b : Builder P} {i : Nat}
    (hi : i < box.length) (h : buildArea (.new tags) box = .ok b)
    (ht : (tagsOr tags areaTags).get? (.bc i) = none) : generate 2 b none = .error .typeError := by
  have hb : box ≠ [] := by rintro rfl; simp at hi
  obtain ⟨g, e, hg⟩ := C85_polygon tags hb
  rw [e] at h
  cases h
  obtain ⟨geo, e1, hp⟩ := geo_perm hg
  obtain ⟨d1, d2⟩ := ofDim_polygon (tagsOr tags areaTags) box.length
  have p1 := d1 ▸ ofDim_perm (k := 1) hp
  have p2 := List.perm_singleton.1 (d2 ▸ ofDim_perm (k := 2) hp)
  unfold generate describe
  rw [if_neg (by decide), if_pos rfl]
  unfold describeArea nodesOf
  dsimp only
  rw [Res.pure_eq, Res.bind_ok, e1, Res.bind_ok, p2]
  rw [mapRes_error (f := fun c : GCell => group (P := P) 1 [(c.id : Int)] c.physical)
    (e := .typeError)]
  · simp only [mapRes, surface_polygon, Res.bind_ok, Res.pure_eq]
    rfl
  · intro c _
    cases hc : c.physical with
    | none => exact .inr rfl
    | some p => exact .inl ⟨_, rfl⟩
  · refine ⟨_, p1.mem_iff.2 (List.mem_map.2 ⟨i, List.mem_range.2 hi, rfl⟩), ?_⟩
    rw [ht]
    rfl

/-- C86 does not hold for a polygon with more than four corners and the default tags: there is no tag
for the fifth side, and `TypeError` is raised. -/
theorem C86_default_violated {box : List P} (hb : 4 < box.length) {b : Builder P}
    (h : buildArea (.new []) box = .ok b) : generate 2 b none = .error .typeError :=
  C86_untagged hb h rfl

/-- The tags may be given or the default ones. -/
example (x : P) : ∃ b calls, buildArea (.new []) [x, x, x, x] = .ok b ∧
    generate 2 b none = .ok calls :=
  let ⟨_, h, _⟩ := C85_polygon (P := P) [] (box := [x, x, x, x]) (by simp)
  let ⟨_, _, h'⟩ := C86_polygon (t := fun i => i + 2) (a := 1) (by simp) h (by simp only [List.length_cons, List.length_nil]; decide) rfl
  ⟨_, _, h, h'⟩

example {box : List P} (hb : box.length = 8) : ∃ b calls, buildBox (.new []) box = .ok b ∧
    generate 3 b none = .ok calls :=
  let ⟨_, h, _⟩ := C85_box (P := P) [] hb
  let ⟨_, _, _, _, h'⟩ := C86_box (t := fun i => i + 2) (a := 1) hb h (by decide) rfl
  ⟨_, _, h, h'⟩

example (x : P) : ∃ b, buildArea (.new []) [x, x, x, x, x] = .ok b :=
  let ⟨_, h, _⟩ := C85_polygon (P := P) [] (box := [x, x, x, x, x]) (by simp)
  ⟨_, h⟩

/-- A square with the default tags. -/
example : ((buildArea (.new []) [(0, 0), (1, 0), (1, 1), (0, 1)]).toOption.bind fun b =>
    (generate 2 b none).toOption) = some
    [.addPoint (0, 0) 1, .addPoint (1, 0) 2, .addPoint (1, 1) 3, .addPoint (0, 1) 4, .addLine 1 2 4,
      .addLine 2 3 5, .addLine 3 4 6, .addLine 4 1 7, .addCurveLoop [4, 5, 6, 7] 8,
      .addPlaneSurface [8] 8, .addPhysicalGroup 1 [4] 2, .addPhysicalGroup 1 [5] 3,
      .addPhysicalGroup 1 [6] 4, .addPhysicalGroup 1 [7] 5, .addPhysicalGroup 2 [8] 1] := by
  decide +kernel

#print axioms C86_polygon
#print axioms C86_polygon_valid
#print axioms C86_line
#print axioms C86_box
#print axioms C86_box_valid
#print axioms C86_rejects
#print axioms C86_untagged
#print axioms C86_default_violated

end Verif.Builder
