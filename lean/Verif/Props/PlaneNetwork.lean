/-
C116: the network of plane fractures (`intersect_2D_fractures`).
-/
import Verif.Lemmas.PlaneNetwork

namespace Verif.PlaneNet
open MeshGraph Trace Geometry Builder

/-- C116: the separate polygons: every polygon has its vertices, its edges around and its surface, one polygon after
the other; an empty polygon is refused. -/
theorem C116_planes (fs : List (List (Pt ℝ))) :
    ((∀ f ∈ fs, f ≠ []) → insertPlanes ⟨[], []⟩ 0 fs = .ok ⟨fs.flatten, blocks 0 fs⟩) ∧
    ([] ∈ fs → insertPlanes ⟨[], []⟩ 0 fs = .error .valueError) :=
  ⟨fun h => by simpa using insertPlanes_ok (net := ⟨[], []⟩) h,
    fun h => insertPlanes_empty (net := ⟨[], []⟩) h⟩

/-- Two segments as polygons. -/
example (a b c d : Pt ℝ) : (insertPlanes ⟨[], []⟩ 0 [[a, b], [c, d]]).map (·.cells.map GCell.boundary) =
    .ok [[], [], [0, 1], [1, 0], [2, 3], [], [], [5, 6], [6, 5], [7, 8]] := by
  rw [(C116_planes _).1 (by simp)]
  simp [blocks, block, List.range, List.range.loop, Except.map]

/-- C116: the vertices of the first polygon have its points. -/
theorem C116_first (f : List (Pt ℝ)) (fs : List (List (Pt ℝ))) {k : Nat} (hk : k < f.length) :
    (blocks 0 (f :: fs))[k]? = some ⟨0, k, none, some k, [], [], []⟩ ∧ (f :: fs).flatten[k]? = f[k]? := by
  constructor
  · unfold blocks block
    rw [List.getElem?_append_left (by simp; omega), List.getElem?_append_left (by simp; omega),
      List.getElem?_append_left (by simpa using hk)]
    simp [hk]
  · rw [List.flatten_cons, List.getElem?_append_left hk]

/-- C116 fails for the vertices of the second polygon: the number of the point is that of the cell, and it is too large by
the number of edges and surfaces before. -/
theorem C116_points_violated (f g : List (Pt ℝ)) (fs : List (List (Pt ℝ))) {k : Nat} (hk : k < g.length) :
    (blocks 0 (f :: g :: fs))[2 * f.length + 1 + k]? =
      some ⟨0, 2 * f.length + 1 + k, none, some (2 * f.length + 1 + k), [], [], []⟩ ∧
    (f :: g :: fs).flatten[f.length + k]? = g[k]? ∧ f.length + k < 2 * f.length + 1 + k := by
  refine ⟨?_, ?_, by omega⟩
  · rw [blocks, List.getElem?_append_right (by rw [block_length]; omega), block_length, blocks, block,
      List.getElem?_append_left (by simp; omega), List.getElem?_append_left (by simp; omega),
      List.getElem?_append_left (by simp; omega),
      show 2 * f.length + 1 + k - (f.length + f.length + 1) = k by omega]
    simp [hk]
    omega
  · rw [List.flatten_cons, List.getElem?_append_right (by omega), List.flatten_cons, Nat.add_sub_cancel_left,
      List.getElem?_append_left hk]

/-- With two quadrilaterals the second one has the points 9 to 12, of which there are none. -/
theorem C116_quads_violated (a b c d p q r s : Pt ℝ) :
    ∃ net, insertPlanes ⟨[], []⟩ 0 [[a, b, c, d], [p, q, r, s]] = .ok net ∧ net.points.length = 8 ∧
      ∀ k, k < 4 → ∃ v, net.cells[9 + k]? = some v ∧ v.dimension = 0 ∧ v.pointId = some (9 + k) ∧
        net.points[9 + k]? = none := by
  refine ⟨_, (C116_planes _).1 (by simp), rfl, fun k hk => ?_⟩
  refine ⟨_, (C116_points_violated [a, b, c, d] [p, q, r, s] [] (k := k) (by simpa using hk)).1, rfl, rfl, ?_⟩
  rw [List.getElem?_eq_none]
  simp; omega

/-- C116, one fracture with one line: the line becomes an edge, which is part of both surfaces. -/
theorem C116_single (eps : ℝ) (argsort : List ℝ → List Nat) {surfaces : List Nat} {net : Planes} {i j s t : Nat}
    {f : List (Pt ℝ)} {row : List (Option Line)} {l : Line} (hl : linesOf row = [l]) (hf : 4 ≤ f.length)
    (hs : surfaces[i]? = some s) (ht : surfaces[j]? = some t) (hlen : surfaces.length = row.length)
    (hnd : surfaces.Nodup) (hlt : ∀ t ∈ surfaces, t < net.cells.length) (hi : row[i]? = some none)
    (hj : row[j]? = some (some l)) :
    ∃ net', stepPlane eps argsort surfaces net i f row = .ok net' ∧ net'.points = net.points ++ [l.1, l.2] ∧
      net'.cells.length = net.cells.length + 3 ∧
      net'.cells[net.cells.length]? =
        some ⟨0, net.cells.length, some 1, some net.points.length, [], [], []⟩ ∧
      net'.cells[net.cells.length + 1]? =
        some ⟨0, net.cells.length + 1, some 1, some (net.points.length + 1), [], [], []⟩ ∧
      net'.cells[net.cells.length + 2]? =
        some ⟨1, net.cells.length + 2, some 1, none, [net.cells.length, net.cells.length + 1], [], []⟩ ∧
      net'.cells[s]? = net.cells[s]?.map (withParts · [net.cells.length + 2]) ∧
      net'.cells[t]? = net.cells[t]?.map (withParts · [net.cells.length + 2]) ∧
      ∀ k, k < net.cells.length → k ≠ s → k ≠ t → net'.cells[k]? = net.cells[k]? := by
  have e := single_run eps argsort (axesOf f) 1 l
  have hed := single_edges 1 l
  obtain ⟨net', e1, h1, h2, h3, h4, h5, h6⟩ := step_ok (sub := Fracture.disjointNet 1 [l])
    (by rw [hl]; simp) hf hs hlen hnd hlt hi (by rw [hl]; exact e) (by rw [hl]; exact hed)
  have hr : rankOf row j = 0 := by
    have := rank_lt hj
    rw [hl] at this
    simpa using this
  have huniq : ∀ (j' : Nat) (l' : Line), row[j']? = some (some l') → j' = j := by
    intro j' l' hj'
    have hr' : rankOf row j' = 0 := by
      have := rank_lt hj'
      rw [hl] at this
      simpa using this
    have e1 := partners_get hj ht
    obtain ⟨t', ht'⟩ : ∃ t', surfaces[j']? = some t' :=
      ⟨_, List.getElem?_eq_getElem (hlen ▸ (List.getElem?_eq_some_iff.1 hj').1)⟩
    have e2 := partners_get hj' ht'
    rw [hr] at e1
    rw [hr', e1] at e2
    cases e2
    exact (List.getElem?_inj (List.getElem?_eq_some_iff.1 ht').1 hnd).1 (ht'.trans ht.symm)
  refine ⟨net', e1, h1, h2, ?_, ?_, ?_, ?_, ?_, ?_⟩
  · rw [← Nat.add_zero net.cells.length, h3 0 (Fracture.vertexCell 0 0 1) rfl]
    simp [toGeo, Fracture.vertexCell]
  · rw [h3 1 (Fracture.vertexCell 1 1 1) rfl]
    simp [toGeo, Fracture.vertexCell, Nat.add_comm]
  · rw [h3 2 (Fracture.edgeCell 2 1 [0, 1]) rfl]
    simp [toGeo, Fracture.edgeCell, Nat.add_comm]
  · rw [h4, hl]
    simp
  · rw [h5 j l t hj ht, hr]
  · intro k hk hks hkt
    refine h6 k hk hks fun j' l' hj' e => ?_
    rw [huniq j' l' hj', ht] at e
    cases e
    exact hkt rfl

/-- C116, one fracture with several lines in general position, each of which meets another one: the network of the
lines is taken over, and the `k`-th line is part of the surface of the fracture and of that of the `k`-th partner. -/
theorem C116_lines {eps : ℝ} (he : 0 < eps) {argsort : List ℝ → List Nat} (hsort : Fracture.IsArgsort argsort)
    {surfaces : List Nat} {net : Planes} {i s : Nat} {f : List (Pt ℝ)} {row : List (Option Line)}
    (h2 : 2 ≤ (linesOf row).length) (hfr : Fracture.FracOK eps (axesOf f) (linesOf row))
    (hall : AllMeet (linesOf row)) (hf : 4 ≤ f.length) (hs : surfaces[i]? = some s)
    (hlen : surfaces.length = row.length) (hnd : surfaces.Nodup) (hlt : ∀ t ∈ surfaces, t < net.cells.length)
    (hi : row[i]? = some none) :
    ∃ sub net', Fracture.intersectFractures eps argsort (axesOf f) 1
        ((linesOf row).map fun l => [l.1, l.2]) = .ok sub ∧
      stepPlane eps argsort surfaces net i f row = .ok net' ∧ net'.points = net.points ++ sub.points ∧
      net'.cells.length = net.cells.length + sub.cells.length ∧
      (∀ k c, sub.cells[k]? = some c →
        net'.cells[net.cells.length + k]? = some ⟨c.dimension, c.id + net.cells.length, some c.physical,
          c.pointId.map (· + net.points.length), c.boundary.map (· + net.cells.length), [],
          c.immersed.map (· + net.cells.length)⟩) ∧
      net'.cells[s]? = net.cells[s]?.map (withParts · ((List.range (linesOf row).length).map
        (net.cells.length + 3 * · + 2))) ∧
      (∀ (j : Nat) (l : Line) (t : Nat), row[j]? = some (some l) → surfaces[j]? = some t →
        net'.cells[t]? = net.cells[t]?.map (withParts · [net.cells.length + 3 * rankOf row j + 2])) ∧
      (∀ k, k < net.cells.length → k ≠ s →
        (∀ (j : Nat) (l : Line), row[j]? = some (some l) → surfaces[j]? ≠ some k) →
        net'.cells[k]? = net.cells[k]?) := by
  classical
  obtain ⟨sub, e, hed⟩ := many_edges he hsort 1 h2 hfr
  rw [List.filter_eq_self.2 (fun i hi => by simpa using hall i (List.mem_range.1 hi))] at hed
  obtain ⟨net', h⟩ := step_ok (by rintro h0; simp [h0] at h2) hf hs hlen hnd hlt hi e hed
  exact ⟨sub, net', e, h⟩

/-- C116 fails for a fracture with two or more lines, one of which meets no other one: the run stops with an IndexError. -/
theorem C116_separate_violated {eps : ℝ} (he : 0 < eps) {argsort : List ℝ → List Nat}
    (hsort : Fracture.IsArgsort argsort)
    {surfaces : List Nat} {net : Planes} {i s : Nat} {f : List (Pt ℝ)} {row : List (Option Line)}
    (h2 : 2 ≤ (linesOf row).length) (hfr : Fracture.FracOK eps (axesOf f) (linesOf row))
    (hall : ¬ AllMeet (linesOf row)) (hf : 4 ≤ f.length) (hs : surfaces[i]? = some s)
    (hlen : surfaces.length = row.length) (hlt : ∀ t ∈ surfaces, t < net.cells.length) :
    stepPlane eps argsort surfaces net i f row = .error .indexError := by
  classical
  obtain ⟨sub, e, hed⟩ := many_edges he hsort 1 h2 hfr
  refine step_missing (by rintro h0; simp [h0] at h2) hf hs hlen hlt e ?_
  rw [hed, List.length_map]
  refine lt_of_le_of_ne ((List.length_filter_le _ _).trans_eq (by simp)) fun h => hall ?_
  have := List.length_filter_eq_length_iff.1 (h.trans (List.length_range).symm)
  intro k hk
  simpa using this k (List.mem_range.2 hk)

/-- C116, fractures with less than four points, triangles for one, that meet a later one are an IndexError. -/
theorem C116_triangle_violated (eps : ℝ) (argsort : List ℝ → List Nat) (surfaces : List Nat) (net : Planes) (i : Nat)
    {f : List (Pt ℝ)} {row : List (Option Line)} (h : linesOf row ≠ []) (hf : f.length < 4) :
    stepPlane eps argsort surfaces net i f row = .error .indexError :=
  step_short h hf

/-- C116 fails for two lines on a fracture that do not meet, for instance parallel ones: the run stops with an IndexError. -/
theorem C116_parallel_violated (eps : ℝ) (argsort : List ℝ → List Nat) {surfaces : List Nat} {net : Planes} {i s : Nat}
    {f : List (Pt ℝ)} {row : List (Option Line)} {a b : Line} (hl : linesOf row = [a, b]) (hf : 4 ≤ f.length)
    (hab : lineLineTest (1 / 10 ^ 12) (axesOf f) a.1 a.2 b.1 b.2 = none) (hs : surfaces[i]? = some s)
    (hlen : surfaces.length = row.length) (hlt : ∀ t ∈ surfaces, t < net.cells.length) :
    stepPlane eps argsort surfaces net i f row = .error .indexError := by
  refine step_missing (sub := Fracture.disjointNet 1 [a, b]) (by rw [hl]; simp) hf hs hlen hlt ?_ ?_
  · rw [hl]
    exact pair_run eps argsort 1 hab
  · rw [hl]
    simp [lineEdges, Fracture.disjointNet, Fracture.edgeCell, Fracture.vertexCell, List.range, List.range.loop]

/-- Two lines on a square that are parallel to its sides. -/
example : lineLineTest (1 / 10 ^ 12) (axesOf [![0, 0, 0], ![3, 0, 0], ![3, 3, 0], ![0, 3, 0]]) ![0, 1, 0] ![3, 1, 0]
    ![0, 2, 0] ![3, 2, 0] = none := by
  have hax : axesOf [![0, 0, 0], ![3, 0, 0], ![3, 3, 0], ![0, 3, 0]] = (0, 1) := by
    simp [axesOf, keptAxes, cross]
    norm_num
  rw [hax]
  unfold lineLineTest
  dsimp only
  rw [if_pos (by simp [det2, proj]), if_pos (by simp [colinearTest, det2, proj]; norm_num)]

/-- C116, all fractures: for a table whose rows are in general position the run succeeds when every fracture that
meets a later one has four points and lines that all meet others, unless there is only one, and it is an IndexError otherwise. -/
theorem C116_run_partial {eps : ℝ} (he : 0 < eps) {argsort : List ℝ → List Nat} (hsort : Fracture.IsArgsort argsort)
    {meet : List (Pt ℝ) → List (Pt ℝ) → Res (Option Line)} {fs : List (List (Pt ℝ))}
    {table : List (List (Option Line))} (hne : ∀ f ∈ fs, f ≠ []) (ht : meetTable meet fs = .ok table)
    (hfr : ∀ (i : Nat) f row, fs[i]? = some f → table[i]? = some row → 2 ≤ (linesOf row).length →
      Fracture.FracOK eps (axesOf f) (linesOf row)) :
    ((∀ (i : Nat) f row, fs[i]? = some f → table[i]? = some row → RowOK f row) →
      ∃ net, intersectPlanes eps argsort meet fs = .ok net) ∧
    ((∃ (i : Nat) (f : List (Pt ℝ)) (row : List (Option Line)), fs[i]? = some f ∧ table[i]? = some row ∧
      ¬ RowOK f row) → intersectPlanes eps argsort meet fs = .error .indexError) := by
  have hT := table_spec ht
  have h0 : intersectPlanes eps argsort meet fs =
      stepPlanes eps argsort (surfaceIds 0 fs) ⟨fs.flatten, blocks 0 fs⟩ 0 fs table := by
    unfold intersectPlanes
    rw [(C116_planes fs).1 hne, Res.bind_ok, ht, Res.bind_ok]
    dsimp only
    rw [surfacesOf_blocks]
  rw [h0]
  have hready : RowsReady eps (surfaceIds 0 fs) 0 fs table := by
    refine ⟨hT.1.symm, fun k f row hk hr => ⟨?_, ?_, ?_, hfr k f row hk hr⟩⟩
    · rw [surfaceIds_length, (hT.2 k row hr).1]
    · rw [Nat.zero_add]; exact (hT.2 k row hr).2.1
    · rw [Nat.zero_add, surfaceIds_length]
      exact (List.getElem?_eq_some_iff.1 hk).1
  have hlt : ∀ t ∈ surfaceIds 0 fs, t < (blocks 0 fs).length := fun t h => by
    simpa using surfaceIds_lt fs 0 t h
  refine ⟨fun h => ?_, fun h => ?_⟩
  · obtain ⟨net, e, -⟩ := steps_ok he hsort (net := ⟨fs.flatten, blocks 0 fs⟩) (surfaceIds_nodup fs 0) hready hlt h
    exact ⟨net, e⟩
  · exact steps_error he hsort (surfaceIds_nodup fs 0) hready hlt h

/-- C116: fractures that do not meet: the separate polygons. -/
theorem C116_apart (eps : ℝ) (argsort : List ℝ → List Nat) {meet : List (Pt ℝ) → List (Pt ℝ) → Res (Option Line)}
    {fs : List (List (Pt ℝ))} (hne : ∀ f ∈ fs, f ≠ []) (hm : ∀ f ∈ fs, ∀ g ∈ fs, meet f g = .ok none) :
    intersectPlanes eps argsort meet fs = .ok ⟨fs.flatten, blocks 0 fs⟩ := by
  obtain ⟨table, ht, hnone⟩ := table_none hm
  unfold intersectPlanes
  rw [(C116_planes fs).1 hne, Res.bind_ok, ht, Res.bind_ok]
  exact steps_none hnone

example : intersectPlanes (1 / 10 ^ 12) (fun _ => []) (fun _ _ => .ok none) [[![0, 0, 0]], [![1, 0, 0]]] =
    .ok ⟨[![0, 0, 0], ![1, 0, 0]], blocks 0 [[![0, 0, 0]], [![1, 0, 0]]]⟩ :=
  C116_apart _ _ (by simp) (by simp)

/-- C116, two fractures that meet. -/
theorem C116_two (eps : ℝ) (argsort : List ℝ → List Nat) {meet : List (Pt ℝ) → List (Pt ℝ) → Res (Option Line)}
    {f g : List (Pt ℝ)} {l : Line} (hf : 4 ≤ f.length) (hg : g ≠ []) (hm : meet f g = .ok (some l)) :
    ∃ net, intersectPlanes eps argsort meet [f, g] = .ok net ∧ net.points = f ++ g ++ [l.1, l.2] ∧
      let n := 2 * f.length + 2 * g.length + 2
      net.cells.length = n + 3 ∧
      net.cells[n + 2]? = some ⟨1, n + 2, some 1, none, [n, n + 1], [], []⟩ ∧
      net.cells[2 * f.length]? = (blocks 0 [f, g])[2 * f.length]?.map (withParts · [n + 2]) ∧
      net.cells[2 * f.length + 2 * g.length + 1]? =
        (blocks 0 [f, g])[2 * f.length + 2 * g.length + 1]?.map (withParts · [n + 2]) ∧
      ∀ k, k < n → k ≠ 2 * f.length → k ≠ 2 * f.length + 2 * g.length + 1 →
        net.cells[k]? = (blocks 0 [f, g])[k]? := by
  have ht : meetTable meet [f, g] = .ok [[none, some l], [none, none]] := by
    simp [meetTable, mapRes, hm, List.zipIdx]
  have hf0 : f ≠ [] := by rintro rfl; simp at hf
  have hn : (blocks 0 [f, g]).length = 2 * f.length + 2 * g.length + 2 := by
    simp [blocks, block_length]; omega
  have hsurf : surfaceIds 0 [f, g] = [2 * f.length, 2 * f.length + 2 * g.length + 1] := by
    simp [surfaceIds]; omega
  obtain ⟨net, e, h1, h2, -, -, h5, h6, h7, h8⟩ := C116_single eps argsort (surfaces := surfaceIds 0 [f, g])
    (net := ⟨[f, g].flatten, blocks 0 [f, g]⟩) (i := 0) (j := 1) (s := 2 * f.length)
    (t := 2 * f.length + 2 * g.length + 1) (f := f) (row := [none, some l]) (l := l) rfl hf (by rw [hsurf]; rfl)
    (by rw [hsurf]; rfl) (by rw [hsurf]; rfl) (surfaceIds_nodup _ _)
    (fun t h => by simpa using surfaceIds_lt _ 0 t h) rfl rfl
  dsimp only at h2 h5 h6 h7 h8
  rw [hn] at h2 h5 h6 h7 h8
  refine ⟨net, ?_, by simpa using h1, h2, h5, h6, h7, h8⟩
  unfold intersectPlanes
  rw [(C116_planes _).1 (by simp [hf0, hg]), Res.bind_ok, ht, Res.bind_ok]
  dsimp only
  rw [surfacesOf_blocks, stepPlanes, e, Res.bind_ok, stepPlanes, step_none rfl, Res.bind_ok, stepPlanes]

/-- C116, three fractures that meet in pairs: the line of the second and the third fracture is one edge
without parts, whether it meets the other lines or not. -/
theorem C116_triple {eps : ℝ} (he : 0 < eps) {argsort : List ℝ → List Nat} (hsort : Fracture.IsArgsort argsort)
    {meet : List (Pt ℝ) → List (Pt ℝ) → Res (Option Line)} {f g h : List (Pt ℝ)} {a b c : Line}
    (hf : 4 ≤ f.length) (hg : 4 ≤ g.length) (hh : h ≠ []) (hfg : meet f g = .ok (some a))
    (hfh : meet f h = .ok (some b)) (hgh : meet g h = .ok (some c))
    (hfr : Fracture.FracOK eps (axesOf f) [a, b]) (hall : AllMeet [a, b]) :
    ∃ net n, intersectPlanes eps argsort meet [f, g, h] = .ok net ∧ net.cells.length = n + 3 ∧
      net.points.drop (net.points.length - 2) = [c.1, c.2] ∧
      net.cells[n + 2]? = some ⟨1, n + 2, some 1, none, [n, n + 1], [], []⟩ ∧
      (∃ s, net.cells[2 * f.length + 2 * g.length + 1]? = some s ∧ s.dimension = 2 ∧ n + 2 ∈ s.immersed) := by
  have ht : meetTable meet [f, g, h] =
      .ok [[none, some a, some b], [none, none, some c], [none, none, none]] := by
    simp [meetTable, mapRes, hfg, hfh, hgh, List.zipIdx]
  have hf0 : f ≠ [] := by rintro rfl; simp at hf
  have hg0 : g ≠ [] := by rintro rfl; simp at hg
  have hsurf : surfaceIds 0 [f, g, h] = [2 * f.length, 2 * f.length + 2 * g.length + 1,
      2 * f.length + 2 * g.length + 2 * h.length + 2] := by
    simp [surfaceIds]; omega
  have hlt : ∀ t ∈ surfaceIds 0 [f, g, h], t < (blocks 0 [f, g, h]).length :=
    fun t h => by simpa using surfaceIds_lt _ 0 t h
  obtain ⟨sub, net1, -, e1, -, l1, -, -, p1, -⟩ := C116_lines he hsort (surfaces := surfaceIds 0 [f, g, h])
    (net := ⟨[f, g, h].flatten, blocks 0 [f, g, h]⟩) (i := 0) (s := 2 * f.length) (f := f)
    (row := [none, some a, some b]) (by simp [linesOf]) hfr hall hf (by rw [hsurf]; rfl)
    (by rw [hsurf]; rfl) (surfaceIds_nodup _ _) hlt rfl
  have hlt1 : ∀ t ∈ surfaceIds 0 [f, g, h], t < net1.cells.length := fun t h => by
    have := hlt t h
    dsimp only at l1
    omega
  obtain ⟨net, e2, h1, h2, -, -, h5, h6, -, -⟩ := C116_single eps argsort (surfaces := surfaceIds 0 [f, g, h])
    (net := net1) (i := 1) (j := 2) (s := 2 * f.length + 2 * g.length + 1)
    (t := 2 * f.length + 2 * g.length + 2 * h.length + 2) (f := g) (row := [none, none, some c]) (l := c) rfl hg
    (by rw [hsurf]; rfl) (by rw [hsurf]; rfl) (by rw [hsurf]; rfl) (surfaceIds_nodup _ _) hlt1 rfl rfl
  refine ⟨net, net1.cells.length, ?_, h2, ?_, h5, ?_⟩
  · unfold intersectPlanes
    rw [(C116_planes _).1 (by simp [hf0, hg0, hh]), Res.bind_ok, ht, Res.bind_ok]
    dsimp only
    rw [surfacesOf_blocks, stepPlanes, e1, Res.bind_ok, stepPlanes, e2, Res.bind_ok, stepPlanes, step_none rfl,
      Res.bind_ok, stepPlanes]
  · rw [h1]; simp
  · have hp := p1 1 a (2 * f.length + 2 * g.length + 1) rfl (by rw [hsurf]; rfl)
    dsimp only at hp
    have hb : (blocks 0 [f, g, h])[2 * f.length + 2 * g.length + 1]? =
        some ⟨2, 2 * f.length + 2 * g.length + 1, none, none,
          (List.range g.length).map (2 * f.length + 1 + g.length + ·), [], []⟩ := by
      rw [blocks, List.getElem?_append_right (by rw [block_length]; omega), block_length, blocks,
        List.getElem?_append_left (by rw [block_length]; omega), block, List.getElem?_append_right (by simp; omega)]
      simp only [List.length_append, List.length_map, List.length_range]
      rw [show 2 * f.length + 2 * g.length + 1 - (f.length + f.length + 1) - (g.length + g.length) = 0 by omega]
      simp
      refine ⟨by omega, fun x _ => by omega⟩
    rw [hb] at hp
    rw [hp] at h6
    exact ⟨_, h6, rfl, by simp [withParts]⟩

/-- The three squares: horizontal, and vertical over the diagonals. -/
def squareF : List (Pt ℝ) := [![0, 0, 0], ![2, 0, 0], ![2, 2, 0], ![0, 2, 0]]
def squareG : List (Pt ℝ) := [![0, 0, -1], ![2, 2, -1], ![2, 2, 1], ![0, 0, 1]]
def squareH : List (Pt ℝ) := [![0, 2, -1], ![2, 0, -1], ![2, 0, 1], ![0, 2, 1]]
def lineA : Line := (![0, 0, 0], ![2, 2, 0])
def lineB : Line := (![0, 2, 0], ![2, 0, 0])
def lineC : Line := (![1, 1, -1], ![1, 1, 1])

/-- C116 fails: the three lines of these squares have a common point inside, but the third one is not split there. -/
theorem C116_triple_violated {argsort : List ℝ → List Nat} (hsort : Fracture.IsArgsort argsort)
    {meet : List (Pt ℝ) → List (Pt ℝ) → Res (Option Line)} (h1 : meet squareF squareG = .ok (some lineA))
    (h2 : meet squareF squareH = .ok (some lineB)) (h3 : meet squareG squareH = .ok (some lineC)) :
    (![1, 1, 0] ∈ openSegment ℝ lineA.1 lineA.2 ∧ ![1, 1, 0] ∈ openSegment ℝ lineB.1 lineB.2 ∧
      ![1, 1, 0] ∈ openSegment ℝ lineC.1 lineC.2) ∧
    ∃ net n, intersectPlanes (1 / 10 ^ 12) argsort meet [squareF, squareG, squareH] = .ok net ∧
      net.cells.length = n + 3 ∧ net.points.drop (net.points.length - 2) = [lineC.1, lineC.2] ∧
      net.cells[n + 2]? = some ⟨1, n + 2, some 1, none, [n, n + 1], [], []⟩ := by
  have mid : ∀ l : Line, (1 / 2 : ℝ) • l.1 + (1 / 2 : ℝ) • l.2 ∈ openSegment ℝ l.1 l.2 := fun l =>
    ⟨1 / 2, 1 / 2, by norm_num, by norm_num, by norm_num, rfl⟩
  have ha : ![1, 1, 0] ∈ openSegment ℝ lineA.1 lineA.2 := by
    convert mid lineA using 1
    refine pt_ext ?_ ?_ ?_ <;> simp [lineA]
  have hb : ![1, 1, 0] ∈ openSegment ℝ lineB.1 lineB.2 := by
    convert mid lineB using 1
    refine pt_ext ?_ ?_ ?_ <;> simp [lineB]
  have hc : ![1, 1, 0] ∈ openSegment ℝ lineC.1 lineC.2 := by
    convert mid lineC using 1
    refine pt_ext ?_ ?_ ?_ <;> simp [lineC] <;> norm_num
  refine ⟨⟨ha, hb, hc⟩, ?_⟩
  have hax : axesOf squareF = (0, 1) := by
    simp [axesOf, squareF, keptAxes, cross]
    norm_num
  obtain ⟨net, n, e, g1, g2, g3, -⟩ := C116_triple (f := squareF) (g := squareG) (h := squareH) (a := lineA)
    (b := lineB) (c := lineC) (eps := 1 / 10 ^ 12) (by norm_num) hsort (by simp [squareF]) (by simp [squareG])
    (by simp [squareH]) h1 h2 h3
    (by rw [hax]; exact fracOK_mono (by norm_num) Fracture.diagonals_ok) (by
      intro k hk
      have : k = 0 ∨ k = 1 := by simp at hk; omega
      refine ⟨![1, 1, 0], ?_⟩
      rcases this with rfl | rfl
      · exact ⟨lineA, rfl, openSegment_subset_segment _ _ _ ha, 1, lineB, by simp, rfl,
          openSegment_subset_segment _ _ _ hb⟩
      · exact ⟨lineB, rfl, openSegment_subset_segment _ _ _ hb, 0, lineA, by simp, rfl,
          openSegment_subset_segment _ _ _ ha⟩)
  exact ⟨net, n, e, g1, g2, g3⟩

open Classical in
/-- The hypotheses on `meet` can be satisfied. -/
example : ∃ meet : List (Pt ℝ) → List (Pt ℝ) → Res (Option Line), meet squareF squareG = .ok (some lineA) ∧
    meet squareF squareH = .ok (some lineB) ∧ meet squareG squareH = .ok (some lineC) := by
  have h1 : squareH ≠ squareG := by
    intro h
    have := congrFun (List.cons.inj h).1 1
    simp at this
  have h2 : squareG ≠ squareF := by
    intro h
    have := congrFun (List.cons.inj h).1 2
    simp at this
  refine ⟨fun f g => if g = squareG then .ok (some lineA) else if f = squareF then .ok (some lineB)
    else .ok (some lineC), ?_, ?_, ?_⟩ <;> simp [h1, h2]

#print axioms C116_planes
#print axioms C116_first
#print axioms C116_points_violated
#print axioms C116_quads_violated
#print axioms C116_single
#print axioms C116_lines
#print axioms C116_separate_violated
#print axioms C116_triangle_violated
#print axioms C116_parallel_violated
#print axioms C116_run_partial
#print axioms C116_apart
#print axioms C116_two
#print axioms C116_triple
#print axioms C116_triple_violated

end Verif.PlaneNet
