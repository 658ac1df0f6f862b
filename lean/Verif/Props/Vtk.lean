/-
Property theorems C83: the data in vtk files (src/postprocess/solution_post_processor.py), in exact
arithmetic.
-/
import Verif.Lemmas.Vtk
import Mathlib.Tactic.NormNum
import Mathlib.Tactic.Linarith

namespace Verif.Vtk
open Assembly MeshBuild MeshGraph Trace L2Error

variable {g : VMesh} {fe : VFe} {alpha : List ℝ} {names : List String}

/-- C83: the value in the node of a vertex is the mean, over the cells around the vertex on which the
field lives, of the values of the discrete function on these cells; without such cells it is `nan`. -/
theorem C83_average {q : String × VSpace} (h : NodalReady g fe alpha.length q) {v : Nat}
    (hv : v ∈ q.2.vertices) :
    ∃ m, nodeAverage g fe q.1 alpha (nodeOf g v)
        ((q.2.graph.edges.filter fun e => e.2 = (0, v)).map Prod.fst) = .ok m ∧
      (match m with
        | none => support g fe q.1 q.2 v = []
        | some m => support g fe q.1 q.2 v ≠ [] ∧ m.rows = q.2.nComp ∧
          m.cols = directions g.dimension q.2 ∧
          ∀ i < m.rows, ∀ j < m.cols, m.val i j =
            average fe q.1 q.2 alpha (nodeOf g v) (support g fe q.1 q.2 v) i j) := by
  obtain ⟨m, h1, -, h2⟩ := average_row h hv
  exact ⟨m, h1, h2⟩

/-- C83: where the discrete function is continuous the mean is its value. -/
theorem C83_continuous {name : String} {s : VSpace} {node : Nat} {cells : List Cell} {i j : Nat} {x : ℝ}
    (hne : cells ≠ [])
    (h : ∀ c ∈ cells, oneSided fe name s alpha c (some (c.nodeTags.idxOf node)) i j = x) :
    average fe name s alpha node cells i j = x := by
  unfold average
  rw [List.map_congr_left h, List.map_const', List.sum_replicate, nsmul_eq_mul]
  have : (cells.length : ℝ) ≠ 0 := by
    rw [Nat.cast_ne_zero]
    exact fun h0 => hne (List.length_eq_zero_iff.1 h0)
  field_simp

/-- C83: the mean lies between the one sided values. -/
theorem C83_between {name : String} {s : VSpace} {node : Nat} {cells : List Cell} {i j : Nat} {x y : ℝ}
    (hne : cells ≠ [])
    (h : ∀ c ∈ cells, x ≤ oneSided fe name s alpha c (some (c.nodeTags.idxOf node)) i j ∧
      oneSided fe name s alpha c (some (c.nodeTags.idxOf node)) i j ≤ y) :
    x ≤ average fe name s alpha node cells i j ∧ average fe name s alpha node cells i j ≤ y := by
  unfold average
  have hp : (0 : ℝ) < cells.length := by
    rw [Nat.cast_pos]
    exact List.length_pos_of_ne_nil hne
  rw [le_div_iff₀ hp, div_le_iff₀ hp]
  have key : ∀ l : List Cell, (∀ c ∈ l, x ≤ oneSided fe name s alpha c (some (c.nodeTags.idxOf node)) i j ∧
      oneSided fe name s alpha c (some (c.nodeTags.idxOf node)) i j ≤ y) →
      x * l.length ≤ (l.map fun c => oneSided fe name s alpha c (some (c.nodeTags.idxOf node)) i j).sum ∧
      (l.map fun c => oneSided fe name s alpha c (some (c.nodeTags.idxOf node)) i j).sum ≤ y * l.length := by
    intro l hl
    induction l with
    | nil => simp
    | cons c l ih =>
      have h1 := hl c (by simp)
      have h2 := ih fun c hc => hl c (by simp [hc])
      simp only [List.map_cons, List.sum_cons, List.length_cons, Nat.cast_add, Nat.cast_one]
      constructor <;> linarith [h1.1, h1.2, h2.1, h2.2]
  exact key cells h

/-- C83: the entries `name_h` of the file: for the fields that are not cell centred the means in the
nodes, zero in nodes of no vertex; for the others the values in the centres of the cells of the mesh
dimension, which are the cells of the file. -/
theorem C83_write_partial (hm : MeshReady g) (hn : (fe.spaces.map Prod.fst).Nodup)
    (hp : ∀ q ∈ fe.spaces, q.1 ∉ names → NodalReady g fe alpha.length q)
    (hc : ∀ q ∈ fe.spaces, q.1 ∈ names → CentredReady g fe alpha.length q) :
    writeVtk g fe alpha names = .ok
      { points := fe.spaces.flatMap fun q => if q.1 ∉ names then
          [(q.1 ++ "_h", nodal g q.2 (averageRow g fe alpha q) (zeroRow g.dimension q.2))] else []
        cellData := fe.spaces.flatMap fun q => if q.1 ∈ names then
          [(q.1 ++ "_h", (topCells g).map (centreRow g fe alpha q))] else []
        cells := (topCells g).map Cell.nodeTags } := by
  have hsel := selectCells_topCells hm.filled
  have hcon := connectivity_ok hm.simplex
  have e := fold_entries (spaces := fe.spaces) (acc := (([], []) : Entries))
    (P := fun q => if decide (q.1 ∉ names) then
          [(q.1 ++ "_h", nodal g q.2 (averageRow g fe alpha q) (zeroRow g.dimension q.2))] else [])
    (C := fun q => if decide (q.1 ∈ names) then
          [(q.1 ++ "_h", (topCells g).map (centreRow g fe alpha q))] else [])
    (step := fun (acc : Entries) (q : String × VSpace) => do
      let n := nData g.dimension q.2
      if q.1 ∈ names then do
        let cells ← selectCells (fun c => c.dimension == g.dimension) g.cells
        let d ← overCells cells n (fun c => do
          let v ← cellCentered g fe q.1 alpha c
          pure (some (v.ravel.map some))) (some 0)
        pure (acc.1, acc.2.set (q.1 ++ "_h") d)
      else do
        let d ← overVertices g q.2 n (fun node cells => do
          let v ← nodeAverage g fe q.1 alpha node cells
          pure (some (ravelMean v))) (some 0)
        pure (acc.1.set (q.1 ++ "_h") d, acc.2))
    (fun q hq acc => by
      dsimp only
      by_cases hw : q.1 ∈ names
      · rw [if_pos hw, hsel, Res.bind_ok, overCells_spec (r := centreRow g fe alpha q)]
        · simp [hw, setAll, pure, Except.pure]
        · intro c hcm
          obtain ⟨m, m1, m2, -⟩ := centre_row (hc q hq hw).space (hc q hq hw).shape ((hc q hq hw).cells c hcm)
          refine ⟨some (centreRow g fe alpha q c), ?_, assignRow_same (fieldRow_length _ _ _)⟩
          rw [m1, Res.bind_ok, m2]
          rfl
      · rw [if_neg hw, overVertices_spec (r := averageRow g fe alpha q) (hp q hq hw).vertices]
        · simp [hw, setAll, pure, Except.pure, zeroRow]
        · intro v hv
          obtain ⟨m, m1, m2, -⟩ := average_row (hp q hq hw) hv
          refine ⟨some (ravelMean m), ?_, m2⟩
          rw [m1]
          rfl)
    (nodup_single hn _ _ _) (nodup_single hn _ _ _)
  unfold writeVtk
  rw [e, Res.bind_ok, hsel, Res.bind_ok, hcon, Res.bind_ok, cellType, if_pos hm.dim, Res.bind_ok]
  simp only [List.nil_append, decide_eq_true_eq]
  refine meshio_ok ?_ ?_
  · intro d hd
    simp only [List.mem_flatMap] at hd
    obtain ⟨q, -, hd⟩ := hd
    split at hd
    · rw [List.mem_singleton] at hd
      subst hd
      exact nodal_length _ _ _ _
    · simp at hd
  · intro d hd
    simp only [List.mem_flatMap] at hd
    obtain ⟨q, -, hd⟩ := hd
    split at hd
    · rw [List.mem_singleton] at hd
      subst hd
      simp
    · simp at hd

/-- The entries with the exact solution. -/
theorem withExact_spec {functions : Dict String Exact} (hm : MeshReady g) {q : String × VSpace}
    (hp : q.1 ∉ names → NodalReady g fe alpha.length q)
    (hc : q.1 ∈ names → CentredReady g fe alpha.length q)
    (hf : ∃ f, ExactReady g functions q f) (acc : Entries) :
    withExact g fe functions alpha names acc q = .ok
      (setAll acc.1 (if decide (q.1 ∉ names) then
          [(q.1 ++ "_h", nodal g q.2 (averageRow g fe alpha q) (zeroRow g.dimension q.2)),
           (q.1 ++ "_e", nodal g q.2 (exactNode g functions q) (zeroRow g.dimension q.2))] else []),
       setAll acc.2 (if decide (q.1 ∈ names) then
          [(q.1 ++ "_h", (topCells g).map (centreRow g fe alpha q)),
           (q.1 ++ "_e", (topCells g).map (exactCentre functions q))] else [])) := by
  have hsel := selectCells_topCells hm.filled
  obtain ⟨f, hf⟩ := hf
  have hex : exactOf functions q = f := by simp [exactOf, hf.get]
  unfold withExact
  simp only [Dict.getItem, hf.get, Res.bind_ok]
  by_cases hw : q.1 ∈ names
  · rw [if_pos hw, hsel, Res.bind_ok, overCells_spec (r := centreRow g fe alpha q), Res.bind_ok,
      overCells_spec (r := exactCentre functions q)]
    · simp [hw, setAll, pure, Except.pure]
    · intro c hcm
      refine ⟨some (((f.centroid c).ravel).map some), rfl, ?_⟩
      rw [exactCentre, hex]
      exact assignRow_same (by rw [List.length_map]; exact hf.centroid c hcm)
    · intro c hcm
      obtain ⟨m, m1, m2, -⟩ := centre_row (hc hw).space (hc hw).shape ((hc hw).cells c hcm)
      refine ⟨some (centreRow g fe alpha q c), ?_, assignRow_same (fieldRow_length _ _ _)⟩
      rw [m1, Res.bind_ok, m2]
      rfl
  · rw [if_neg hw, overVertices_spec (r := averageRow g fe alpha q) (hp hw).vertices, Res.bind_ok,
      overVertices_spec (r := exactNode g functions q) (hp hw).vertices]
    · simp [hw, setAll, pure, Except.pure, zeroRow]
    · intro v hv
      refine ⟨some (((f.node (nodeOf g v)).ravel).map some), rfl, ?_⟩
      rw [exactNode, hex]
      exact assignRow_same (by rw [List.length_map]; exact hf.node v hv)
    · intro v hv
      obtain ⟨m, m1, m2, -⟩ := average_row (hp hw) hv
      refine ⟨some (ravelMean m), ?_, m2⟩
      rw [m1]
      rfl

theorem selectCells_lastCells {q : String × VSpace} {tags : List (Option Int)}
    (hl : fe.spaces.getLast? = some q) (ht : fe.tags.get? q.1 = some tags) (h : none ∉ g.cells) :
    selectCells (fun c => tags.contains c.material) g.cells = .ok (lastCells g fe) := by
  unfold lastCells
  rw [hl]
  simp only [ht, Option.getD_some]
  generalize g.cells = cells at h
  induction cells with
  | nil => rfl
  | cons c cells ih =>
    cases c with
    | none => simp at h
    | some c =>
      unfold selectCells
      rw [ih (by simpa using h)]
      simp only [List.filterMap_cons, id, List.filter_cons, Res.bind_ok, Res.pure_eq]

/-- What is handed to meshio when the exact solution is written as well. -/
theorem writeExact_meshio {functions : Dict String Exact} (hm : MeshReady g)
    (hn : (fe.spaces.map Prod.fst).Nodup) (hg : g.cells ≠ [])
    (hp : ∀ q ∈ fe.spaces, q.1 ∉ names → NodalReady g fe alpha.length q)
    (hc : ∀ q ∈ fe.spaces, q.1 ∈ names → CentredReady g fe alpha.length q)
    (hf : ∀ q ∈ fe.spaces, ∃ f, ExactReady g functions q f)
    {q : String × VSpace} (hl : fe.spaces.getLast? = some q) (ht : (fe.tags.get? q.1).isSome)
    {k : Nat} (hk : ∀ c ∈ lastCells g fe, c.nodeTags.length = k)
    (hd : ∀ q ∈ fe.spaces, q.2.dimension ≤ 3) :
    writeExact g fe functions alpha names = meshio g.nPoints
      { points := fe.spaces.flatMap fun q => if q.1 ∉ names then
          [(q.1 ++ "_h", nodal g q.2 (averageRow g fe alpha q) (zeroRow g.dimension q.2)),
           (q.1 ++ "_e", nodal g q.2 (exactNode g functions q) (zeroRow g.dimension q.2))] else []
        cellData := fe.spaces.flatMap fun q => if q.1 ∈ names then
          [(q.1 ++ "_h", (topCells g).map (centreRow g fe alpha q)),
           (q.1 ++ "_e", (topCells g).map (exactCentre functions q))] else []
        cells := (lastCells g fe).map Cell.nodeTags } := by
  obtain ⟨tags, ht⟩ := Option.isSome_iff_exists.1 ht
  have e := fold_entries (spaces := fe.spaces) (acc := (([], []) : Entries))
    (P := fun q => if decide (q.1 ∉ names) then
          [(q.1 ++ "_h", nodal g q.2 (averageRow g fe alpha q) (zeroRow g.dimension q.2)),
           (q.1 ++ "_e", nodal g q.2 (exactNode g functions q) (zeroRow g.dimension q.2))] else [])
    (C := fun q => if decide (q.1 ∈ names) then
          [(q.1 ++ "_h", (topCells g).map (centreRow g fe alpha q)),
           (q.1 ++ "_e", (topCells g).map (exactCentre functions q))] else [])
    (step := withExact g fe functions alpha names)
    (fun q hq acc => withExact_spec hm (hp q hq) (hc q hq) (hf q hq) acc)
    (nodup_double hn _ _ _) (nodup_double hn _ _ _)
  have hmax : ∃ d, npMax (fe.spaces.map fun q => q.2.dimension) = .ok d ∧ d ≤ 3 := by
    have hbound : ∀ (l : List Nat) (a : Nat), a ≤ 3 → (∀ x ∈ l, x ≤ 3) → l.foldl max a ≤ 3 := by
      intro l
      induction l with
      | nil => intro a ha _; exact ha
      | cons x l ih =>
        intro a ha hx
        exact ih _ (max_le ha (hx x (by simp))) fun y hy => hx y (by simp [hy])
    cases hsp : fe.spaces with
    | nil => rw [hsp] at hl; simp at hl
    | cons p ps =>
      rw [hsp] at hd
      refine ⟨_, rfl, hbound _ _ (hd p (by simp)) ?_⟩
      intro x hx
      obtain ⟨r, hr, rfl⟩ := List.mem_map.1 hx
      exact hd r (by simp [hr])
  obtain ⟨d, hd1, hd2⟩ := hmax
  unfold writeExact
  rw [e, Res.bind_ok, hl]
  simp only [if_neg hg, Dict.getItem, ht, Res.bind_ok, selectCells_lastCells hl ht hm.filled,
    connectivity_ok hk, hd1, cellType, if_pos hd2]
  simp only [List.nil_append, decide_eq_true_eq]

/-- C83: with exact solution the file has `name_h` as before and `name_e` with the exact values in the
nodes of the vertices or in the centroids of the cells.  Proved for files without cell centred fields, or
if the last field has the tags of all cells; see `C83_cells_violated`. -/
theorem C83_write_exact_partial {functions : Dict String Exact} (hm : MeshReady g)
    (hn : (fe.spaces.map Prod.fst).Nodup) (hg : g.cells ≠ [])
    (hp : ∀ q ∈ fe.spaces, q.1 ∉ names → NodalReady g fe alpha.length q)
    (hc : ∀ q ∈ fe.spaces, q.1 ∈ names → CentredReady g fe alpha.length q)
    (hf : ∀ q ∈ fe.spaces, ∃ f, ExactReady g functions q f)
    {q : String × VSpace} (hl : fe.spaces.getLast? = some q) (ht : (fe.tags.get? q.1).isSome)
    {k : Nat} (hk : ∀ c ∈ lastCells g fe, c.nodeTags.length = k)
    (hd : ∀ q ∈ fe.spaces, q.2.dimension ≤ 3)
    (hw : (∀ q ∈ fe.spaces, q.1 ∉ names) ∨ (lastCells g fe).length = (topCells g).length) :
    writeExact g fe functions alpha names = .ok
      { points := fe.spaces.flatMap fun q => if q.1 ∉ names then
          [(q.1 ++ "_h", nodal g q.2 (averageRow g fe alpha q) (zeroRow g.dimension q.2)),
           (q.1 ++ "_e", nodal g q.2 (exactNode g functions q) (zeroRow g.dimension q.2))] else []
        cellData := fe.spaces.flatMap fun q => if q.1 ∈ names then
          [(q.1 ++ "_h", (topCells g).map (centreRow g fe alpha q)),
           (q.1 ++ "_e", (topCells g).map (exactCentre functions q))] else []
        cells := (lastCells g fe).map Cell.nodeTags } := by
  rw [writeExact_meshio hm hn hg hp hc hf hl ht hk hd]
  refine meshio_ok ?_ ?_
  · intro d hd
    simp only [List.mem_flatMap] at hd
    obtain ⟨q, -, hd⟩ := hd
    split at hd
    · simp only [List.mem_cons, List.not_mem_nil, or_false] at hd
      rcases hd with rfl | rfl <;> exact nodal_length _ _ _ _
    · simp at hd
  · intro d hd
    simp only [List.mem_flatMap] at hd
    obtain ⟨q, hq, hd⟩ := hd
    split at hd
    · rename_i hqn
      rcases hw with hw | hw
      · exact absurd hqn (hw q hq)
      · simp only [List.mem_cons, List.not_mem_nil, or_false] at hd
        rcases hd with rfl | rfl <;> simp [hw]
    · simp at hd

/-- C83: the cells of the file with exact solution are those with the tags of the last field, while
there are cell centred data for all cells: if the numbers differ and there is a cell centred field
nothing is written. -/
theorem C83_cells_violated {functions : Dict String Exact} (hm : MeshReady g)
    (hn : (fe.spaces.map Prod.fst).Nodup) (hg : g.cells ≠ [])
    (hp : ∀ q ∈ fe.spaces, q.1 ∉ names → NodalReady g fe alpha.length q)
    (hc : ∀ q ∈ fe.spaces, q.1 ∈ names → CentredReady g fe alpha.length q)
    (hf : ∀ q ∈ fe.spaces, ∃ f, ExactReady g functions q f)
    {q : String × VSpace} (hl : fe.spaces.getLast? = some q) (ht : (fe.tags.get? q.1).isSome)
    {k : Nat} (hk : ∀ c ∈ lastCells g fe, c.nodeTags.length = k)
    (hd : ∀ q ∈ fe.spaces, q.2.dimension ≤ 3)
    {r : String × VSpace} (hr : r ∈ fe.spaces) (hrn : r.1 ∈ names)
    (hw : (lastCells g fe).length ≠ (topCells g).length) :
    writeExact g fe functions alpha names = .error .valueError := by
  rw [writeExact_meshio hm hn hg hp hc hf hl ht hk hd, meshio]
  refine if_neg fun h => ?_
  simp only [Bool.and_eq_true, List.all_eq_true, beq_iff_eq, List.mem_flatMap] at h
  have := h.2 (r.1 ++ "_h", (topCells g).map (centreRow g fe alpha r)) ⟨r, hr, by rw [if_pos hrn]; simp⟩
  simp only [List.length_map] at this
  exact hw this.symm

/-- C83: the pointwise error is the distance of the exact values, as two dimensional arrays, from the
discrete ones. -/
theorem C83_error_partial {dim : Nat} {s : VSpace} {m h : Mat} {v : Nat → Nat → ℝ}
    (hm : m.rows = s.nComp ∧ m.cols = directions dim s) (hh : h.rows = s.nComp ∧ h.cols = directions dim s)
    (hv : ∀ i < h.rows, ∀ j < h.cols, h.val i j = v i j) :
    errorNorm (.mat m) h = .ok (distance dim s m.val v) := by
  unfold errorNorm distance
  simp only [hm.1, hm.2, hh.1, hh.2, bdim_self, Res.bind_ok, Res.pure_eq]
  congr 2
  refine Finset.sum_congr rfl fun i hi => Finset.sum_congr rfl fun j hj => ?_
  have hi := Finset.mem_range.1 hi
  have hj := Finset.mem_range.1 hj
  rw [bpick_lt hi, bpick_lt hj, hv i (by omega) j (by omega)]

/-- C83: the file of pointwise errors: distances in the nodes and in the centroids, for exact values in
two dimensional arrays. -/
theorem C83_write_errors_partial {functions : Dict String Exact} (hm : MeshReady g)
    (hn : (fe.spaces.map Prod.fst).Nodup)
    (hp : ∀ q ∈ fe.spaces, q.1 ∉ names → NodalReady g fe alpha.length q)
    (hc : ∀ q ∈ fe.spaces, q.1 ∈ names → CentredReady g fe alpha.length q)
    (hf : ∀ q ∈ fe.spaces, ∃ f, ErrorReady g functions q f) :
    writeErrors g fe functions alpha names = .ok
      { points := fe.spaces.flatMap fun q => if q.1 ∉ names then
          [(q.1 ++ "_error", nodal g q.2 (errorNode g fe functions alpha q) [some 0])] else []
        cellData := fe.spaces.flatMap fun q => if q.1 ∈ names then
          [(q.1 ++ "_error", (topCells g).map (errorCentre g fe functions alpha q))] else []
        cells := (topCells g).map Cell.nodeTags } := by
  have hsel := selectCells_topCells hm.filled
  have hcon := connectivity_ok hm.simplex
  have e := fold_entries (spaces := fe.spaces) (acc := (([], []) : Entries))
    (P := fun q => if decide (q.1 ∉ names) then
          [(q.1 ++ "_error", nodal g q.2 (errorNode g fe functions alpha q) [some 0])] else [])
    (C := fun q => if decide (q.1 ∈ names) then
          [(q.1 ++ "_error", (topCells g).map (errorCentre g fe functions alpha q))] else [])
    (step := fun (acc : Entries) (q : String × VSpace) => do
      let f ← functions.getItem q.1
      if q.1 ∈ names then do
        let cells ← selectCells (fun c => c.dimension == g.dimension) g.cells
        let d ← overCells cells 1 (fun c => do
          let v ← cellCentered g fe q.1 alpha c
          let e ← errorNorm (f.centroid c) v
          pure (some [some e])) (some 0)
        pure (acc.1, acc.2.set (q.1 ++ "_error") d)
      else do
        let d ← overVertices g q.2 1 (fun node cells => do
          let v ← nodeAverage g fe q.1 alpha node cells
          let e ← errorNorm? (f.node node) v
          pure (some [e])) (some 0)
        pure (acc.1.set (q.1 ++ "_error") d, acc.2))
    (fun q hq acc => by
      obtain ⟨f, hf⟩ := hf q hq
      have hex : exactOf functions q = f := by simp [exactOf, hf.get]
      simp only [Dict.getItem, hf.get, Res.bind_ok]
      by_cases hw : q.1 ∈ names
      · rw [if_pos hw, hsel, Res.bind_ok, overCells_spec (r := errorCentre g fe functions alpha q)]
        · simp [hw, setAll, pure, Except.pure]
        · intro c hcm
          obtain ⟨m, m1, -, m2, m3, m4⟩ :=
            centre_row (hc q hq hw).space (hc q hq hw).shape ((hc q hq hw).cells c hcm)
          refine ⟨some (errorCentre g fe functions alpha q c), ?_, assignRow_same rfl⟩
          rw [m1, Res.bind_ok, errorCentre, hex]
          have hfit := hf.centroid c hcm
          cases hval : f.centroid c with
          | flat l => rw [hval] at hfit; exact hfit.elim
          | mat x =>
            rw [hval] at hfit
            rw [C83_error_partial hfit ⟨m2, m3⟩ m4]
            rfl
      · rw [if_neg hw, overVertices_spec (r := errorNode g fe functions alpha q) (hp q hq hw).vertices]
        · simp [hw, setAll, pure, Except.pure]
        · intro v hv
          obtain ⟨m, m1, -, m2⟩ := average_row (hp q hq hw) hv
          refine ⟨some (errorNode g fe functions alpha q v), ?_, assignRow_same ?_⟩
          · rw [m1, Res.bind_ok, errorNode, hex]
            cases m with
            | none => rw [if_pos m2]; rfl
            | some m =>
              obtain ⟨k1, k2, k3, k4⟩ := m2
              rw [if_neg k1]
              have hfit := hf.node v hv
              cases hval : f.node (nodeOf g v) with
              | flat l => rw [hval] at hfit; exact hfit.elim
              | mat x =>
                rw [hval] at hfit
                rw [errorNorm?, C83_error_partial hfit ⟨k2, k3⟩ k4]
                rfl
          · unfold errorNode
            split <;> rfl)
    (nodup_single hn _ _ _) (nodup_single hn _ _ _)
  unfold writeErrors
  rw [e, Res.bind_ok, hsel, Res.bind_ok, hcon, Res.bind_ok, cellType, if_pos hm.dim, Res.bind_ok]
  simp only [List.nil_append, decide_eq_true_eq]
  refine meshio_ok ?_ ?_
  · intro d hd
    simp only [List.mem_flatMap] at hd
    obtain ⟨q, -, hd⟩ := hd
    split at hd
    · rw [List.mem_singleton] at hd
      subst hd
      exact nodal_length _ _ _ _
    · simp at hd
  · intro d hd
    simp only [List.mem_flatMap] at hd
    obtain ⟨q, -, hd⟩ := hd
    split at hd
    · rw [List.mem_singleton] at hd
      subst hd
      simp
    · simp at hd

/-- The entries of a field that lives on some of the cells. -/
theorem withTags_spec {functions : Dict String Exact} {q : String × VSpace}
    (hp : q.1 ∉ names → NodalReadyOn g fe alpha.length q)
    (hc : q.1 ∈ names → CentredReadyOn g fe alpha.length q)
    (hf : ∃ f, ExactReady g functions q f) (acc : Entries) :
    withTags g functions alpha names (topCells g) fe acc q = .ok
      (setAll acc.1 (if decide (q.1 ∉ names) then
          [(q.1 ++ "_h", nodal g q.2 (averageRow g fe alpha q) (nanRow g.dimension q.2)),
           (q.1 ++ "_e", nodal g q.2 (exactNodeOn g fe functions q) (nanRow g.dimension q.2))] else []),
       setAll acc.2 (if decide (q.1 ∈ names) then
          [(q.1 ++ "_h", (topCells g).map (centreRowOn g fe alpha q)),
           (q.1 ++ "_e", (topCells g).map (exactCentreOn g fe functions q))] else [])) := by
  obtain ⟨f, hf⟩ := hf
  have hex : exactOf functions q = f := by simp [exactOf, hf.get]
  unfold withTags
  simp only [Dict.getItem, hf.get, Res.bind_ok]
  by_cases hw : q.1 ∈ names
  · rw [if_pos hw, overCells_spec (r := centreRowOn g fe alpha q), Res.bind_ok,
      overCells_spec (r := exactCentreOn g fe functions q)]
    · simp [hw, setAll, pure, Except.pure]
    · intro c hcm
      by_cases hl : c.material ∈ (fe.tags.get? q.1).getD []
      · refine ⟨some (((f.centroid c).ravel).map some), by simp [hl, pure, Except.pure], ?_⟩
        rw [exactCentreOn, if_pos (by simpa [livesOn] using hl), exactCentre, hex]
        exact assignRow_same (by rw [List.length_map]; exact hf.centroid c hcm)
      · refine ⟨none, by simp [hl, pure, Except.pure], ?_⟩
        dsimp only
        rw [exactCentreOn, if_neg (by simpa [livesOn] using hl)]
        rfl
    · intro c hcm
      by_cases hl : c.material ∈ (fe.tags.get? q.1).getD []
      · have hlv : livesOn fe q.1 c = true := by simpa [livesOn] using hl
        obtain ⟨m, m1, m2, -⟩ := centre_row (hc hw).space (hc hw).shape ((hc hw).cells c hcm hlv)
        refine ⟨some (centreRow g fe alpha q c), ?_, ?_⟩
        · simp only [hl, not_true_eq_false, if_false]
          rw [m1, Res.bind_ok, m2]
          rfl
        · rw [centreRowOn, if_pos hlv]
          exact assignRow_same (fieldRow_length _ _ _)
      · refine ⟨none, by simp [hl, pure, Except.pure], ?_⟩
        dsimp only
        rw [centreRowOn, if_neg (by simpa [livesOn] using hl)]
        rfl
  · have hal : ∀ v ∈ q.2.vertices, ∃ cs : List Node, (do
        let l ← mapRes (fun i : Node => do
          let c ← cellAt g.cells i.2
          pure (i, c)) ((q.2.graph.edges.filter fun e => e.2 = (0, v)).map Prod.fst)
        pure ((l.filter fun p => ((fe.tags.get? q.1).getD []).contains p.2.material).map Prod.fst)) =
          (.ok cs : Res (List Node)) ∧
        mapRes (fun i : Node => cellAt g.cells i.2) cs = .ok (support g fe q.1 q.2 v) ∧
        (cs = [] ↔ support g fe q.1 q.2 v = []) := by
      intro v hv
      unfold support around
      have : ∀ i ∈ (q.2.graph.edges.filter fun e => e.2 = (0, v)).map Prod.fst,
          ∃ c, g.cells[i.2]? = some (some c) := by
        intro i hi
        obtain ⟨e, he, rfl⟩ := List.mem_map.1 hi
        have he := List.mem_filter.1 he
        exact (hp hw).vertices.cells v hv e he.1 (by simpa using he.2)
      generalize ((q.2.graph.edges.filter fun e => e.2 = (0, v)).map Prod.fst) = l at this
      have key : ∃ r : List (Node × Cell), mapRes (fun i : Node => do
          let c ← cellAt g.cells i.2
          pure (i, c)) l = .ok r ∧ (∀ p ∈ r, g.cells[p.1.2]? = some (some p.2)) ∧
          l.filterMap (fun i => (g.cells[i.2]?).join) = r.map Prod.snd := by
        induction l with
        | nil => exact ⟨[], rfl, by simp, rfl⟩
        | cons i l ih =>
          obtain ⟨c, hcc⟩ := this i (by simp)
          obtain ⟨r, r1, r2, r3⟩ := ih fun i hi => this i (by simp [hi])
          refine ⟨(i, c) :: r, ?_, ?_, ?_⟩
          · unfold mapRes
            rw [r1]
            simp [cellAt, hcc]
          · intro p hp
            rcases List.mem_cons.1 hp with rfl | hp
            · exact hcc
            · exact r2 p hp
          · simp [hcc, r3]
      obtain ⟨r, r1, r2, r3⟩ := key
      refine ⟨_, by rw [r1]; rfl, ?_, ?_⟩
      · rw [r3, List.filter_map]
        have hsub : ∀ p ∈ r.filter fun p => ((fe.tags.get? q.1).getD []).contains p.2.material,
            g.cells[p.1.2]? = some (some p.2) := fun p hp => r2 p (List.mem_filter.1 hp).1
        show mapRes _ ((r.filter fun p => ((fe.tags.get? q.1).getD []).contains p.2.material).map Prod.fst) =
          .ok ((r.filter fun p => ((fe.tags.get? q.1).getD []).contains p.2.material).map Prod.snd)
        generalize (r.filter fun p => ((fe.tags.get? q.1).getD []).contains p.2.material) = w at hsub
        induction w with
        | nil => rfl
        | cons p w ih =>
          rw [List.map_cons, List.map_cons]
          unfold mapRes
          rw [ih fun p hp => hsub p (by simp [hp])]
          simp [cellAt, hsub p (by simp)]
      · rw [r3, List.filter_map, List.map_eq_nil_iff, List.map_eq_nil_iff]
        rfl
    rw [if_neg hw, overVertices_spec (r := averageRow g fe alpha q) (hp hw).vertices, Res.bind_ok,
      overVertices_spec (r := exactNodeOn g fe functions q) (hp hw).vertices]
    · simp [hw, setAll, pure, Except.pure, nanRow]
    · intro v hv
      obtain ⟨cs, k1, k2, k3⟩ := hal v hv
      rw [k1, Res.bind_ok]
      cases cs with
      | nil =>
        refine ⟨none, rfl, ?_⟩
        dsimp only
        rw [exactNodeOn, if_pos (k3.1 rfl)]
        rfl
      | cons i cs =>
        refine ⟨some (((f.node (nodeOf g v)).ravel).map some), rfl, ?_⟩
        rw [exactNodeOn, if_neg (fun h => by simpa using k3.2 h), exactNode, hex]
        exact assignRow_same (by rw [List.length_map]; exact hf.node v hv)
    · intro v hv
      obtain ⟨cs, k1, k2, k3⟩ := hal v hv
      rw [k1, Res.bind_ok]
      cases cs with
      | nil =>
        refine ⟨none, rfl, ?_⟩
        dsimp only
        rw [averageRow, if_pos (k3.1 rfl)]
      | cons i cs =>
        have hne : support g fe q.1 q.2 v ≠ [] := fun h => by simpa using k3.2 h
        have hts : ∃ tags, fe.tags.get? q.1 = some tags := by
          cases ht : fe.tags.get? q.1 with
          | some t => exact ⟨t, rfl⟩
          | none => exact absurd (by simp [support, ht]) hne
        obtain ⟨tags, ht⟩ := hts
        have hself : (support g fe q.1 q.2 v).filter (fun c => tags.contains c.material) =
            support g fe q.1 q.2 v := by
          rw [List.filter_eq_self]
          intro c hcm
          have := (List.mem_filter.1 hcm).2
          simpa [ht] using this
        have e := nodeAverage_spec (node := nodeOf g v) (alpha := alpha) (hp hw).space ht k2 (hp hw).shape
          (by rw [hself]; exact (hp hw).cells v hv)
        rw [hself, if_neg hne] at e
        obtain ⟨m, m1, m2, m3, m4⟩ := e
        refine ⟨some (ravelMean (some m)), ?_, ?_⟩
        · dsimp only
          rw [m1]
          rfl
        · rw [averageRow, if_neg hne, ravelMean, ravel_row m2 m3 m4]
          exact assignRow_same (fieldRow_length _ _ _)

/-- C83: with several product spaces the fields have values where they live and `nan` elsewhere. -/
theorem C83_write_spaces_partial {fes : List VFe} {functions : Dict String Exact} (hm : MeshReady g)
    (hn : ((fes.flatMap fun fe => fe.spaces).map Prod.fst).Nodup)
    (hp : ∀ fe ∈ fes, ∀ q ∈ fe.spaces, q.1 ∉ names → NodalReadyOn g fe alpha.length q)
    (hc : ∀ fe ∈ fes, ∀ q ∈ fe.spaces, q.1 ∈ names → CentredReadyOn g fe alpha.length q)
    (hf : ∀ fe ∈ fes, ∀ q ∈ fe.spaces, ∃ f, ExactReady g functions q f) :
    writeSpaces g fes functions alpha names = .ok
      { points := fes.flatMap fun fe => fe.spaces.flatMap fun q => if q.1 ∉ names then
          [(q.1 ++ "_h", nodal g q.2 (averageRow g fe alpha q) (nanRow g.dimension q.2)),
           (q.1 ++ "_e", nodal g q.2 (exactNodeOn g fe functions q) (nanRow g.dimension q.2))] else []
        cellData := fes.flatMap fun fe => fe.spaces.flatMap fun q => if q.1 ∈ names then
          [(q.1 ++ "_h", (topCells g).map (centreRowOn g fe alpha q)),
           (q.1 ++ "_e", (topCells g).map (exactCentreOn g fe functions q))] else []
        cells := (topCells g).map Cell.nodeTags } := by
  have hsel := selectCells_topCells hm.filled
  have hcon := connectivity_ok hm.simplex
  have hnd : ∀ (w : String × VSpace → Bool)
      (D E : VFe → String × VSpace → List (List (Option ℝ))),
      ((fes.flatMap fun fe => fe.spaces.flatMap fun q =>
        if w q then [(q.1 ++ "_h", D fe q), (q.1 ++ "_e", E fe q)] else []).map Prod.fst).Nodup := by
    intro w D E
    have h := nodup_double hn w (fun _ => []) (fun _ => [])
    have e : ((fes.flatMap fun fe => fe.spaces.flatMap fun q =>
        if w q then [(q.1 ++ "_h", D fe q), (q.1 ++ "_e", E fe q)] else []).map Prod.fst) =
        ((fes.flatMap fun fe => fe.spaces).flatMap fun q =>
          if w q then [(q.1 ++ "_h", ([] : List (List (Option ℝ)))), (q.1 ++ "_e", [])] else []).map
          Prod.fst := by
      rw [List.flatMap_assoc]
      simp only [List.map_flatMap]
      refine List.flatMap_congr fun fe _ => List.flatMap_congr fun q _ => ?_
      split <;> rfl
    rw [e]
    exact h
  have key : ∀ (l : List VFe) (acc : Entries), (∀ fe ∈ l, fe ∈ fes) →
      ((acc.1 ++ l.flatMap fun fe => fe.spaces.flatMap fun q => if decide (q.1 ∉ names) then
          [(q.1 ++ "_h", nodal g q.2 (averageRow g fe alpha q) (nanRow g.dimension q.2)),
           (q.1 ++ "_e", nodal g q.2 (exactNodeOn g fe functions q) (nanRow g.dimension q.2))] else []).map
           Prod.fst).Nodup →
      ((acc.2 ++ l.flatMap fun fe => fe.spaces.flatMap fun q => if decide (q.1 ∈ names) then
          [(q.1 ++ "_h", (topCells g).map (centreRowOn g fe alpha q)),
           (q.1 ++ "_e", (topCells g).map (exactCentreOn g fe functions q))] else []).map Prod.fst).Nodup →
      l.foldlM (fun acc fe => fe.spaces.foldlM (withTags g functions alpha names (topCells g) fe) acc) acc =
      .ok (acc.1 ++ l.flatMap fun fe => fe.spaces.flatMap fun q => if decide (q.1 ∉ names) then
          [(q.1 ++ "_h", nodal g q.2 (averageRow g fe alpha q) (nanRow g.dimension q.2)),
           (q.1 ++ "_e", nodal g q.2 (exactNodeOn g fe functions q) (nanRow g.dimension q.2))] else [],
        acc.2 ++ l.flatMap fun fe => fe.spaces.flatMap fun q => if decide (q.1 ∈ names) then
          [(q.1 ++ "_h", (topCells g).map (centreRowOn g fe alpha q)),
           (q.1 ++ "_e", (topCells g).map (exactCentreOn g fe functions q))] else []) := by
    intro l
    induction l with
    | nil => intro acc _ _ _; simp [pure, Except.pure]
    | cons fe l ih =>
      intro acc hsub h1 h2
      rw [List.flatMap_cons, ← List.append_assoc] at h1 h2
      have hfe := hsub fe (by simp)
      rw [List.foldlM_cons, fold_entries (fun q hq acc => withTags_spec (hp fe hfe q hq) (hc fe hfe q hq)
        (hf fe hfe q hq) acc) (by rw [List.map_append] at h1; exact (List.nodup_append.1 h1).1)
        (by rw [List.map_append] at h2; exact (List.nodup_append.1 h2).1), Res.bind_ok,
        ih _ (fun fe h => hsub fe (by simp [h])) h1 h2]
      simp only [List.flatMap_cons, List.append_assoc]
  have e := key fes ([], []) (fun _ h => h) (hnd _ _ _) (hnd _ _ _)
  unfold writeSpaces
  rw [hsel, Res.bind_ok, hcon, Res.bind_ok, cellType, if_pos hm.dim, Res.bind_ok, e, Res.bind_ok]
  simp only [List.nil_append, decide_eq_true_eq]
  refine meshio_ok ?_ ?_
  · intro d hd
    simp only [List.mem_flatMap] at hd
    obtain ⟨fe, -, q, -, hd⟩ := hd
    split at hd
    · simp only [List.mem_cons, List.not_mem_nil, or_false] at hd
      rcases hd with rfl | rfl <;> exact nodal_length _ _ _ _
    · simp at hd
  · intro d hd
    simp only [List.mem_flatMap] at hd
    obtain ⟨fe, -, q, -, hd⟩ := hd
    split at hd
    · simp only [List.mem_cons, List.not_mem_nil, or_false] at hd
      rcases hd with rfl | rfl <;> simp
    · simp at hd

/-- C83: a field without an exact function raises. -/
theorem C83_missing {functions : Dict String Exact} {q : String × VSpace} {rest : List (String × VSpace)}
    (hs : fe.spaces = q :: rest) (hf : functions.get? q.1 = none) :
    writeExact g fe functions alpha names = .error .keyError ∧
      writeErrors g fe functions alpha names = .error .keyError := by
  constructor
  · unfold writeExact
    rw [hs, List.foldlM_cons]
    simp only [withExact, Dict.getItem, hf]
    rfl
  · unfold writeErrors
    rw [hs, List.foldlM_cons]
    simp only [Dict.getItem, hf]
    rfl

/-- C83: a node that is not exactly one vertex of a cell is refused. -/
theorem C83_alien {name : String} {s : VSpace} {c : Cell} {node : Nat}
    (h : CellReady g.dimension fe name s alpha.length c) (hc : c.nodeTags.count node ≠ 1) :
    cellValue g.dimension fe name s alpha c (vertexOf s c node) = .error .assertionError := by
  obtain ⟨k, el, d, l, h1, h2, h3, h4, h5, h6, h7, h8⟩ := h.element
  obtain ⟨al, a1, a2, a3⟩ := fancy_coefs h6
  have e4 : getIdx s.elements k = .ok el := by simp [getIdx, h2]
  have hlen : ((c.nodeTags.zipIdx.filter fun q => q.1 == node).map Prod.snd).length =
      c.nodeTags.count node := by
    have e : c.nodeTags.count node = (c.nodeTags.zipIdx.map Prod.fst).countP fun a => a == node := by
      rw [List.zipIdx_map_fst]; rfl
    rw [List.length_map, ← List.countP_eq_length_filter, e, List.countP_map]
    rfl
  have hv : vertexOf s c node = .error .assertionError := by
    unfold vertexOf
    split
    · rename_i k hk
      rw [hk] at hlen
      exact absurd hlen.symm hc
    · rfl
  unfold cellValue
  simp only [Dict.getItem, h1, Res.bind_ok, e4, h3, h4, a1, hv]
  rfl

/-- C83: the file of exact solutions alone: exact values in all points. -/
theorem C83_exact_only {fields : Dict String Nat} {functions : Dict String Exact} {F : String → Exact}
    (hm : MeshReady g) (hn : (fields.map Prod.fst).Nodup)
    (hf : ∀ q ∈ fields, functions.get? q.1 = some (F q.1) ∧
      ∀ i < g.nPoints, ((F q.1).node i).ravel.length = q.2) :
    writeExactOnly g fields functions = .ok
      { points := fields.map fun q => (q.1 ++ "_e",
          (List.range g.nPoints).map fun i => ((F q.1).node i).ravel.map some)
        cellData := []
        cells := (topCells g).map Cell.nodeTags } := by
  have key : ∀ (l : List (String × Nat)) (acc : Arrays), (∀ q ∈ l, q ∈ fields) →
      ((acc ++ l.map fun q => (q.1 ++ "_e",
        (List.range g.nPoints).map fun i => ((F q.1).node i).ravel.map some)).map Prod.fst).Nodup →
      l.foldlM (fun acc q => do
        let f ← functions.getItem q.1
        let d ← mapRes (fun i => assignRow q.2 ((f.node i).ravel.map some)) (List.range g.nPoints)
        pure (Dict.set acc (q.1 ++ "_e") d)) acc =
      (.ok (acc ++ l.map fun q => (q.1 ++ "_e",
        (List.range g.nPoints).map fun i => ((F q.1).node i).ravel.map some)) : Res Arrays) := by
    intro l
    induction l with
    | nil => intro acc _ _; simp [pure, Except.pure]
    | cons q l ih =>
      intro acc hsub h
      obtain ⟨h1, h2⟩ := hf q (hsub q (by simp))
      have hmap : mapRes (fun i => assignRow q.2 (((F q.1).node i).ravel.map some)) (List.range g.nPoints) =
          .ok ((List.range g.nPoints).map fun i => ((F q.1).node i).ravel.map some) := by
        rw [mapRes_iff, List.forall₂_map_right_iff, List.forall₂_same]
        intro i hi
        exact assignRow_same (by rw [List.length_map]; exact h2 i (List.mem_range.1 hi))
      have hk : q.1 ++ "_e" ∉ acc.map Prod.fst := by
        intro hk
        rw [List.map_append, List.nodup_append] at h
        exact h.2.2 _ hk _ (by simp) rfl
      rw [List.foldlM_cons]
      simp only [Dict.getItem, h1, Res.bind_ok, hmap, set_new hk, Res.pure_eq]
      simp only [Dict.getItem, Res.pure_eq] at ih
      rw [ih _ (fun q hq => hsub q (by simp [hq])) (by simpa using h)]
      simp
  have hn' : ((([] : Arrays) ++ fields.map fun q => (q.1 ++ "_e",
      (List.range g.nPoints).map fun i => ((F q.1).node i).ravel.map some)).map Prod.fst).Nodup := by
    rw [List.nil_append, List.map_map]
    have : (Prod.fst ∘ fun q : String × Nat => (q.1 ++ "_e",
        (List.range g.nPoints).map fun i => ((F q.1).node i).ravel.map some)) =
        (fun x => x ++ "_e") ∘ Prod.fst := rfl
    rw [this, ← List.map_map]
    exact hn.map fun a b h => append_inj h
  unfold writeExactOnly
  rw [key fields [] (fun _ h => h) hn', Res.bind_ok, selectCells_topCells hm.filled, Res.bind_ok,
    connectivity_ok hm.simplex, Res.bind_ok, cellType, if_pos hm.dim, Res.bind_ok]
  refine meshio_ok ?_ (by simp)
  intro d hd
  simp only [List.nil_append, List.mem_map] at hd
  obtain ⟨q, -, rfl⟩ := hd
  simp

/-- C83: exact values in a one dimensional array, as scalar families have them, are compared with the
discrete ones in all pairs. -/
theorem C83_error_violated {l : List ℝ} {h : Mat} (hc : h.cols = 1) :
    errorNorm (.flat l) h = .ok (Real.sqrt (∑ i ∈ Finset.range h.rows, ∑ j ∈ Finset.range l.length,
      (l.getD j 0 - h.val i 0) ^ 2)) := by
  have e : bdim l.length 1 = .ok l.length := by
    unfold bdim
    by_cases h1 : l.length = 1
    · simp [h1]
    · simp [h1]
  unfold errorNorm
  simp only [hc, e, Res.bind_ok, Res.pure_eq]
  congr 2
  refine Finset.sum_congr rfl fun i _ => Finset.sum_congr rfl fun j hj => ?_
  rw [bpick_lt (Finset.mem_range.1 hj), bpick, if_pos rfl]

/-- C83: two equal components: the error of a displacement with itself is not zero. -/
theorem C83_error_witness_violated :
    errorNorm (.flat [0, 1]) ⟨2, 1, fun i _ => i⟩ = .ok (Real.sqrt 2) := by
  rw [C83_error_violated rfl]
  simp [Finset.sum_range_succ]
  norm_num

/-- C83: scalar families with more components than the mesh has dimensions are refused, in
dimension one every component is replaced by the first. -/
theorem C83_components_violated {name : String} {s : VSpace} {c : Cell} (hl : s.family = .lagrange)
    (hsp : fe.spaces.get? name = some s) (h : CellReady g.dimension fe name s alpha.length c)
    (hd : g.dimension < s.nComp) :
    ∃ m, cellCentered g fe name alpha c = .ok m ∧ nData g.dimension s = s.nComp ∧
      (g.dimension ≠ 1 → assignRow s.nComp (m.ravel.map some) = .error .valueError) ∧
      (g.dimension = 1 → assignRow s.nComp (m.ravel.map some) =
        .ok (List.replicate s.nComp (some (oneSided fe name s alpha c none 0 0)))) := by
  obtain ⟨k, el, d, l, h1, h2, h3, h4, h5, h6, h7, h8⟩ := h.element
  obtain ⟨al, a1, a2, a3⟩ := fancy_coefs h6
  have e0 : elementIdx s c = k := by simp [elementIdx, h1]
  have e1 : basisOn s c = el := by simp [basisOn, e0, List.getD_eq_getElem?_getD, h2]
  have e2 : dofsOn fe name s c = l := by simp [dofsOn, e0, h3, h4]
  have e3 : splitCols al.length el.nPhi = .ok s.nComp := by rw [a2, h5]; exact splitCols_ok h7
  have e4 : getIdx s.elements k = .ok el := by simp [getIdx, h2]
  have hm : min g.dimension s.nComp = g.dimension := Nat.min_eq_left hd.le
  refine ⟨⟨g.dimension, 1, fun c _ => ∑ a ∈ Finset.range el.nPhi, el.value none a 0 *
    al.getD (a * s.nComp + c) 0⟩, ?_, by simp [nData, hl], fun h1 => ?_, fun h1 => ?_⟩
  · unfold cellCentered cellValue
    simp only [Dict.getItem, hsp, h1, e4, h3, h4, a1, e3, Res.bind_ok, if_pos hl, hm]
    rfl
  · unfold assignRow
    rw [if_neg (by simp [Mat.ravel]; omega)]
    simp only [Mat.ravel, Nat.mul_one]
    match hg : g.dimension, h1 with
    | 0, _ => rfl
    | k + 2, _ => simp [List.range_succ_eq_map]
  · unfold assignRow
    rw [if_neg (by simp [Mat.ravel]; omega)]
    simp only [Mat.ravel, h1, Nat.mul_one, List.range_one, List.map_cons, List.map_nil]
    congr 3
    unfold oneSided
    rw [e1, e2]
    refine Finset.sum_congr rfl fun a ha => ?_
    rw [Nat.zero_div, a3 _ (by rw [h5]; exact lt_mul_of (Finset.mem_range.1 ha) (by omega)), coef]


/-! ### Example: a piecewise linear function on two intervals, with a jump -/

/-- Three vertices and two lines with materials 1 and 2. -/
def twoLines : VMesh :=
  { dimension := 1
    cells := [some ⟨0, 0, none, [0], [[0]]⟩, some ⟨0, 1, none, [1], [[1]]⟩, some ⟨0, 2, none, [2], [[2]]⟩,
      some ⟨1, 3, some 1, [0, 1], [[0, 1], [3]]⟩, some ⟨1, 4, some 2, [1, 2], [[1, 2], [4]]⟩]
    nPoints := 3 }

/-- Linear functions with nodal values. -/
noncomputable def hat : VElem := ⟨2, 1, fun p a _ => match p with
  | none => 1 / 2
  | some k => if a = k then 1 else 0⟩

/-- Discontinuous piecewise linear functions. -/
noncomputable def broken : VSpace :=
  { dimension := 1, nComp := 1, family := .lagrange, nVert := 2, vertices := [0, 1, 2]
    graph := ⟨[(1, 3), (0, 0), (0, 1), (1, 4), (0, 2)],
      [((1, 3), (0, 0)), ((1, 3), (0, 1)), ((1, 4), (0, 1)), ((1, 4), (0, 2))]⟩
    idToElement := [(3, 0), (4, 1)], elements := [hat, hat] }

/-- The pressure. -/
noncomputable def feLines (tags : List (Option Int)) : VFe :=
  { spaces := [("p", broken)], tags := [("p", tags)]
    dests := fun k => .ok [("p", [2 * k, 2 * k + 1])] }

theorem lines_mesh : MeshReady twoLines :=
  ⟨by decide, by decide, by decide⟩

theorem lines_cell (tags : List (Option Int)) {c : Cell} (h : c ∈ topCells twoLines) :
    CellReady 1 (feLines tags) "p" broken 4 c := by
  have : topCells twoLines = [⟨1, 3, some 1, [0, 1], [[0, 1], [3]]⟩, ⟨1, 4, some 2, [1, 2], [[1, 2], [4]]⟩] := by
    decide
  rw [this] at h
  simp only [List.mem_cons, List.not_mem_nil, or_false] at h
  rcases h with rfl | rfl
  · exact ⟨⟨0, hat, _, [0, 1], rfl, rfl, rfl, rfl, rfl, by decide, by decide, fun h => absurd rfl h⟩⟩
  · exact ⟨⟨1, hat, _, [2, 3], rfl, rfl, rfl, rfl, rfl, by decide, by decide, fun h => absurd rfl h⟩⟩

theorem lines_space : SpaceReady 1 broken := ⟨fun _ => le_rfl, fun h => absurd rfl h⟩

theorem lines_vertices : VerticesReady twoLines broken where
  node := by
    intro v hv
    have : v = 0 ∨ v = 1 ∨ v = 2 := by simpa [broken] using hv
    rcases this with rfl | rfl | rfl
    · exact ⟨by simp [broken], _, rfl, by simp, by decide⟩
    · exact ⟨by simp [broken], _, rfl, by simp, by decide⟩
    · exact ⟨by simp [broken], _, rfl, by simp, by decide⟩
  nodup := by decide
  cells := by
    intro v _ e he _
    have : e = ((1, 3), (0, 0)) ∨ e = ((1, 3), (0, 1)) ∨ e = ((1, 4), (0, 1)) ∨ e = ((1, 4), (0, 2)) := by
      simpa [broken] using he
    rcases this with rfl | rfl | rfl | rfl <;> exact ⟨_, rfl⟩

theorem lines_around : around twoLines broken 0 = [⟨1, 3, some 1, [0, 1], [[0, 1], [3]]⟩] ∧
    around twoLines broken 1 =
      [⟨1, 3, some 1, [0, 1], [[0, 1], [3]]⟩, ⟨1, 4, some 2, [1, 2], [[1, 2], [4]]⟩] ∧
    around twoLines broken 2 = [⟨1, 4, some 2, [1, 2], [[1, 2], [4]]⟩] := by
  refine ⟨?_, ?_, ?_⟩ <;> simp [around, twoLines, broken]

theorem lines_nodal (tags : List (Option Int)) : NodalReady twoLines (feLines tags) 4 ("p", broken) where
  space := rfl
  tags := rfl
  shape := lines_space
  vertices := lines_vertices
  cells := by
    intro v hv c hc
    have hc := (List.mem_filter.1 hc).1
    have : v = 0 ∨ v = 1 ∨ v = 2 := by simpa [broken] using hv
    have ht : topCells twoLines =
        [⟨1, 3, some 1, [0, 1], [[0, 1], [3]]⟩, ⟨1, 4, some 2, [1, 2], [[1, 2], [4]]⟩] := by decide
    rcases this with rfl | rfl | rfl
    · rw [lines_around.1, List.mem_singleton] at hc
      subst hc
      exact ⟨lines_cell tags (by rw [ht]; simp), by decide, by decide, rfl⟩
    · rw [lines_around.2.1] at hc
      simp only [List.mem_cons, List.not_mem_nil, or_false] at hc
      rcases hc with rfl | rfl
      · exact ⟨lines_cell tags (by rw [ht]; simp), by decide, by decide, rfl⟩
      · exact ⟨lines_cell tags (by rw [ht]; simp), by decide, by decide, rfl⟩
    · rw [lines_around.2.2, List.mem_singleton] at hc
      subst hc
      exact ⟨lines_cell tags (by rw [ht]; simp), by decide, by decide, rfl⟩

/-- In the common node the mean of the values 2 and 4. -/
example : ∃ f, writeVtk twoLines (feLines [some 1, some 2]) [1, 2, 4, 6] [] = .ok f ∧
    f.points = [("p_h", [[some 1], [some 3], [some 6]])] ∧ f.cells = [[0, 1], [1, 2]] := by
  refine ⟨_, C83_write_partial (alpha := [1, 2, 4, 6]) lines_mesh (by simp [feLines])
    (fun q hq _ => ?_) (fun q _ h => by simp at h), ?_, by decide⟩
  · obtain rfl : q = ("p", broken) := by simpa [feLines] using hq
    exact lines_nodal _
  · have h0 : support twoLines (feLines [some 1, some 2]) "p" broken 0 = [⟨1, 3, some 1, [0, 1], [[0, 1], [3]]⟩] := by
      rw [support, lines_around.1]; rfl
    have h1 : support twoLines (feLines [some 1, some 2]) "p" broken 1 =
        [⟨1, 3, some 1, [0, 1], [[0, 1], [3]]⟩, ⟨1, 4, some 2, [1, 2], [[1, 2], [4]]⟩] := by
      rw [support, lines_around.2.1]; rfl
    have h2 : support twoLines (feLines [some 1, some 2]) "p" broken 2 = [⟨1, 4, some 2, [1, 2], [[1, 2], [4]]⟩] := by
      rw [support, lines_around.2.2]; rfl
    have hsp : (feLines [some 1, some 2]).spaces = [("p", broken)] := rfl
    rw [hsp]
    have hv : nodal twoLines broken (averageRow twoLines (feLines [some 1, some 2]) [1, 2, 4, 6] ("p", broken))
        (zeroRow 1 broken) = [averageRow twoLines (feLines [some 1, some 2]) [1, 2, 4, 6] ("p", broken) 0,
          averageRow twoLines (feLines [some 1, some 2]) [1, 2, 4, 6] ("p", broken) 1,
          averageRow twoLines (feLines [some 1, some 2]) [1, 2, 4, 6] ("p", broken) 2] := rfl
    show [("p_h", nodal twoLines broken (averageRow twoLines (feLines [some 1, some 2]) [1, 2, 4, 6]
      ("p", broken)) (zeroRow 1 broken))] = _
    rw [hv]
    simp only [averageRow, h0, h1, h2]
    simp [fieldRow, nData, broken, average, oneSided, basisOn, elementIdx, Dict.get?, hat, coef, dofsOn,
      feLines, twoLines, nodeOf, Finset.sum_range_succ, List.range_succ]
    norm_num

/-- The pressure has the tag of one of the two cells: with cell centred data nothing is written. -/
theorem C83_cells_witness_violated : writeExact twoLines (feLines [some 2])
    [("p", ⟨fun _ => .flat [0], fun _ => .flat [0]⟩)] [1, 2, 4, 6] ["p"] = .error .valueError :=
  C83_cells_violated (alpha := [1, 2, 4, 6]) (q := ("p", broken)) (r := ("p", broken)) (k := 2) lines_mesh
    (by simp [feLines]) (by simp [twoLines]) (fun q hq h => by simp [feLines] at hq; subst hq; simp at h)
    (fun q hq _ => by
      obtain rfl : q = ("p", broken) := by simpa [feLines] using hq
      exact ⟨rfl, lines_space, fun c hc => lines_cell _ hc⟩)
    (fun q hq => by
      obtain rfl : q = ("p", broken) := by simpa [feLines] using hq
      exact ⟨_, rfl, fun _ _ => rfl, fun _ _ => rfl⟩)
    rfl rfl (by decide) (fun q hq => by
      obtain rfl : q = ("p", broken) := by simpa [feLines] using hq
      decide)
    (by simp [feLines]) (by simp) (by decide)

/-- With all tags it is written. -/
example : ∃ f, writeExact twoLines (feLines [some 1, some 2])
    [("p", ⟨fun _ => .flat [0], fun _ => .flat [0]⟩)] [1, 2, 4, 6] ["p"] = .ok f ∧ f.cells.length = 2 :=
  ⟨_, C83_write_exact_partial (alpha := [1, 2, 4, 6]) (q := ("p", broken)) (k := 2) lines_mesh
    (by simp [feLines]) (by simp [twoLines]) (fun q hq h => by simp [feLines] at hq; subst hq; simp at h)
    (fun q hq _ => by
      obtain rfl : q = ("p", broken) := by simpa [feLines] using hq
      exact ⟨rfl, lines_space, fun c hc => lines_cell _ hc⟩)
    (fun q hq => by
      obtain rfl : q = ("p", broken) := by simpa [feLines] using hq
      exact ⟨_, rfl, fun _ _ => rfl, fun _ _ => rfl⟩)
    rfl rfl (by decide) (fun q hq => by
      obtain rfl : q = ("p", broken) := by simpa [feLines] using hq
      decide)
    (.inr (by decide)), by decide⟩

/-- A field on the second interval only. -/
example : ∃ f, writeSpaces twoLines [feLines [some 2]] [("p", ⟨fun _ => .flat [0], fun _ => .flat [0]⟩)]
    [1, 2, 4, 6] [] = .ok f ∧ f.points.length = 2 ∧ f.cells.length = 2 := by
  refine ⟨_, C83_write_spaces_partial (alpha := [1, 2, 4, 6]) lines_mesh (by simp [feLines])
    (fun fe hfe q hq _ => ?_) (fun _ _ q _ h => by simp at h) (fun fe hfe q hq => ?_), rfl, by decide⟩
  · obtain rfl := List.mem_singleton.1 hfe
    obtain rfl : q = ("p", broken) := by simpa [feLines] using hq
    exact ⟨(lines_nodal _).space, (lines_nodal [some 2]).shape, (lines_nodal [some 2]).vertices,
      (lines_nodal [some 2]).cells⟩
  · obtain rfl := List.mem_singleton.1 hfe
    obtain rfl : q = ("p", broken) := by simpa [feLines] using hq
    exact ⟨_, rfl, fun _ _ => rfl, fun _ _ => rfl⟩

example : ∃ f, writeErrors twoLines (feLines [some 1, some 2])
    [("p", ⟨fun _ => .mat ⟨1, 1, fun _ _ => 0⟩, fun _ => .mat ⟨1, 1, fun _ _ => 0⟩⟩)] [1, 2, 4, 6] [] =
      .ok f := by
  refine ⟨_, C83_write_errors_partial (alpha := [1, 2, 4, 6]) lines_mesh (by simp [feLines])
    (fun q hq _ => ?_) (fun q _ h => by simp at h) (fun q hq => ?_)⟩
  · obtain rfl : q = ("p", broken) := by simpa [feLines] using hq
    exact lines_nodal _
  · obtain rfl : q = ("p", broken) := by simpa [feLines] using hq
    exact ⟨_, rfl, fun _ _ => ⟨rfl, rfl⟩, fun _ _ => ⟨rfl, rfl⟩⟩

example : writeExact twoLines (feLines [some 2]) [] [1, 2, 4, 6] [] = .error .keyError :=
  (C83_missing rfl rfl).1

example : ∃ f, writeExactOnly twoLines [("p", 1)] [("p", ⟨fun i => .flat [(i : ℝ)], fun _ => .flat []⟩)] = .ok f ∧
    f.points.length = 1 :=
  ⟨_, C83_exact_only (F := fun _ => ⟨fun i => .flat [(i : ℝ)], fun _ => .flat []⟩) lines_mesh (by simp)
    (fun q hq => by
      obtain rfl := List.mem_singleton.1 hq
      exact ⟨rfl, fun _ _ => rfl⟩), rfl⟩

/-- Two components in dimension one. -/
example : ∃ (fe : VFe) (s : VSpace) (c : Cell), s.family = .lagrange ∧ fe.spaces.get? "u" = some s ∧
    CellReady twoLines.dimension fe "u" s 4 c ∧ twoLines.dimension < s.nComp :=
  ⟨⟨[("u", { broken with nComp := 2 })], [], fun _ => .ok [("u", [0, 1, 2, 3])]⟩, { broken with nComp := 2 },
    ⟨1, 3, some 1, [0, 1], [[0, 1], [3]]⟩, rfl, rfl,
    ⟨⟨0, hat, _, [0, 1, 2, 3], rfl, rfl, rfl, rfl, rfl, by decide, by decide, fun h => absurd rfl h⟩⟩, by decide⟩

#print axioms C83_average
#print axioms C83_continuous
#print axioms C83_between
#print axioms C83_write_partial
#print axioms C83_write_exact_partial
#print axioms C83_cells_violated
#print axioms C83_error_partial
#print axioms C83_write_errors_partial
#print axioms C83_write_spaces_partial
#print axioms C83_missing
#print axioms C83_error_violated
#print axioms C83_error_witness_violated
#print axioms C83_components_violated
#print axioms C83_cells_witness_violated

#print axioms C83_exact_only

#print axioms C83_alien

end Verif.Vtk
