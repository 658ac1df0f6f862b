/-
C117: the writers of the mesh.
-/
import Verif.Lemmas.MeshWriter

namespace Verif.MeshWriter
open MeshBuild MeshGraph MeshMetrics Trace

/-! ### write_vtk -/

/-- Without colours, and when no cell of dimension three lacks a tag, there is one file for each dimension with
tagged cells, and the nodes, the tags and the ids in it belong to the same cells. -/
theorem C117_vtk (equitable : DiGraph Node → Nat → Res (Dict Node Nat)) (dim : Nat) (cs : List Cell)
    (hs : Simplices cs) (h3 : ∀ c ∈ cs, c.dimension = 3 → c.material ≠ none) :
    writeVtk equitable false ⟨dim, cs.map some⟩ = (goodFiles cs [3, 2, 1, 0], none) := by
  refine writeAll_ok fun d _ => ?_
  rw [fileOf_plain hs]
  split
  · rfl
  · rw [if_neg]
    rintro ⟨-, c, hc, hd, hm⟩
    exact h3 c hc hd hm

/-- The first file: cells, tags and ids have equal lengths, and the `i`-th entries belong to one cell. -/
theorem C117_aligned (cs : List Cell) (d i : Nat) (hi : i < (goodFile cs d).con.length) :
    ∃ c ∈ cs, c.dimension = d ∧ (∃ t, c.material = some t) ∧ (goodFile cs d).con[i]? = some c.nodeTags ∧
      (goodFile cs d).physical[i]? = some c.material ∧ (goodFile cs d).entity[i]? = some c.id := by
  have hi' : i < (tagged cs d).length := by simpa [goodFile] using hi
  have hm : (tagged cs d)[i] ∈ tagged cs d := List.getElem_mem hi'
  obtain ⟨h1, h2⟩ := List.mem_filter.1 hm
  have h3 := of_decide_eq_true h2
  refine ⟨(tagged cs d)[i], h1, h3.1, Option.ne_none_iff_exists'.1 h3.2, ?_, ?_, ?_⟩ <;>
    simp [goodFile, hi']

/-- With cells of dimension three with and without tags, nothing at all is written. -/
theorem C117_mixed_violated (equitable : DiGraph Node → Nat → Res (Dict Node Nat)) (dim : Nat) (cs : List Cell)
    (hs : Simplices cs) (hm : MixedTags cs) :
    writeVtk equitable false ⟨dim, cs.map some⟩ = ([], some .valueError) := by
  obtain ⟨⟨c, hc, hd, ht⟩, c', hc', hd', ht'⟩ := hm
  have hne : tagged cs 3 ≠ [] := List.ne_nil_of_mem (List.mem_filter.2 ⟨hc, decide_eq_true ⟨hd, ht⟩⟩)
  unfold writeVtk
  rw [writeAll, fileOf_plain hs, if_neg hne, if_pos ⟨rfl, c', hc', hd', ht'⟩]

/-- With colours, a tagged cell of positive dimension is enough for an exception; no file is written, because the
highest dimension comes first. -/
theorem C117_colors_violated (equitable : DiGraph Node → Nat → Res (Dict Node Nat)) (dim : Nat) (cs : List Cell)
    (hs : Simplices cs) (c : Cell) (hc : c ∈ cs) (h0 : 0 < c.dimension) (h3 : c.dimension ≤ 3)
    (ht : c.material ≠ none) : ∃ e, writeVtk equitable true ⟨dim, cs.map some⟩ = ([], some e) := by
  have key : ∀ d, 0 < d → (tagged cs d = [] ∧ fileOf equitable true ⟨dim, cs.map some⟩ d = .ok none) ∨
      ∃ e, fileOf equitable true ⟨dim, cs.map some⟩ d = .error e := by
    intro d hd
    by_cases h : tagged cs d = []
    · exact .inl ⟨h, fileOf_none h⟩
    · exact .inr (fileOf_colors equitable hs hd h)
  have hne : tagged cs c.dimension ≠ [] := List.ne_nil_of_mem (List.mem_filter.2 ⟨hc, decide_eq_true ⟨rfl, ht⟩⟩)
  unfold writeVtk
  rcases key 3 (by omega) with ⟨e3, k3⟩ | ⟨e, k3⟩
  · rcases key 2 (by omega) with ⟨e2, k2⟩ | ⟨e, k2⟩
    · rcases key 1 (by omega) with ⟨e1, k1⟩ | ⟨e, k1⟩
      · exfalso
        rcases (show c.dimension = 1 ∨ c.dimension = 2 ∨ c.dimension = 3 by omega) with h | h | h <;> rw [h] at hne
        · exact hne e1
        · exact hne e2
        · exact hne e3
      · exact ⟨e, by simp only [writeAll, k3, k2, k1]⟩
    · exact ⟨e, by simp only [writeAll, k3, k2]⟩
  · exact ⟨e, by simp only [writeAll, k3]⟩

/-- An empty slot among the cells is an exception before any file. -/
theorem C117_empty_slot (equitable : DiGraph Node → Nat → Res (Dict Node Nat)) (q : Bool) (m : Mesh)
    (h : none ∈ m.cells) : writeVtk equitable q m = ([], some .attributeError) := by
  unfold writeVtk
  have : fileOf equitable q m 3 = .error .attributeError := by
    unfold fileOf
    rw [selectCells_empty_slot _ _ h]
    rfl
  rw [writeAll, this]

/-- Two triangles with tags, an edge with a tag, an edge without and a vertex with a tag. -/
def flatCells : List Cell :=
  [⟨2, 0, some 1, [0, 1, 2], []⟩, ⟨2, 1, some 1, [0, 2, 3], []⟩, ⟨1, 2, some 7, [0, 1], []⟩,
   ⟨1, 3, none, [1, 2], []⟩, ⟨0, 4, some 9, [3], []⟩]

/-- Two tetrahedra, one without a tag. -/
def mixedCells : List Cell := [⟨3, 0, some 1, [0, 1, 2, 3], []⟩, ⟨3, 1, none, [1, 2, 3, 4], []⟩]

/-- The hypotheses of `C117_vtk`, and the files. -/
example : Simplices flatCells ∧ (∀ c ∈ flatCells, c.dimension = 3 → c.material ≠ none) ∧
    goodFiles flatCells [3, 2, 1, 0] =
      [⟨2, [[0, 1, 2], [0, 2, 3]], [some 1, some 1], [0, 1], []⟩, ⟨1, [[0, 1]], [some 7], [2], []⟩,
       ⟨0, [[3]], [some 9], [4], []⟩] := by
  refine ⟨?_, ?_, by decide⟩ <;> simp [Simplices, flatCells]

/-- The hypotheses of `C117_mixed_violated`. -/
example : Simplices mixedCells ∧ MixedTags mixedCells := by
  refine ⟨by simp [Simplices, mixedCells], ?_, ?_⟩ <;> simp [mixedCells]

/-- The hypotheses of `C117_colors_violated`. -/
example : ∃ c ∈ flatCells, 0 < c.dimension ∧ c.dimension ≤ 3 ∧ c.material ≠ none := by simp [flatCells]

/-! ### conformal_mesh_write_vtk -/

/-- All three types of blocks are there, with one tag for each row: three files, with the rows of all blocks of the
type in the order of the mesh. -/
theorem C117_conformal (f : MeshFile)
    (hb : ∀ d ≤ 2, ∃ b ∈ f.blocks, rowsOf d b ≠ none)
    (hl : ∀ d ≤ 2, ∀ b ∈ f.blocks, ∀ r, rowsOf d b = some r → r.2.length = r.1.length) :
    conformalWrite 2 f = ([2, 1, 0].map fun d =>
      ⟨d, (f.blocks.filterMap (rowsOf d)).flatMap Prod.fst,
        ((f.blocks.filterMap (rowsOf d)).flatMap Prod.snd).map some, [], []⟩, none) := by
  have key : ∀ d ≤ 2, conformalFile f d = .ok (some ⟨d, (f.blocks.filterMap (rowsOf d)).flatMap Prod.fst,
        ((f.blocks.filterMap (rowsOf d)).flatMap Prod.snd).map some, [], []⟩) := by
    intro d hd
    unfold conformalFile
    dsimp only
    rw [if_neg, if_pos]
    · rfl
    · simp only [List.length_flatMap]
      congr 1
      refine List.map_congr_left fun r hr => ?_
      obtain ⟨b, hb', h⟩ := List.mem_filterMap.1 hr
      exact hl d hd b hb' r h
    · intro h
      obtain ⟨b, hb', h'⟩ := hb d hd
      exact h' (List.filterMap_eq_nil_iff.1 h b hb')
  unfold conformalWrite
  rw [if_pos rfl]
  simp only [writeAll, key 2 (by omega), key 1 (by omega), key 0 (by omega), List.map_cons, List.map_nil]

/-- A mesh without vertices: the files of the triangles and of the lines are written, then there is an exception. -/
theorem C117_conformal_violated (f : MeshFile)
    (hb : ∀ d ≤ 2, d ≠ 0 → ∃ b ∈ f.blocks, rowsOf d b ≠ none)
    (hl : ∀ d ≤ 2, ∀ b ∈ f.blocks, ∀ r, rowsOf d b = some r → r.2.length = r.1.length)
    (h0 : ∀ b ∈ f.blocks, rowsOf 0 b = none) :
    (conformalWrite 2 f).1.map VtkFile.dimension = [2, 1] ∧ (conformalWrite 2 f).2 = some .valueError := by
  have key : ∀ d ≤ 2, d ≠ 0 → ∃ x, conformalFile f d = .ok (some x) ∧ x.dimension = d := by
    intro d hd hd0
    unfold conformalFile
    dsimp only
    rw [if_neg, if_pos]
    · exact ⟨_, rfl, rfl⟩
    · simp only [List.length_flatMap]
      congr 1
      refine List.map_congr_left fun r hr => ?_
      obtain ⟨b, hb', h⟩ := List.mem_filterMap.1 hr
      exact hl d hd b hb' r h
    · intro h
      obtain ⟨b, hb', h'⟩ := hb d hd hd0
      exact h' (List.filterMap_eq_nil_iff.1 h b hb')
  obtain ⟨x2, k2, e2⟩ := key 2 (by omega) (by omega)
  obtain ⟨x1, k1, e1⟩ := key 1 (by omega) (by omega)
  have k0 : conformalFile f 0 = .error .valueError := by
    unfold conformalFile
    dsimp only
    rw [if_pos (List.filterMap_eq_nil_iff.2 h0)]
  unfold conformalWrite
  rw [if_pos rfl]
  simp only [writeAll, k2, k1, k0, List.map_cons, List.map_nil, e1, e2, and_self]

/-- Another dimension than two is refused. -/
theorem C117_conformal_dimension (d : Nat) (f : MeshFile) (hd : d ≠ 2) :
    conformalWrite d f = ([], some .assertionError) := by
  unfold conformalWrite
  rw [if_neg hd]

/-! ### write_data -/

/-- The dimensions printed: the least and the greatest dimension of all cells and of the tagged cells. -/
theorem C117_data (dim : Nat) (cs : List Cell) (r : Nat × Nat × Nat × Nat) :
    dimensionData ⟨dim, cs.map some⟩ = .ok r ↔
      ((∃ c ∈ cs, c.dimension = r.1) ∧ (∀ c ∈ cs, r.1 ≤ c.dimension)) ∧
      ((∃ c ∈ cs, c.dimension = r.2.1) ∧ (∀ c ∈ cs, c.dimension ≤ r.2.1)) ∧
      ((∃ c ∈ cs, c.material ≠ none ∧ c.dimension = r.2.2.1) ∧
        (∀ c ∈ cs, c.material ≠ none → r.2.2.1 ≤ c.dimension)) ∧
      ((∃ c ∈ cs, c.material ≠ none ∧ c.dimension = r.2.2.2) ∧
        (∀ c ∈ cs, c.material ≠ none → c.dimension ≤ r.2.2.2)) := by
  unfold dimensionData
  simp only [selectCells_filled, Res.bind_ok]
  rw [Res.bind_eq_ok]
  simp only [Res.bind_eq_ok, Res.pure_eq, minOf_iff, maxOf_iff]
  obtain ⟨r1, r2, r3, r4⟩ := r
  have m1 : ∀ x, x ∈ (cs.filter fun _ => true).map Cell.dimension ↔ ∃ c ∈ cs, c.dimension = x := by simp
  have m2 : ∀ x, x ∈ (cs.filter fun c => c.material.isSome).map Cell.dimension ↔
      ∃ c ∈ cs, c.material ≠ none ∧ c.dimension = x := by
    intro x
    simp only [List.mem_map, List.mem_filter, Option.isSome_iff_ne_none, and_assoc]
  simp only [m1, m2]
  have e1 : ∀ p : Nat → Prop, (∀ x, (∃ c ∈ cs, c.dimension = x) → p x) ↔ ∀ c ∈ cs, p c.dimension :=
    fun p => ⟨fun h c hc => h _ ⟨c, hc, rfl⟩, fun h x ⟨c, hc, hx⟩ => hx ▸ h c hc⟩
  have e2 : ∀ p : Nat → Prop, (∀ x, (∃ c ∈ cs, c.material ≠ none ∧ c.dimension = x) → p x) ↔
      ∀ c ∈ cs, c.material ≠ none → p c.dimension :=
    fun p => ⟨fun h c hc hm => h _ ⟨c, hc, hm, rfl⟩, fun h x ⟨c, hc, hm, hx⟩ => hx ▸ h c hc hm⟩
  simp only [e1, e2]
  constructor
  · rintro ⟨a, ha, b, hb, c, hc, d, hd, h⟩
    cases h
    exact ⟨ha, hb, hc, hd⟩
  · rintro ⟨ha, hb, hc, hd⟩
    exact ⟨_, ha, _, hb, _, hc, _, hd, rfl⟩

/-- Without any tagged cell the writer stops in its summary. -/
theorem C117_data_violated (dim : Nat) (cs : List Cell) (h : ∀ c ∈ cs, c.material = none) :
    dimensionData ⟨dim, cs.map some⟩ = .error .valueError := by
  unfold dimensionData
  simp only [selectCells_filled, Res.bind_ok]
  have h0 : cs.filter (fun c => c.material.isSome) = [] := by
    rw [List.filter_eq_nil_iff]
    intro c hc
    simp [h c hc]
  rw [h0]
  match cs with
  | [] => rfl
  | c :: cs => rfl

/-- A triangle, a line and a vertex with tags. -/
def flatFile : MeshFile := ⟨3, [.vertex [0] [9], .line [(0, 1)] [7], .triangle [(0, 1, 2)] [1]]⟩

/-- The files of `C117_conformal`. -/
example : conformalWrite 2 flatFile =
    ([⟨2, [[0, 1, 2]], [some 1], [], []⟩, ⟨1, [[0, 1]], [some 7], [], []⟩, ⟨0, [[0]], [some 9], [], []⟩], none) := by
  decide

/-- Without the vertex. -/
example : conformalWrite 2 ⟨3, [.line [(0, 1)] [7], .triangle [(0, 1, 2)] [1]]⟩ =
    ([⟨2, [[0, 1, 2]], [some 1], [], []⟩, ⟨1, [[0, 1]], [some 7], [], []⟩], some .valueError) := by
  decide

example : dimensionData ⟨2, flatCells.map some⟩ = .ok (0, 2, 0, 2) := by decide

/-- The exceptions of the files: a tagged cell of dimension three with another number of nodes stops `write_vtk` before any
file, and a block with more or fewer tags than rows stops `conformal_mesh_write_vtk`. -/
theorem C117_errors (equitable : DiGraph Node → Nat → Res (Dict Node Nat)) (q : Bool) (dim : Nat) (cs : List Cell)
    {c c' : Cell} (hc : c ∈ tagged cs 3) (hc' : c' ∈ tagged cs 3) (hl : c.nodeTags.length ≠ c'.nodeTags.length)
    (f : MeshFile) (hb : ∃ b ∈ f.blocks, rowsOf 2 b ≠ none)
    (ht : ((f.blocks.filterMap (rowsOf 2)).flatMap Prod.snd).length ≠
      ((f.blocks.filterMap (rowsOf 2)).flatMap Prod.fst).length) :
    writeVtk equitable q ⟨dim, cs.map some⟩ = ([], some .valueError) ∧
    conformalWrite 2 f = ([], some .valueError) := by
  constructor
  · have ht3 : (cs.filter fun c => c.dimension == 3 && c.material.isSome) = tagged cs 3 := by
      unfold tagged
      refine List.filter_congr fun c _ => ?_
      rw [Bool.eq_iff_iff]
      simp [Option.isSome_iff_ne_none]
    have hr : rectangular ((tagged cs 3).map Cell.nodeTags) = .error .valueError := by
      match ht' : tagged cs 3 with
      | [] => rw [ht'] at hc; exact absurd hc (by simp)
      | a :: l =>
        rw [ht'] at hc hc'
        rw [List.map_cons, rectangular, if_neg]
        intro h
        rw [List.all_eq_true] at h
        have h1 := h c.nodeTags (List.mem_map.2 ⟨c, hc, rfl⟩)
        have h2 := h c'.nodeTags (List.mem_map.2 ⟨c', hc', rfl⟩)
        rw [beq_iff_eq] at h1 h2
        exact hl (h1.trans h2.symm)
    have : fileOf equitable q ⟨dim, cs.map some⟩ 3 = .error .valueError := by
      unfold fileOf
      simp only [selectCells_filled, Res.bind_ok]
      rw [ht3, hr]
      rfl
    unfold writeVtk
    rw [writeAll, this]
  · have : conformalFile f 2 = .error .valueError := by
      unfold conformalFile
      dsimp only
      rw [if_neg, if_neg ht]
      intro h
      obtain ⟨b, hb', h'⟩ := hb
      exact h' (List.filterMap_eq_nil_iff.1 h b hb')
    unfold conformalWrite
    rw [if_pos rfl, writeAll, this]

/-- The blocks of each dimension: vertices, lines, triangles and tetrahedra, with the nodes of each row -/
theorem C117_blocks (d : Nat) (v : List Nat) (l : List (Nat × Nat)) (t : List (Nat × Nat × Nat))
    (h : List (Nat × Nat × Nat × Nat)) (p : List Int) :
    (rowsOf d (.vertex v p) ≠ none ↔ d = 0) ∧ (rowsOf d (.line l p) ≠ none ↔ d = 1) ∧
    (rowsOf d (.triangle t p) ≠ none ↔ d = 2) ∧ (rowsOf d (.tetra h p) ≠ none ↔ d = 3) ∧
    ∀ b r, rowsOf d b = some r → ∀ x ∈ r.1, x.length = d + 1 := by
  refine ⟨by simp [rowsOf], by simp [rowsOf], by simp [rowsOf], by simp [rowsOf], ?_⟩
  intro b r hr x hx
  cases b <;> simp only [rowsOf] at hr <;> split_ifs at hr with hd <;> cases hr <;>
    · obtain ⟨y, -, rfl⟩ := List.mem_map.1 hx
      simp [hd]

#print axioms C117_vtk
#print axioms C117_aligned
#print axioms C117_mixed_violated
#print axioms C117_colors_violated
#print axioms C117_empty_slot
#print axioms C117_conformal
#print axioms C117_conformal_violated
#print axioms C117_conformal_dimension
#print axioms C117_data
#print axioms C117_data_violated

#print axioms C117_errors
#print axioms C117_blocks

end Verif.MeshWriter
