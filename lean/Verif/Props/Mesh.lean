/-
Property theorems C01-C05: `Mesh.build_conformal_mesh` (src/mesh/mesh.py:239-339).
-/
import Verif.Lemmas.MeshCount

namespace Verif.MeshBuild

/-- A mesh file used to show that hypotheses are satisfiable: a tetrahedron, two triangles (one
of them a face of the tetrahedron), a tagged boundary edge and a tagged vertex. -/
def exampleFile : MeshFile :=
  ⟨5, [.vertex [0] [7], .line [(1, 0)] [8], .triangle [(0, 1, 2), (2, 1, 3)] [1, 2],
    .tetra [(0, 1, 2, 4)] [3]]⟩

/-- Which files are accepted: exactly the well-formed ones; the others raise `ValueError`
(no points, or no simplex of positive dimension) or `KeyError` (unknown point). -/
theorem C01_accepts_exactly (f : MeshFile) :
    ((∃ cells, buildConformalMesh f = .ok cells) ↔ f.WF) ∧
    (¬ (f.nPoints ≠ 0 ∧ ∃ s ∈ f.simplices, 2 ≤ s.length) →
      buildConformalMesh f = .error .valueError) ∧
    ((f.nPoints ≠ 0 ∧ ∃ s ∈ f.simplices, 2 ≤ s.length) →
      (∃ p ∈ f.tagged, ∃ n ∈ p.1, ¬ n < f.nPoints) →
      buildConformalMesh f = .error .keyError) := by
  refine ⟨⟨fun ⟨cells, h⟩ => build_wf h, fun h => ?_⟩, build_rejects_empty,
    fun h => build_rejects_bad h.1 h.2⟩
  obtain ⟨_, cells, _, h, _⟩ := build_ok h
  exact ⟨cells, h⟩

/-- C01: the position of a cell is its id; there is one slot per point and per distinct edge, face
and volume; the four kinds occupy consecutive ranges in this order. -/
theorem C01_ids_are_positions (f : MeshFile) (cells : Cells)
    (h : buildConformalMesh f = .ok cells) :
    cells.length = f.nPoints + (f.entities 1).card + (f.entities 2).card + (f.entities 3).card ∧
    ∀ i c, Stored cells i c →
      c.id = i ∧ c.dimension ≤ 3 ∧ f.start c.dimension ≤ i ∧ i < f.start (c.dimension + 1) := by
  obtain ⟨E, hE, hI⟩ := build_inv h
  constructor
  · rw [hI.all.len]
    have := hE.off_eq (d := 4) (by omega)
    simpa [EntsOK.off, MeshFile.start] using this
  · intro i c hc
    have hg := hI.all.good i c hc
    have hb := hE.get_bounds hg.num
    refine ⟨hg.id, hb.1, ?_, ?_⟩
    · rw [← hE.off_eq (by omega)]; exact hb.2.1
    · rw [← hE.off_eq (by omega)]; exact hb.2.2

/-- C02: `sub_cells_ids[e]` lists, in reference order, for each `e`-face of the cell's simplex the
stored cell of dimension `e` on the nodes of that face. -/
theorem C02_sub_entities (f : MeshFile) (cells : Cells) (h : buildConformalMesh f = .ok cells)
    (i : Nat) (c : Cell) (hc : Stored cells i c) :
    c.nodeTags.length = c.dimension + 1 ∧ c.sub.length = c.dimension + 1 ∧
    ∀ e ≤ c.dimension, ∃ ids, c.sub[e]? = some ids ∧
      List.Forall₂ (fun id x => ∃ s, Stored cells id s ∧ s.dimension = e ∧ s.nodeTags.Perm x)
        ids (faces e c.nodeTags) := by
  obtain ⟨E, hE, hI⟩ := build_inv h
  have hg := hI.all.good i c hc
  refine ⟨hg.nodes, hg.subLen, fun e he => ?_⟩
  have hlt : e < c.sub.length := by rw [hg.subLen]; omega
  refine ⟨c.sub[e], List.getElem?_eq_getElem hlt, ?_⟩
  have hsub := hg.subs e _ (List.getElem?_eq_getElem hlt)
  rw [List.forall₂_iff_get] at hsub ⊢
  refine ⟨hsub.1, fun j h1 h2 => ?_⟩
  obtain ⟨s, hs, hd, hp⟩ := Pointed.cell hE hI.all (hsub.2 j h1 h2)
  have hl := (mem_faces (List.get_mem _ ⟨j, h2⟩)).1
  exact ⟨s, hs, by rw [hd, hl]; omega, hp⟩

/-- C03: two stored cells with the same dimension and the same nodes are the same cell. -/
theorem C03_one_cell_per_node_set (f : MeshFile) (cells : Cells)
    (h : buildConformalMesh f = .ok cells) (i j : Nat) (c d : Cell)
    (hc : Stored cells i c) (hd : Stored cells j d)
    (hdim : c.dimension = d.dimension) (hnodes : c.nodeTags.Perm d.nodeTags) :
    i = j ∧ c = d := by
  obtain ⟨E, hE, hI⟩ := build_inv h
  have h1 := (hI.all.good i c hc).num
  have h2 := (hI.all.good j d hd).num
  rw [hdim, npSort_eq_iff.2 hnodes, h2] at h1
  have hij : j = i := by simpa using h1
  subst hij
  refine ⟨rfl, ?_⟩
  have := hc.symm.trans hd
  simpa using this

/-- C03, consequence: two cells that have a face in common (in whatever node order) list the same
id for it. -/
theorem C03_shared_face_same_id (f : MeshFile) (cells : Cells)
    (h : buildConformalMesh f = .ok cells) (i j : Nat) (c d : Cell)
    (hc : Stored cells i c) (hd : Stored cells j d) (e : Nat) (ids jds : List Nat)
    (hids : c.sub[e]? = some ids) (hjds : d.sub[e]? = some jds) (a b : Nat) (x y : List Nat)
    (hx : (faces e c.nodeTags)[a]? = some x) (hy : (faces e d.nodeTags)[b]? = some y)
    (hxy : x.Perm y) : ∃ id, ids[a]? = some id ∧ jds[b]? = some id := by
  obtain ⟨E, hE, hI⟩ := build_inv h
  have h1 := (hI.all.good i c hc).subs e ids hids
  have h2 := (hI.all.good j d hd).subs e jds hjds
  obtain ⟨ha, hax⟩ := List.getElem?_eq_some_iff.1 hx
  obtain ⟨hb, hby⟩ := List.getElem?_eq_some_iff.1 hy
  have p1 := List.Forall₂.get h1 (i := a) (by rw [h1.length_eq]; exact ha) ha
  have p2 := List.Forall₂.get h2 (i := b) (by rw [h2.length_eq]; exact hb) hb
  simp only [List.get_eq_getElem, hax, hby] at p1 p2
  have q := (p1.congr hxy).1
  rw [p2.1] at q
  have hal : a < ids.length := by rw [h1.length_eq]; exact ha
  have hbl : b < jds.length := by rw [h2.length_eq]; exact hb
  refine ⟨ids[a], List.getElem?_eq_getElem hal, ?_⟩
  rw [List.getElem?_eq_getElem hbl]; exact q

/-- C03, existence: the stored cells are exactly the faces (of any dimension) of the tagged
simplices of the file. -/
theorem C03_stored_iff_face (f : MeshFile) (cells : Cells) (h : buildConformalMesh f = .ok cells)
    (x : List Nat) :
    (∃ i c, Stored cells i c ∧ c.nodeTags.Perm x) ↔ ∃ p ∈ f.tagged, IsFaceOf x p.1 := by
  obtain ⟨E, hE, hI⟩ := build_inv h
  constructor
  · rintro ⟨i, c, hc, hp⟩
    obtain ⟨p, hpt, hpf⟩ := hI.origin i c hc
    refine ⟨p, hpt, ?_, hp.symm.subperm.trans hpf.2⟩
    rintro rfl
    exact hpf.1 (List.perm_nil.1 hp)
  · rintro ⟨p, hp, hx⟩
    obtain ⟨id, hid⟩ := hI.stored_face hE (build_wf h) hp hx
    obtain ⟨s, hs, -, hperm⟩ := Pointed.cell hE hI.all hid
    exact ⟨id, s, hs, hperm⟩

/-- C04 as stated is false: a point used by no simplex leaves an empty slot. -/
theorem C04_unused_point_leaves_empty_slot :
    ∃ f : MeshFile, f.WF ∧ ∃ cells, buildConformalMesh f = .ok cells ∧ cells[2]? = some none := by
  refine ⟨⟨3, [.line [(0, 1)] [5]]⟩, ⟨by decide, ⟨[0, 1], by decide, by decide⟩, by decide⟩,
    _, rfl, rfl⟩

/-- C04, the part that holds: all slots are filled exactly when every point belongs to a tagged
simplex and every listed simplex is a face of a tagged one. -/
theorem C04_every_slot_filled_partial (f : MeshFile) (cells : Cells)
    (h : buildConformalMesh f = .ok cells) :
    (∀ i < cells.length, ∃ c, Stored cells i c) ↔
      (∀ n < f.nPoints, ∃ p ∈ f.tagged, n ∈ p.1) ∧
      (∀ s ∈ f.simplices, 2 ≤ s.length → ∃ p ∈ f.tagged, s.Subperm p.1) := by
  obtain ⟨E, hE, hI⟩ := build_inv h
  have hwf := build_wf h
  constructor
  · intro hall
    constructor
    · intro n hn
      have hget : E.get 0 [n] = some n := hE.get_zero.2 ⟨rfl, hn⟩
      obtain ⟨c, hc⟩ := hall n (by rw [hI.all.len]; exact hE.get_lt hget)
      have hperm := npSort_eq_iff.1
        ((hE.get_inj (hI.all.good n c hc).num (by simpa using hget :
          E.get 0 (npSort [n]) = some n)).2)
      obtain ⟨p, hp, hf⟩ := hI.origin n c hc
      exact ⟨p, hp, hf.2.subset (hperm.mem_iff.2 (by simp))⟩
    · intro s hs hl
      have hk : ∃ id, E.get (s.length - 1) (npSort s) = some id := by
        rw [hE.get_exists (by omega), mem_entityKeys (by omega)]
        obtain ⟨y, hy, hp⟩ := (subperm_iff_mem_faces (e := s.length - 1) (x := s) (s := s)
          (by omega)).1 (List.Subperm.refl s)
        exact ⟨s, hs, y, hy, npSort_eq_iff.2 hp⟩
      obtain ⟨id, hid⟩ := hk
      obtain ⟨c, hc⟩ := hall id (by rw [hI.all.len]; exact hE.get_lt hid)
      have hperm := npSort_eq_iff.1 (hE.get_inj (hI.all.good id c hc).num hid).2
      obtain ⟨p, hp, hf⟩ := hI.origin id c hc
      exact ⟨p, hp, hperm.symm.subperm.trans hf.2⟩
  · rintro ⟨h0, h1⟩ i hi
    rw [hI.all.len] at hi
    obtain ⟨e, k, hk⟩ := hE.get_surj hi
    by_cases he : e = 0
    · subst he
      obtain ⟨rfl, hlt⟩ := hE.get_zero.1 hk
      obtain ⟨p, hp, hmem⟩ := h0 i hlt
      obtain ⟨id, hnum, hs⟩ := hI.stored_face hE hwf hp (x := [i])
        ⟨by simp, List.singleton_subperm_iff.2 hmem⟩
      have : id = i := by
        have : E.get 0 [i] = some id := by simpa using hnum
        rw [hk] at this; simpa using this.symm
      subst this; exact hs
    · have hmem := (hE.get_exists he).1 ⟨i, hk⟩
      obtain ⟨s, hs, y, hy, rfl⟩ := (mem_entityKeys he).1 hmem
      have hyl := mem_faces hy
      have hsl : 2 ≤ s.length := by
        have := hyl.2.length_le; omega
      obtain ⟨p, hp, hsp⟩ := h1 s hs hsl
      obtain ⟨id, hnum, hst⟩ := hI.stored_face hE hwf hp (x := y)
        ⟨by intro h; subst h; simp at hyl, hyl.2.trans hsp⟩
      rw [hyl.1] at hnum
      have : id = i := by
        rw [Nat.add_sub_cancel, hk] at hnum; simpa using hnum.symm
      subst this; exact hst

/-- C04, the usual situation: every block carries as many tags as rows and every point is used. -/
theorem C04_every_slot_filled_of_tagged_partial (f : MeshFile) (cells : Cells)
    (h : buildConformalMesh f = .ok cells)
    (htags : ∀ b ∈ f.blocks, b.phys.length = b.simplices.length)
    (hpts : ∀ n < f.nPoints, ∃ s ∈ f.simplices, n ∈ s) :
    ∀ i < cells.length, ∃ c, Stored cells i c := by
  have hall : ∀ s ∈ f.simplices, ∃ p ∈ f.tagged, p.1 = s := by
    intro s hs
    obtain ⟨b, hb, hs⟩ := List.mem_flatMap.1 hs
    obtain ⟨j, hj, rfl⟩ := List.mem_iff_getElem.1 hs
    refine ⟨(b.simplices[j], b.phys[j]'(by rw [htags b hb]; exact hj)), ?_, rfl⟩
    refine List.mem_flatMap.2 ⟨b, hb, ?_⟩
    rw [List.mem_iff_getElem]
    exact ⟨j, by simp [hj, htags b hb], by simp⟩
  refine (C04_every_slot_filled_partial f cells h).2 ⟨fun n hn => ?_, fun s hs _ => ?_⟩
  · obtain ⟨s, hs, hns⟩ := hpts n hn
    obtain ⟨p, hp, rfl⟩ := hall s hs
    exact ⟨p, hp, hns⟩
  · obtain ⟨p, hp, rfl⟩ := hall s hs
    exact ⟨p, hp, List.Subperm.refl _⟩

/-- C05: the material id is the last tag the file gives to the cell's simplex, `None` if none. -/
theorem C05_material_is_last_tag (f : MeshFile) (cells : Cells)
    (h : buildConformalMesh f = .ok cells) (i : Nat) (c : Cell) (hc : Stored cells i c) :
    c.material = lastTag f.tagged c.nodeTags := by
  obtain ⟨E, hE, hI⟩ := build_inv h
  exact hI.mat i c hc

/-! ### The hypotheses are satisfiable -/

example : exampleFile.WF :=
  ⟨by decide, ⟨[1, 0], by decide, by decide⟩, by decide⟩

/-- the example mesh has 19 cells, all slots filled -/
example : ∃ cells, buildConformalMesh exampleFile = .ok cells ∧ cells.length = 19 ∧
    Stored cells 18 ⟨3, 18, some 3, [0, 1, 2, 4],
      [[0, 1, 2, 4], [5, 6, 7, 8, 9, 10], [13, 14, 15, 16], [18]]⟩ ∧
    Stored cells 16 ⟨2, 16, some 1, [0, 1, 2], [[0, 1, 2], [7, 9, 10], [16]]⟩ ∧
    Stored cells 10 ⟨1, 10, some 8, [1, 0], [[1, 0], [10]]⟩ := ⟨_, rfl, rfl, rfl, rfl, rfl⟩

example : ∀ b ∈ exampleFile.blocks, b.phys.length = b.simplices.length := by decide
example : ∀ n < exampleFile.nPoints, ∃ s ∈ exampleFile.simplices, n ∈ s := by decide
example : buildConformalMesh ⟨0, []⟩ = .error .valueError := rfl
example : buildConformalMesh ⟨2, [.line [(0, 5)] [1]]⟩ = .error .keyError := rfl

#print axioms C01_accepts_exactly
#print axioms C01_ids_are_positions
#print axioms C02_sub_entities
#print axioms C03_one_cell_per_node_set
#print axioms C03_shared_face_same_id
#print axioms C03_stored_iff_face
#print axioms C04_unused_point_leaves_empty_slot
#print axioms C04_every_slot_filled_partial
#print axioms C04_every_slot_filled_of_tagged_partial
#print axioms C05_material_is_last_tag

end Verif.MeshBuild
