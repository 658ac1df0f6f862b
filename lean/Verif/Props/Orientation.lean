/-
Property theorems C28 and C29: orientation of faces and edges
(src/basis/permute_and_transform.py).
-/
import Verif.Lemmas.OrientMesh
import Mathlib.Algebra.Order.Ring.Rat
import Mathlib.LinearAlgebra.Matrix.Notation
import Mathlib.Data.Matrix.Basic
import Mathlib.Tactic.NormNum

namespace Verif.Orient
open MeshBuild MeshGraph Trace

/-! ### C28 -/

/-- C28, faces that are not overridden: the face is flagged as oriented exactly when its nodes are
sorted, and the code (rotations, reflections) stands for the one permutation that reads the face
from its sorted nodes. -/
theorem C28_code_partial (c : Cell) (bc : List Bool) (hl : c.nodeTags.length = 4)
    (hn : c.nodeTags.Nodup) (hb : bc.length = 4) :
    ∃ l, validateFaces3d c bc = .ok l ∧ l.length = 4 ∧
      ∀ (i : Nat) face, (faces 2 c.nodeTags)[i]? = some face → ¬ Overridden bc i →
        ∃ o rot ref, l[i]? = some (o, rot, ref) ∧ rot < 3 ∧ ref < 2 ∧
          (o = true ↔ npSort face = face) ∧
          ∀ g, ReadsAs face (npSort face) g ↔ g = codePerm rot ref := by
  obtain ⟨l, h1, h2, h3⟩ := validateFaces_ok hl hn hb
  refine ⟨l, h1, h2, fun i face hface hov => ?_⟩
  obtain ⟨o, rot, ref, h4, h5, h6, h7, -⟩ := h3 i face hface
  have hm := List.mem_sublistsLen.1 (List.mem_of_getElem? hface)
  refine ⟨o, rot, ref, h4, h5, h6, (h7 hov).1, fun g => ⟨fun hg => ?_, ?_⟩⟩
  · exact readsAs_unique (by simp [hm.2]) ((npSort_perm face).nodup_iff.2 (hn.sublist hm.1)) hg
      (h7 hov).2
  · rintro rfl; exact (h7 hov).2

/-- C28: the six codes stand for the six permutations. -/
theorem C28_codes_distinct :
    (∀ rot < 3, ∀ ref < 2, ∀ rot' < 3, ∀ ref' < 2, codePerm rot ref = codePerm rot' ref' →
      rot = rot' ∧ ref = ref') ∧
    ∀ g : Equiv.Perm (Fin 3), ∃ rot < 3, ∃ ref < 2, g = codePerm rot ref := by
  constructor
  · intro a ha b hb a' ha' b' hb' h
    have := codePerm_inj ⟨a, ha⟩ ⟨a', ha'⟩ ⟨b, hb⟩ ⟨b', hb'⟩ h
    simpa using this
  · have : ∀ g : Equiv.Perm (Fin 3), ∃ (a : Fin 3) (b : Fin 2), g = codePerm a b := by decide
    intro g
    obtain ⟨a, b, h⟩ := this g
    exact ⟨a, a.2, b, b.2, h⟩

/-- C28 is violated on boundary faces 1 and 3: they are always reflected once, even when their
nodes are sorted. -/
theorem C28_boundary_overridden_violated :
    ∃ (c : Cell) (bc : List Bool) (l : List (Bool × Nat × Nat)) (face : List Nat),
      c.nodeTags.length = 4 ∧ c.nodeTags.Nodup ∧ bc.length = 4 ∧
      validateFaces3d c bc = .ok l ∧ (faces 2 c.nodeTags)[1]? = some face ∧
      npSort face = face ∧ l[1]? = some (false, 0, 1) ∧
      ¬ ReadsAs face (npSort face) (codePerm 0 1) := by
  refine ⟨⟨3, 9, none, [0, 1, 2, 3], []⟩, [false, true, false, false], _, [0, 2, 3], rfl,
    by decide, rfl, rfl, rfl, by decide, rfl, ?_⟩
  rintro ⟨-, h⟩
  have := h 1
  revert this
  decide

section
variable {K V : Type} [CommRing K] [AddCommGroup V] [Module K V]

/-- C28: the matrix applied for a code is the one basix gives for its permutation. -/
theorem C28_transformation (data : DofData K)
    (T : Equiv.Perm (Fin 3) →* Matrix (Fin data.nFace) (Fin data.nFace) K)
    (h : Represents data T) (rot ref : Nat) :
    faceTransformation data rot ref = T (codePerm rot ref) := by
  rw [faceTransformation_eq, codePerm, map_mul, map_pow, map_pow, h.rotate, h.reflect]

/-- C28, faces that are not overridden: a cell whose basis on face `i` is a family `psi` seen in
the order of its own nodes gets the family `psi` itself, that of the sorted nodes. -/
theorem C28_sorted_functions_partial (f : MeshFile) (cells : Cells)
    (h : buildConformalMesh f = .ok cells) (j : Nat) (c : Cell) (hc : Stored cells j c)
    (hd : c.dimension = 3) (hn : c.nodeTags.Nodup) (bc : List Bool) (hb : bc.length = 4)
    (data : DofData K) (T : Equiv.Perm (Fin 3) →* Matrix (Fin data.nFace) (Fin data.nFace) K)
    (hT : Represents data T) (phi : List V) (eD fD : List (List Nat))
    (hL : Layout data phi.length 6 4 eD fD) :
    ∃ phi', permuteAndTransform cells c bc data phi = .ok phi' ∧
      ∀ (i : Nat) face ds g (psi : Fin data.nFace → V),
        (faces 2 c.nodeTags)[i]? = some face → fD[i]? = some ds → ¬ Overridden bc i →
        ReadsAs face (npSort face) g → block data.nFace phi ds = act (T g⁻¹) psi →
        block data.nFace phi' ds = psi := by
  obtain ⟨phi', h1, -, -, h4, -⟩ := permute3d_ok f cells h j c hc hd hn bc hb data T hT phi eD fD hL
  refine ⟨phi', by simp [permuteAndTransform, hd, h1], ?_⟩
  intro i face ds g psi hface hds hov hg hphi
  obtain ⟨rot, -, ref, -, hr, -, hblock⟩ := h4 i face ds hface hds
  have hm := List.mem_sublistsLen.1 (List.mem_of_getElem? hface)
  have := readsAs_unique (by simp [hm.2]) ((npSort_perm face).nodup_iff.2 (hn.sublist hm.1))
    (hr hov) hg
  rw [hblock, hphi, this, ← act_mul, ← map_mul, mul_inv_cancel, map_one, act_one]

/-- C28, faces that are not overridden: two cells that share a face end up with the same functions
on it, whatever the order of their nodes. -/
theorem C28_shared_face_partial (f : MeshFile) (cells : Cells)
    (h : buildConformalMesh f = .ok cells) (j j' : Nat) (c c' : Cell) (hc : Stored cells j c)
    (hc' : Stored cells j' c') (hd : c.dimension = 3) (hd' : c'.dimension = 3)
    (hn : c.nodeTags.Nodup) (hn' : c'.nodeTags.Nodup) (bc bc' : List Bool) (hb : bc.length = 4)
    (hb' : bc'.length = 4) (data : DofData K)
    (T : Equiv.Perm (Fin 3) →* Matrix (Fin data.nFace) (Fin data.nFace) K)
    (hT : Represents data T) (phi phi' : List V) (eD fD : List (List Nat))
    (hL : Layout data phi.length 6 4 eD fD) (hL' : Layout data phi'.length 6 4 eD fD)
    (i i' : Nat) (face face' ds ds' : List Nat) (hface : (faces 2 c.nodeTags)[i]? = some face)
    (hface' : (faces 2 c'.nodeTags)[i']? = some face') (hshare : face.Perm face')
    (hds : fD[i]? = some ds) (hds' : fD[i']? = some ds') (hov : ¬ Overridden bc i)
    (hov' : ¬ Overridden bc' i') (psi : List Nat → Fin data.nFace → V)
    (hphi : ∀ g, ReadsAs face (npSort face) g →
      block data.nFace phi ds = act (T g⁻¹) (psi (npSort face)))
    (hphi' : ∀ g, ReadsAs face' (npSort face') g →
      block data.nFace phi' ds' = act (T g⁻¹) (psi (npSort face'))) :
    ∃ r r', permuteAndTransform cells c bc data phi = .ok r ∧
      permuteAndTransform cells c' bc' data phi' = .ok r' ∧
      block data.nFace r ds = block data.nFace r' ds' := by
  obtain ⟨r, h1, h2⟩ := C28_sorted_functions_partial f cells h j c hc hd hn bc hb data T hT phi
    eD fD hL
  obtain ⟨r', h1', h2'⟩ := C28_sorted_functions_partial f cells h j' c' hc' hd' hn' bc' hb' data T
    hT phi' eD fD hL'
  have hl : c.nodeTags.length = 4 := by rw [(C02_sub_entities f cells h j c hc).1, hd]
  have hl' : c'.nodeTags.length = 4 := by rw [(C02_sub_entities f cells h j' c' hc').1, hd']
  obtain ⟨_, -, -, g3⟩ := C28_code_partial c bc hl hn hb
  obtain ⟨_, -, -, g3'⟩ := C28_code_partial c' bc' hl' hn' hb'
  obtain ⟨_, rot, ref, -, -, -, -, hg⟩ := g3 i face hface hov
  obtain ⟨_, rot', ref', -, -, -, -, hg'⟩ := g3' i' face' hface' hov'
  refine ⟨r, r', h1, h1', ?_⟩
  rw [h2 i face ds _ _ hface hds hov ((hg _).2 rfl) (hphi _ ((hg _).2 rfl)),
    h2' i' face' ds' _ _ hface' hds' hov' ((hg' _).2 rfl) (hphi' _ ((hg' _).2 rfl)),
    npSort_eq_iff.2 hshare]

/-! ### C29 -/

omit [CommRing K] [AddCommGroup V] [Module K V] in
/-- C29: in a triangle of a built mesh an edge is flagged exactly when the triangle traverses it in
the edge's own direction, and not flagged exactly when it traverses it backwards. -/
theorem C29_aligned (f : MeshFile) (cells : Cells) (h : buildConformalMesh f = .ok cells)
    (j : Nat) (c : Cell) (hc : Stored cells j c) (hd : c.dimension = 2) (hn : c.nodeTags.Nodup) :
    ∃ o ids, validateEdges2d cells c = .ok o ∧ o.length = 3 ∧ c.sub[1]? = some ids ∧
      ∀ (k : Nat) x id e, (faces 1 c.nodeTags)[k]? = some x → ids[k]? = some id →
        Stored cells id e → (o[k]? = some true ↔ x = e.nodeTags) ∧
          (o[k]? = some false ↔ x = e.nodeTags.reverse) := by
  obtain ⟨o, ids, h1, h2, h3, h4⟩ := edges2d_ok f cells h j c hc hd
  refine ⟨o, ids, h1, h2, h3, fun k x id e hx hid he => ?_⟩
  obtain ⟨g1, g2⟩ := h4 k x id e hx hid he
  have hm := List.mem_sublistsLen.1 (List.mem_of_getElem? hx)
  obtain ⟨a, b, rfl⟩ := List.length_eq_two.1 hm.2
  have hab : a ≠ b := by
    have := hn.sublist hm.1
    simpa using this
  obtain ⟨p, q, hpq⟩ := List.length_eq_two.1 (g2.length_eq.trans rfl)
  rw [hpq] at g2 g1 ⊢
  have hp : p ∈ [a, b] := g2.mem_iff.1 (by simp)
  have hq : q ∈ [a, b] := g2.mem_iff.1 (by simp)
  have hpq' : p ≠ q := by
    have := (g2.nodup_iff).2 (hn.sublist hm.1)
    simpa using this
  rw [g1]
  simp only [List.mem_cons, List.not_mem_nil, or_false] at hp hq
  rcases hp with rfl | rfl <;> rcases hq with rfl | rfl
  · exact absurd rfl hpq'
  · simp [hab]
  · simp [hab, hab.symm]
  · exact absurd rfl hpq'

omit [CommRing K] [AddCommGroup V] [Module K V] in
/-- C29: two triangles that share an edge have equal flags for it exactly when they traverse it in
the same direction. -/
theorem C29_shared_edge (f : MeshFile) (cells : Cells) (h : buildConformalMesh f = .ok cells)
    (j j' : Nat) (c c' : Cell) (hc : Stored cells j c) (hc' : Stored cells j' c')
    (hd : c.dimension = 2) (hd' : c'.dimension = 2) (hn : c.nodeTags.Nodup)
    (hn' : c'.nodeTags.Nodup) (o o' : List Bool) (ho : validateEdges2d cells c = .ok o)
    (ho' : validateEdges2d cells c' = .ok o') (k k' : Nat) (x x' : List Nat)
    (hx : (faces 1 c.nodeTags)[k]? = some x) (hx' : (faces 1 c'.nodeTags)[k']? = some x')
    (hshare : x.Perm x') : o[k]? = o'[k']? ↔ x = x' := by
  obtain ⟨o1, ids, h1, h2, h3, h4⟩ := C29_aligned f cells h j c hc hd hn
  obtain ⟨o1', ids', h1', h2', h3', h4'⟩ := C29_aligned f cells h j' c' hc' hd' hn'
  rw [ho] at h1; rw [ho'] at h1'
  obtain rfl : o = o1 := by simpa using h1
  obtain rfl : o' = o1' := by simpa using h1'
  obtain ⟨id, hid, hid'⟩ := C03_shared_face_same_id f cells h j j' c c' hc hc' 1 ids ids' h3 h3'
    k k' x x' hx hx' hshare
  obtain ⟨-, -, hsub⟩ := C02_sub_entities f cells h j c hc
  obtain ⟨ids2, hids2, hF⟩ := hsub 1 (by omega)
  rw [h3] at hids2
  obtain rfl : ids = ids2 := by simpa using hids2
  obtain ⟨y, -, e, he, -, -⟩ := forall₂_left hF (List.mem_of_getElem? hid)
  obtain ⟨a1, a2⟩ := h4 k x id e hx hid he
  obtain ⟨b1, b2⟩ := h4' k' x' id e hx' hid' he
  have hk : k < o.length := by
    rw [h2]
    have := (List.getElem?_eq_some_iff.1 hx).1
    have hl := (C02_sub_entities f cells h j c hc).1
    have : (faces 1 c.nodeTags).length = 3 := by
      simp [faces, List.length_sublistsLen, hl, hd]
    omega
  have hk' : k' < o'.length := by
    rw [h2']
    have := (List.getElem?_eq_some_iff.1 hx').1
    have hl := (C02_sub_entities f cells h j' c' hc').1
    have : (faces 1 c'.nodeTags).length = 3 := by
      simp [faces, List.length_sublistsLen, hl, hd']
    omega
  rw [List.getElem?_eq_getElem hk] at a1 a2 ⊢
  rw [List.getElem?_eq_getElem hk'] at b1 b2 ⊢
  cases hb : o[k] <;> cases hb' : o'[k'] <;> rw [hb] at a1 a2 <;> rw [hb'] at b1 b2
  · exact ⟨fun _ => (a2.1 rfl).trans (b2.1 rfl).symm, fun _ => rfl⟩
  · refine ⟨fun h => absurd h (by simp), fun h => absurd (a1.2 (h.trans (b1.1 rfl))) (by simp)⟩
  · refine ⟨fun h => absurd h (by simp), fun h => absurd (b1.2 (h.symm.trans (a1.1 rfl))) (by simp)⟩
  · exact ⟨fun _ => (a1.1 rfl).trans (b1.1 rfl).symm, fun _ => rfl⟩

/-- C29: the basis of a triangle is reflected on exactly the edges it traverses backwards; the
other functions are kept. -/
theorem C29_reflected (f : MeshFile) (cells : Cells) (h : buildConformalMesh f = .ok cells)
    (j : Nat) (c : Cell) (hc : Stored cells j c) (hd : c.dimension = 2) (bc : List Bool)
    (data : DofData K) (hid : data.identity = true → data.reflectEdge = 1) (phi : List V)
    (eD fD : List (List Nat)) (hL : Layout data phi.length 3 1 eD fD) :
    ∃ phi' ids, permuteAndTransform cells c bc data phi = .ok phi' ∧
      phi'.length = phi.length ∧ c.sub[1]? = some ids ∧
      (∀ a, a ∉ eD.flatten → phi'.getD a 0 = phi.getD a 0) ∧
      ∀ (k : Nat) x id e ds, (faces 1 c.nodeTags)[k]? = some x → ids[k]? = some id →
        Stored cells id e → eD[k]? = some ds →
        block data.nEdge phi' ds = if x = e.nodeTags then block data.nEdge phi ds
          else act data.reflectEdge (block data.nEdge phi ds) := by
  obtain ⟨phi', ids, h1, h2⟩ := permute2d_ok f cells h j c hc hd data hid phi eD fD hL
  exact ⟨phi', ids, by simp [permuteAndTransform, hd, h1], h2⟩

/-- C29: two triangles that share an edge end up with the same functions on it: if the basis of
each is `psi` (that of the edge's own direction), reversed when it traverses the edge
backwards, both get `psi`. -/
theorem C29_same_functions (f : MeshFile) (cells : Cells) (h : buildConformalMesh f = .ok cells)
    (j j' : Nat) (c c' : Cell) (hc : Stored cells j c) (hc' : Stored cells j' c')
    (hd : c.dimension = 2) (hd' : c'.dimension = 2) (bc bc' : List Bool)
    (data : DofData K) (hinv : data.reflectEdge * data.reflectEdge = 1)
    (hid : data.identity = true → data.reflectEdge = 1) (phi phi' : List V)
    (eD fD : List (List Nat)) (hL : Layout data phi.length 3 1 eD fD)
    (hL' : Layout data phi'.length 3 1 eD fD) (k k' : Nat) (x x' ds ds' : List Nat)
    (hx : (faces 1 c.nodeTags)[k]? = some x) (hx' : (faces 1 c'.nodeTags)[k']? = some x')
    (hshare : x.Perm x') (hds : eD[k]? = some ds) (hds' : eD[k']? = some ds')
    (psi : Fin data.nEdge → V)
    (hphi : ∀ id e, Stored cells id e → e.nodeTags.Perm x → block data.nEdge phi ds
      = if x = e.nodeTags then psi else act data.reflectEdge psi)
    (hphi' : ∀ id e, Stored cells id e → e.nodeTags.Perm x' → block data.nEdge phi' ds'
      = if x' = e.nodeTags then psi else act data.reflectEdge psi) :
    ∃ r r', permuteAndTransform cells c bc data phi = .ok r ∧
      permuteAndTransform cells c' bc' data phi' = .ok r' ∧
      block data.nEdge r ds = psi ∧ block data.nEdge r' ds' = psi := by
  obtain ⟨r, ids, h1, -, h3, -, h5⟩ := C29_reflected f cells h j c hc hd bc data hid phi eD fD hL
  obtain ⟨r', ids', h1', -, h3', -, h5'⟩ := C29_reflected f cells h j' c' hc' hd' bc' data hid phi'
    eD fD hL'
  obtain ⟨id, hidk, hidk'⟩ := C03_shared_face_same_id f cells h j j' c c' hc hc' 1 ids ids' h3 h3'
    k k' x x' hx hx' hshare
  obtain ⟨o, ids2, -, -, hids2, hp⟩ := edges2d_ok f cells h j c hc hd
  rw [h3] at hids2
  obtain rfl : ids = ids2 := by simpa using hids2
  obtain ⟨-, -, hsub⟩ := C02_sub_entities f cells h j c hc
  obtain ⟨ids2, hids2, hF⟩ := hsub 1 (by omega)
  rw [h3] at hids2
  obtain rfl : ids = ids2 := by simpa using hids2
  obtain ⟨y, -, e, he, -, -⟩ := forall₂_left hF (List.mem_of_getElem? hidk)
  have hpe := (hp k x id e hx hidk he).2
  refine ⟨r, r', h1, h1', ?_, ?_⟩
  · rw [h5 k x id e ds hx hidk he hds, hphi id e he hpe]
    split
    · rfl
    · rw [← act_mul, hinv, act_one]
  · rw [h5' k' x' id e ds' hx' hidk' he hds', hphi' id e he (hpe.trans hshare)]
    split
    · rfl
    · rw [← act_mul, hinv, act_one]

/-- C29 in three dimensions: the edges of a tetrahedron of a built mesh are flagged exactly when
the tetrahedron lists their nodes in increasing order, and the basis is reflected on the others
(the boundary treatment of faces does not matter here). -/
theorem C29_tetrahedron_edges (f : MeshFile) (cells : Cells)
    (h : buildConformalMesh f = .ok cells) (j : Nat) (c : Cell) (hc : Stored cells j c)
    (hd : c.dimension = 3) (hn : c.nodeTags.Nodup) (bc : List Bool) (hb : bc.length = 4)
    (data : DofData K) (T : Equiv.Perm (Fin 3) →* Matrix (Fin data.nFace) (Fin data.nFace) K)
    (hT : Represents data T) (phi : List V) (eD fD : List (List Nat))
    (hL : Layout data phi.length 6 4 eD fD) :
    ∃ o phi', validateEdges3d cells c = .ok o ∧
      permuteAndTransform cells c bc data phi = .ok phi' ∧ phi'.length = phi.length ∧
      (∀ a, a ∉ (fD ++ eD).flatten → phi'.getD a 0 = phi.getD a 0) ∧
      ∀ (k : Nat) x ds, (faces 1 c.nodeTags)[k]? = some x → eD[k]? = some ds →
        o[k]? = some (decide (x = npSort x)) ∧
        block data.nEdge phi' ds = if x = npSort x then block data.nEdge phi ds
          else act data.reflectEdge (block data.nEdge phi ds) := by
  obtain ⟨phi', h1, h2, h3, -, h5⟩ := permute3d_ok f cells h j c hc hd hn bc hb data T hT phi eD fD
    hL
  obtain ⟨o, g1, -, g3⟩ := edges3d_ok f cells h j c hc hd
  exact ⟨o, phi', g1, by simp [permuteAndTransform, hd, h1], h2, h3,
    fun k x ds hx hds => ⟨g3 k x hx, h5 k x ds hx hds⟩⟩

/-- Two triangles traversing their common edge in opposite directions: the mesh is accepted, the
edge is flagged in the first only, and cubic Lagrange data (two functions per edge, swapped by
the reflection) have a layout. -/
example :
    ∃ cells c c', buildConformalMesh ⟨4, [.triangle [(0, 1, 2), (2, 1, 3)] [1, 1]]⟩ = .ok cells ∧
      Stored cells 9 c ∧ Stored cells 10 c' ∧ c.dimension = 2 ∧ c'.dimension = 2 ∧
      c.nodeTags.Nodup ∧ c'.nodeTags.Nodup ∧
      validateEdges2d cells c = .ok [true, true, true] ∧
      validateEdges2d cells c' = .ok [true, true, false] ∧
      (faces 1 c.nodeTags)[0]? = some [1, 2] ∧ (faces 1 c'.nodeTags)[2]? = some [2, 1] :=
  ⟨_, _, _, rfl, rfl, rfl, rfl, rfl, by decide, by decide, rfl, rfl, rfl, rfl⟩

example : Layout (⟨false, 2, 1, !![0, 1; 1, 0], 1, 1,
    [[[0], [1], [2]], [[3, 4], [5, 6], [7, 8]], [[9]]]⟩ : DofData ℚ) 10 3 1
    [[3, 4], [5, 6], [7, 8]] [[9]] :=
  ⟨rfl, rfl, rfl, rfl, by simp, by simp, by decide, by decide⟩

/-- The sign representation: one function per face, whose sign changes under a reflection. -/
example : ∃ T : Equiv.Perm (Fin 3) →* Matrix (Fin 1) (Fin 1) ℚ,
    Represents (⟨false, 1, 1, 1, 1, -1, []⟩ : DofData ℚ) T := by
  refine ⟨(Matrix.scalar (Fin 1)).toMonoidHom.comp
    (((Int.castRingHom ℚ).toMonoidHom.comp (Units.coeHom ℤ)).comp Equiv.Perm.sign), ?_, ?_, ?_, ?_⟩
  · simp [rotation]
  · ext i j; fin_cases i; fin_cases j; simp [reflection]
  · simp
  · simp

end

#print axioms C28_code_partial
#print axioms C28_codes_distinct
#print axioms C28_boundary_overridden_violated
#print axioms C28_transformation
#print axioms C28_sorted_functions_partial
#print axioms C28_shared_face_partial
#print axioms C29_aligned
#print axioms C29_shared_edge
#print axioms C29_reflected
#print axioms C29_same_functions
#print axioms C29_tetrahedron_edges

end Verif.Orient
