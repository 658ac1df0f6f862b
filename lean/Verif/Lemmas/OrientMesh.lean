/-
Lemmas for C28 and C29 about the cells of a built mesh.
-/
import Verif.Lemmas.Orientation
import Verif.Props.Mesh
import Verif.Lemmas.MeshWF

namespace Verif.Orient
open MeshBuild MeshGraph Trace

theorem validateFaces_ok {c : Cell} {bc : List Bool} (hl : c.nodeTags.length = 4)
    (hn : c.nodeTags.Nodup) (hb : bc.length = 4) :
    ∃ l, validateFaces3d c bc = .ok l ∧ l.length = 4 ∧
      ∀ (i : Nat) face, (faces 2 c.nodeTags)[i]? = some face →
        ∃ o rot ref, l[i]? = some (o, rot, ref) ∧ rot < 3 ∧ ref < 2 ∧
          (¬ Overridden bc i → (o = true ↔ npSort face = face) ∧
            ReadsAs face (npSort face) (codePerm rot ref)) ∧
          (Overridden bc i → o = false ∧ ref = 1) := by
  match ht : c.nodeTags, hl with
  | [a, b, d, e], _ =>
  rw [ht] at hn
  have hsub : ∀ x ∈ faces 2 [a, b, d, e], x.length = 3 ∧ x.Nodup := by
    intro x hx
    have := List.mem_sublistsLen.1 hx
    exact ⟨this.2, hn.sublist this.1⟩
  have hf : faces 2 [a, b, d, e] = [[b, d, e], [a, d, e], [a, b, e], [a, b, d]] := rfl
  rw [hf] at hsub ⊢
  have one : ∀ (i : Nat) con face, i < 4 → fancy [a, b, d, e] con = .ok face →
      face ∈ [[b, d, e], [a, d, e], [a, b, e], [a, b, d]] →
      ∃ o rot ref, validateFace [a, b, d, e] bc i con = .ok (o, rot, ref) ∧ rot < 3 ∧ ref < 2 ∧
      (¬ Overridden bc i → (o = true ↔ npSort face = face) ∧
        ReadsAs face (npSort face) (codePerm rot ref)) ∧
      (Overridden bc i → o = false ∧ ref = 1) := fun i con face hi hc hm =>
    validateFace_ok hc (hsub face hm).1 (hsub face hm).2 (by omega)
  obtain ⟨o0, r0, s0, h0, h0'⟩ := one 0 [1, 2, 3] [b, d, e] (by omega) rfl (by simp)
  obtain ⟨o1, r1, s1, h1, h1'⟩ := one 1 [0, 2, 3] [a, d, e] (by omega) rfl (by simp)
  obtain ⟨o2, r2, s2, h2, h2'⟩ := one 2 [0, 1, 3] [a, b, e] (by omega) rfl (by simp)
  obtain ⟨o3, r3, s3, h3, h3'⟩ := one 3 [0, 1, 2] [a, b, d] (by omega) rfl (by simp)
  refine ⟨[(o0, r0, s0), (o1, r1, s1), (o2, r2, s2), (o3, r3, s3)], ?_, rfl, ?_⟩
  · apply mapRes_of_forall₂
    rw [ht]
    exact .cons h0 (.cons h1 (.cons h2 (.cons h3 .nil)))
  · intro i face hi
    have hlt : i < 4 := (List.getElem?_eq_some_iff.1 hi).1
    interval_cases i <;> simp only [List.getElem?_cons_zero, List.getElem?_cons_succ,
      Option.some.injEq] at hi <;> subst hi
    exacts [⟨_, _, _, rfl, h0'⟩, ⟨_, _, _, rfl, h1'⟩, ⟨_, _, _, rfl, h2'⟩, ⟨_, _, _, rfl, h3'⟩]

theorem range_zip_fst {α : Type} (l : List α) (n : Nat) (h : l.length = n) :
    (((List.range n).zip l).map Prod.fst) = List.range n := by
  rw [List.map_fst_zip (by simp [h])]

theorem mem_range_zip {α : Type} {l : List α} {n i : Nat} {x : α} (h : l[i]? = some x)
    (hl : l.length = n) : (i, x) ∈ (List.range n).zip l := by
  obtain ⟨hi, hx⟩ := List.getElem?_eq_some_iff.1 h
  rw [List.mem_iff_getElem]
  refine ⟨i, by simp; omega, ?_⟩
  simp [hx]

theorem edges3d_ok (f : MeshFile) (cells : Cells) (h : buildConformalMesh f = .ok cells)
    (j : Nat) (c : Cell) (hc : Stored cells j c) (hd : c.dimension = 3) :
    ∃ o, validateEdges3d cells c = .ok o ∧ o.length = 6 ∧
      ∀ (k : Nat) x, (faces 1 c.nodeTags)[k]? = some x → o[k]? = some (decide (x = npSort x)) := by
  obtain ⟨hl, -, hsub⟩ := C02_sub_entities f cells h j c hc
  obtain ⟨ids, hids, hF⟩ := hsub 1 (by omega)
  match ht : c.nodeTags, (by omega : c.nodeTags.length = 4) with
  | [a, b, d, e], _ =>
  have hf : faces 1 [a, b, d, e] = [[d, e], [b, e], [b, d], [a, e], [a, d], [a, b]] := rfl
  rw [ht, hf] at hF
  rw [hf]
  match ids, hF with
  | [i0, i1, i2, i3, i4, i5], hF =>
  simp only [List.forall₂_cons, List.forall₂_nil_right_iff, and_true] at hF
  obtain ⟨⟨s0, t0, -, p0⟩, ⟨s1, t1, -, p1⟩, ⟨s2, t2, -, p2⟩, ⟨s3, t3, -, p3⟩, ⟨s4, t4, -, p4⟩,
    ⟨s5, t5, -, p5⟩⟩ := hF
  refine ⟨[decide ([d, e] = npSort [d, e]), decide ([b, e] = npSort [b, e]),
    decide ([b, d] = npSort [b, d]), decide ([a, e] = npSort [a, e]),
    decide ([a, d] = npSort [a, d]), decide ([a, b] = npSort [a, b])], ?_, rfl, ?_⟩
  · apply mapRes_of_forall₂
    rw [ht]
    simp only [Cell.subIds, getIdx_of hids, Res.bind_ok]
    have one : ∀ {s : Cell} {id : Nat} {x : List Nat}, Stored cells id s → s.nodeTags.Perm x →
        cellAt cells id = .ok s ∧ npSort s.nodeTags = npSort x := by
      intro s id x hs hp
      exact ⟨by unfold cellAt; rw [show cells[id]? = some (some s) from hs], npSort_eq_iff.2 hp⟩
    refine .cons ?_ (.cons ?_ (.cons ?_ (.cons ?_ (.cons ?_ (.cons ?_ .nil)))))
    · simp [fancy, mapRes, getIdx, (one t0 p0).1, (one t0 p0).2]
    · simp [fancy, mapRes, getIdx, (one t1 p1).1, (one t1 p1).2]
    · simp [fancy, mapRes, getIdx, (one t2 p2).1, (one t2 p2).2]
    · simp [fancy, mapRes, getIdx, (one t3 p3).1, (one t3 p3).2]
    · simp [fancy, mapRes, getIdx, (one t4 p4).1, (one t4 p4).2]
    · simp [fancy, mapRes, getIdx, (one t5 p5).1, (one t5 p5).2]
  · intro k x hk
    have hlt : k < 6 := (List.getElem?_eq_some_iff.1 hk).1
    interval_cases k <;> simp only [List.getElem?_cons_zero, List.getElem?_cons_succ,
      Option.some.injEq] at hk <;> subst hk <;> rfl

theorem edges2d_ok (f : MeshFile) (cells : Cells) (h : buildConformalMesh f = .ok cells)
    (j : Nat) (c : Cell) (hc : Stored cells j c) (hd : c.dimension = 2) :
    ∃ o ids, validateEdges2d cells c = .ok o ∧ o.length = 3 ∧ c.sub[1]? = some ids ∧
      ∀ (k : Nat) x id e, (faces 1 c.nodeTags)[k]? = some x → ids[k]? = some id →
        Stored cells id e → o[k]? = some (decide (x = e.nodeTags)) ∧ e.nodeTags.Perm x := by
  obtain ⟨hl, -, hsub⟩ := C02_sub_entities f cells h j c hc
  obtain ⟨ids, hids, hF⟩ := hsub 1 (by omega)
  match ht : c.nodeTags, (by omega : c.nodeTags.length = 3) with
  | [a, b, d], _ =>
  have hf : faces 1 [a, b, d] = [[b, d], [a, d], [a, b]] := rfl
  rw [ht, hf] at hF
  rw [hf]
  match ids, hF with
  | [i0, i1, i2], hF =>
  simp only [List.forall₂_cons, List.forall₂_nil_right_iff, and_true] at hF
  obtain ⟨⟨s0, t0, -, p0⟩, ⟨s1, t1, -, p1⟩, ⟨s2, t2, -, p2⟩⟩ := hF
  refine ⟨[decide ([b, d] = s0.nodeTags), decide ([a, d] = s1.nodeTags),
    decide ([a, b] = s2.nodeTags)], _, ?_, rfl, hids, ?_⟩
  · unfold validateEdges2d
    rw [ht, show mapRes (fancy [a, b, d]) [[1, 2], [0, 2], [0, 1]]
      = .ok [[b, d], [a, d], [a, b]] from rfl, Res.bind_ok]
    apply mapRes_of_forall₂
    simp only [Cell.subIds, getIdx_of hids, Res.bind_ok]
    have one : ∀ {s : Cell} {id : Nat}, Stored cells id s → cellAt cells id = .ok s := by
      intro s id hs
      unfold cellAt; rw [show cells[id]? = some (some s) from hs]
    refine .cons ?_ (.cons ?_ (.cons ?_ .nil))
    · simp [getIdx, one t0]
    · simp [getIdx, one t1]
    · simp [getIdx, one t2]
  · intro k x id e hk hid he
    have uniq : ∀ {s : Cell} {i : Nat}, Stored cells i s → i = id → s = e := by
      intro s i hs hi
      subst hi
      have := hs.symm.trans he
      simpa using this
    have hlt : k < 3 := (List.getElem?_eq_some_iff.1 hk).1
    interval_cases k <;> simp only [List.getElem?_cons_zero, List.getElem?_cons_succ,
      Option.some.injEq] at hk hid <;> subst hk
    · obtain rfl := uniq t0 hid; exact ⟨rfl, p0⟩
    · obtain rfl := uniq t1 hid; exact ⟨rfl, p1⟩
    · obtain rfl := uniq t2 hid; exact ⟨rfl, p2⟩

section
variable {K V : Type} [CommRing K] [AddCommGroup V] [Module K V]

/-- Blocks do not change when the functions at their positions do not. -/
theorem block_congr {n : Nat} {phi phi' : List V} {ds : List Nat} (hl : ds.length = n)
    (h : ∀ a ∈ ds, phi'.getD a 0 = phi.getD a 0) : block n phi' ds = block n phi ds := by
  funext j
  have hj : (j : Nat) < ds.length := by rw [hl]; exact j.2
  apply h
  rw [List.getD_eq_getElem?_getD, List.getElem?_eq_getElem hj]
  exact List.getElem_mem hj

theorem range_zip_lt {α : Type} {l : List α} {n m : Nat} {e : Nat × α} (h : n = m)
    (he : e ∈ (List.range n).zip l) : e.1 < m := by
  have := (List.of_mem_zip he).1
  rw [List.mem_range] at this
  omega

/-- The whole of `_permute_and_transform_3d`, block by block. -/
theorem permute3d_ok (f : MeshFile) (cells : Cells) (h : buildConformalMesh f = .ok cells)
    (j : Nat) (c : Cell) (hc : Stored cells j c) (hd : c.dimension = 3)
    (hn : c.nodeTags.Nodup) (bc : List Bool) (hb : bc.length = 4) (data : DofData K)
    (T : Equiv.Perm (Fin 3) →* Matrix (Fin data.nFace) (Fin data.nFace) K)
    (hT : Represents data T) (phi : List V) (eD fD : List (List Nat))
    (hL : Layout data phi.length 6 4 eD fD) :
    ∃ phi', permute3d cells c bc data phi = .ok phi' ∧ phi'.length = phi.length ∧
      (∀ a, a ∉ (fD ++ eD).flatten → phi'.getD a 0 = phi.getD a 0) ∧
      (∀ (i : Nat) face ds, (faces 2 c.nodeTags)[i]? = some face → fD[i]? = some ds →
        ∃ rot < 3, ∃ ref < 2, (¬ Overridden bc i →
          ReadsAs face (npSort face) (codePerm rot ref)) ∧ (Overridden bc i → ref = 1) ∧
          block data.nFace phi' ds = act (T (codePerm rot ref)) (block data.nFace phi ds)) ∧
      ∀ (k : Nat) x ds, (faces 1 c.nodeTags)[k]? = some x → eD[k]? = some ds →
        block data.nEdge phi' ds = if x = npSort x then block data.nEdge phi ds
          else act data.reflectEdge (block data.nEdge phi ds) := by
  have hl : c.nodeTags.length = 4 := by
    rw [(C02_sub_entities f cells h j c hc).1, hd]
  obtain ⟨l, h1, h2, h3⟩ := validateFaces_ok hl hn hb
  obtain ⟨o, g1, g2, g3⟩ := edges3d_ok f cells h j c hc hd
  unfold permute3d
  by_cases hid : data.identity = true
  · rw [if_pos hid]
    refine ⟨phi, rfl, rfl, fun _ _ => rfl, ?_, ?_⟩
    · intro i face ds hface hds
      obtain ⟨o, rot, ref, h4, h5, h6, h7, h8⟩ := h3 i face hface
      refine ⟨rot, h5, ref, h6, fun hov => (h7 hov).2, fun hov => (h8 hov).2, ?_⟩
      rw [(hT.identity hid).1, act_one]
    · intro k x ds _ _
      rw [(hT.identity hid).2, act_one, ite_self]
  · rw [if_neg hid]
    simp only [h1, Res.bind_ok, getIdx_of hL.faces, g1, getIdx_of hL.edges]
    have hnd := hL.nodup
    rw [List.flatten_append, List.nodup_append] at hnd
    obtain ⟨hnF, hnE, hdis⟩ := hnd
    have hrF : ∀ a ∈ fD.flatten, a < phi.length := fun a ha => hL.range a
      (by rw [List.flatten_append]; exact List.mem_append_left _ ha)
    have hrE : ∀ a ∈ eD.flatten, a < phi.length := fun a ha => hL.range a
      (by rw [List.flatten_append]; exact List.mem_append_right _ ha)
    obtain ⟨r, p1, p2, p3, -, p5⟩ := applyLoop_ok fD hL.faceLen hnF
      ((List.range 4).zip (l.map fun p => (p.1, faceTransformation data p.2.1 p.2.2))) phi hrF
      (by rw [range_zip_fst _ _ (by simp [h2])]; exact List.nodup_range)
      (fun e he => range_zip_lt hL.nFaces.symm he)
    obtain ⟨r', q1, q2, q3, -, q5⟩ := applyLoop_ok eD hL.edgeLen hnE
      ((List.range 6).zip (o.map fun b => (b, data.reflectEdge))) r
      (fun a ha => by rw [p2]; exact hrE a ha)
      (by rw [range_zip_fst _ _ (by simp [g2])]; exact List.nodup_range)
      (fun e he => range_zip_lt hL.nEdges.symm he)
    refine ⟨r', by rw [p1, Res.bind_ok, q1], by rw [q2, p2], ?_, ?_, ?_⟩
    · intro a ha
      rw [List.flatten_append, List.mem_append, not_or] at ha
      rw [q3 a ha.2, p3 a ha.1]
    · intro i face ds hface hds
      obtain ⟨o, rot, ref, h4, h5, h6, h7, h8⟩ := h3 i face hface
      refine ⟨rot, h5, ref, h6, fun hov => (h7 hov).2, fun hov => (h8 hov).2, ?_⟩
      have hdsm := List.mem_of_getElem? hds
      rw [block_congr (hL.faceLen ds hdsm) (fun a ha => q3 a (fun hE =>
        hdis a (List.mem_flatten.2 ⟨ds, hdsm, ha⟩) a hE rfl))]
      have hmem : (i, o, faceTransformation data rot ref) ∈
          (List.range 4).zip (l.map fun p => (p.1, faceTransformation data p.2.1 p.2.2)) :=
        mem_range_zip (by rw [List.getElem?_map, h4]; rfl) (by simp [h2])
      rw [p5 _ hmem ds hds]
      have htr : faceTransformation data rot ref = T (codePerm rot ref) := by
        rw [faceTransformation_eq, codePerm, map_mul, map_pow, map_pow, hT.rotate, hT.reflect]
      split
      · rename_i ho
        have ho' : o = true := ho
        have hov : ¬ Overridden bc i := fun hov => by
          have := (h8 hov).1; rw [ho'] at this; exact absurd this (by decide)
        have hs := (h7 hov).1.1 ho'
        have hm := List.mem_sublistsLen.1 (List.mem_of_getElem? hface)
        have hone : ReadsAs face (npSort face) 1 := ⟨hm.2, fun j => by rw [hs]; rfl⟩
        have := readsAs_unique (by simp [hm.2])
          ((npSort_perm face).nodup_iff.2 (hn.sublist hm.1)) (h7 hov).2 hone
        rw [this, map_one, act_one]
      · rw [htr]
    · intro k x ds hx hds
      have hdsm := List.mem_of_getElem? hds
      have hmem : (k, decide (x = npSort x), data.reflectEdge) ∈
          (List.range 6).zip (o.map fun b => (b, data.reflectEdge)) :=
        mem_range_zip (by rw [List.getElem?_map, g3 k x hx]; rfl) (by simp [g2])
      rw [q5 _ hmem ds hds]
      rw [block_congr (phi := phi) (phi' := r) (hL.edgeLen ds hdsm) (fun a ha => p3 a (fun hF =>
        hdis a hF a (List.mem_flatten.2 ⟨ds, hdsm, ha⟩) rfl))]
      simp only [decide_eq_true_eq]

/-- The whole of `_permute_and_transform_2d`, block by block. -/
theorem permute2d_ok (f : MeshFile) (cells : Cells) (h : buildConformalMesh f = .ok cells)
    (j : Nat) (c : Cell) (hc : Stored cells j c) (hd : c.dimension = 2) (data : DofData K)
    (hid : data.identity = true → data.reflectEdge = 1) (phi : List V)
    (eD fD : List (List Nat)) (hL : Layout data phi.length 3 1 eD fD) :
    ∃ phi' ids, permute2d cells c data phi = .ok phi' ∧ phi'.length = phi.length ∧
      c.sub[1]? = some ids ∧
      (∀ a, a ∉ eD.flatten → phi'.getD a 0 = phi.getD a 0) ∧
      ∀ (k : Nat) x id e ds, (faces 1 c.nodeTags)[k]? = some x → ids[k]? = some id →
        Stored cells id e → eD[k]? = some ds →
        block data.nEdge phi' ds = if x = e.nodeTags then block data.nEdge phi ds
          else act data.reflectEdge (block data.nEdge phi ds) := by
  obtain ⟨o, ids, g1, g2, hids, g3⟩ := edges2d_ok f cells h j c hc hd
  unfold permute2d
  by_cases hi : data.identity = true
  · rw [if_pos hi]
    refine ⟨phi, ids, rfl, rfl, hids, fun _ _ => rfl, ?_⟩
    intro k x id e ds _ _ _ _
    rw [hid hi, act_one, ite_self]
  · rw [if_neg hi]
    simp only [Res.bind_ok, g1, getIdx_of hL.edges]
    have hnd := hL.nodup
    rw [List.flatten_append, List.nodup_append] at hnd
    obtain ⟨-, hnE, -⟩ := hnd
    have hrE : ∀ a ∈ eD.flatten, a < phi.length := fun a ha => hL.range a
      (by rw [List.flatten_append]; exact List.mem_append_right _ ha)
    obtain ⟨r', q1, q2, q3, -, q5⟩ := applyLoop_ok eD hL.edgeLen hnE
      ((List.range 3).zip (o.map fun b => (b, data.reflectEdge))) phi hrE
      (by rw [range_zip_fst _ _ (by simp [g2])]; exact List.nodup_range)
      (fun e he => range_zip_lt hL.nEdges.symm he)
    refine ⟨r', ids, q1, q2, hids, q3, ?_⟩
    intro k x id e ds hx hidk he hds
    have hmem : (k, decide (x = e.nodeTags), data.reflectEdge) ∈
        (List.range 3).zip (o.map fun b => (b, data.reflectEdge)) :=
      mem_range_zip (by rw [List.getElem?_map, (g3 k x id e hx hidk he).1]; rfl) (by simp [g2])
    rw [q5 _ hmem ds hds]
    simp only [decide_eq_true_eq]

end

end Verif.Orient
