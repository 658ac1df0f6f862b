/- Meshes produced by `build_conformal_mesh` are well-formed (when no slot is left empty). -/
import Verif.Spec.MeshGraph
import Verif.Lemmas.MeshCount

namespace Verif.MeshGraph
open MeshBuild

theorem forall₂_left {α β : Type} {R : α → β → Prop} {l : List α} {m : List β}
    (h : List.Forall₂ R l m) {a : α} (ha : a ∈ l) : ∃ b ∈ m, R a b := by
  induction h with
  | nil => simp at ha
  | cons hr _ ih =>
    rcases List.mem_cons.1 ha with rfl | ha
    · exact ⟨_, by simp, hr⟩
    · obtain ⟨b, hb, hr⟩ := ih ha; exact ⟨b, by simp [hb], hr⟩

theorem forall₂_right {α β : Type} {R : α → β → Prop} {l : List α} {m : List β}
    (h : List.Forall₂ R l m) {b : β} (hb : b ∈ m) : ∃ a ∈ l, R a b := by
  obtain ⟨a, ha, hr⟩ := forall₂_left h.flip hb
  exact ⟨a, ha, hr⟩

theorem faces_ne_nil {e : Nat} {nodes : List Nat} (h : e + 1 ≤ nodes.length) :
    faces e nodes ≠ [] := by
  unfold faces
  split
  · intro hn
    have : nodes = [] := by simpa using hn
    rw [this] at h; simp at h
  · intro hn
    have := List.length_sublistsLen (e + 1) nodes
    rw [hn] at this
    exact absurd this.symm (Nat.choose_pos h).ne'

theorem faces_self {e : Nat} {nodes : List Nat} (h : nodes.length = e + 1) :
    faces e nodes = [nodes] := by
  unfold faces
  split
  · rename_i he; subst he
    obtain ⟨a, rfl⟩ := List.length_eq_one_iff.1 h
    rfl
  · rw [← h]; exact List.sublistsLen_length nodes

theorem sublist_eq_filter {l1 l : List Nat} (hs : l1.Sublist l) (hn : l.Nodup) :
    l1 = l.filter (· ∈ l1) := by
  induction hs with
  | slnil => rfl
  | @cons l1 l a hs ih =>
    rw [List.nodup_cons] at hn
    rw [List.filter_cons_of_neg (by simpa using fun h => hn.1 (hs.subset h))]
    exact ih hn.2
  | @cons_cons l1 l a hs ih =>
    rw [List.nodup_cons] at hn
    rw [List.filter_cons_of_pos (by simp)]
    congr 1
    rw [ih hn.2]
    apply List.filter_congr
    intro x hx
    have hxa : x ≠ a := fun h => hn.1 (h ▸ hx)
    simp [hx, hxa]

theorem faces_pairwise {e : Nat} {nodes : List Nat} (hn : nodes.Nodup) :
    (faces e nodes).Pairwise fun x y => ¬ x.Perm y := by
  unfold faces
  split
  · rw [List.pairwise_map]
    exact hn.imp fun h hp => h (by simpa using hp)
  · have h1 := List.nodup_sublistsLen (e + 1) hn
    refine List.Pairwise.imp_of_mem ?_ h1
    intro x y hx hy hxy hp
    have h1 := sublist_eq_filter (List.mem_sublistsLen.1 hx).1 hn
    have h2 := sublist_eq_filter (List.mem_sublistsLen.1 hy).1 hn
    apply hxy
    rw [h1, h2]
    apply List.filter_congr
    intro z _
    simp [hp.mem_iff]

theorem wellFormed_of_build {f : MeshFile} {cells : Cells} (h : buildConformalMesh f = .ok cells)
    (hfill : ∀ i < cells.length, ∃ c, Stored cells i c) : WellFormed cells := by
  obtain ⟨E, hE, hI⟩ := build_inv h
  refine ⟨hfill, fun i c hc => (hI.all.good i c hc).id,
    fun i c hc => (hE.get_bounds (hI.all.good i c hc).num).1,
    fun i c hc => (hI.all.good i c hc).subLen, ?_, ?_, ?_⟩
  · intro i c hc e ids he id hid
    have hg := (hI.all.good i c hc).subs e ids he
    obtain ⟨x, hx, hp⟩ := forall₂_left hg hid
    obtain ⟨s, hs, hd, -⟩ := Pointed.cell hE hI.all hp
    exact ⟨s, hs, by rw [hd, (mem_faces hx).1]; omega⟩
  · intro i c hc ids hids hnil
    have hg := hI.all.good i c hc
    obtain ⟨e, he, rfl⟩ := List.mem_iff_getElem.1 hids
    have hl := (hg.subs e _ (List.getElem?_eq_getElem he)).length_eq
    rw [hnil] at hl
    refine faces_ne_nil (e := e) (nodes := c.nodeTags) ?_ (List.length_eq_zero_iff.1 hl.symm)
    rw [hg.nodes, ← hg.subLen]; exact he
  · intro i c hc
    have hg := hI.all.good i c hc
    have hlt : c.dimension < c.sub.length := by rw [hg.subLen]; omega
    have hsub := hg.subs _ _ (List.getElem?_eq_getElem hlt)
    rw [faces_self hg.nodes] at hsub
    rw [List.getElem?_eq_getElem hlt]
    generalize c.sub[c.dimension] = ids at hsub
    obtain ⟨id, hp, hids⟩ : ∃ id, Pointed E cells c.nodeTags id ∧ ids = [id] := by
      cases hsub with
      | cons hp hr => cases hr; exact ⟨_, hp, rfl⟩
    have h1 := hp.1
    rw [hg.nodes, Nat.add_sub_cancel, hg.num] at h1
    simp at h1
    rw [hids, h1]

theorem subNodup_of_build {f : MeshFile} {cells : Cells} (h : buildConformalMesh f = .ok cells)
    (hf : ∀ p ∈ f.tagged, p.1.Nodup) : SubNodup cells := by
  obtain ⟨E, hE, hI⟩ := build_inv h
  intro i c hc ids hids
  have hg := hI.all.good i c hc
  obtain ⟨e, he, rfl⟩ := List.mem_iff_getElem.1 hids
  have hsub := hg.subs e _ (List.getElem?_eq_getElem he)
  have hnd : c.nodeTags.Nodup := by
    obtain ⟨p, hp, -, hs⟩ := hI.origin i c hc
    obtain ⟨y, hy, hys⟩ := hs
    exact hy.nodup_iff.1 (hys.nodup (hf p hp))
  have hpw := faces_pairwise (e := e) hnd
  rw [List.nodup_iff_pairwise_ne, List.pairwise_iff_getElem]
  intro a b ha hb hab heq
  have hla : a < (faces e c.nodeTags).length := by rw [← hsub.length_eq]; exact ha
  have hlb : b < (faces e c.nodeTags).length := by rw [← hsub.length_eq]; exact hb
  have p1 := List.Forall₂.get hsub ha hla
  have p2 := List.Forall₂.get hsub hb hlb
  simp only [List.get_eq_getElem] at p1 p2
  rw [← heq] at p2
  have := (hE.get_inj p1.1 p2.1).2
  exact List.pairwise_iff_getElem.1 hpw a b hla hlb hab (npSort_eq_iff.1 this)

theorem subClosed_of_build {f : MeshFile} {cells : Cells}
    (h : buildConformalMesh f = .ok cells) : SubClosed cells := by
  obtain ⟨E, hE, hI⟩ := build_inv h
  rintro i c j s hc hs ⟨ids, hids, hj⟩ e jds he
  have hg := hI.all.good i c hc
  have hgs := hI.all.good j s hs
  obtain ⟨d, hd, rfl⟩ := List.mem_iff_getElem.1 hids
  obtain ⟨x, hx, hp⟩ := forall₂_left (hg.subs d _ (List.getElem?_eq_getElem hd)) hj
  obtain ⟨s', hs', -, hperm⟩ := Pointed.cell hE hI.all hp
  have hss : s' = s := by
    unfold Stored at hs; rw [hs] at hs'; simpa using hs'.symm
  subst hss
  have hle := (mem_faces hx).2.length_le
  have hpl := hperm.length_eq
  have hel : e < s'.sub.length := (List.getElem?_eq_some_iff.1 he).1
  have hlt : e < c.sub.length := by
    rw [hgs.subLen, ← hgs.nodes] at hel
    rw [hg.subLen, ← hg.nodes]; omega
  refine ⟨c.sub[e], List.getElem?_eq_getElem hlt, ?_⟩
  intro y hy
  obtain ⟨z, hz, hpz⟩ := forall₂_left (hgs.subs e jds he) hy
  have hzf := mem_faces hz
  have hzc : z.Subperm c.nodeTags := hzf.2.trans (hperm.subperm.trans (mem_faces hx).2)
  obtain ⟨w, hw, hzw⟩ := (subperm_iff_mem_faces hzf.1).1 hzc
  obtain ⟨k, hk, hpk⟩ := forall₂_right (hg.subs e _ (List.getElem?_eq_getElem hlt)) hw
  have h1 := hpz.1
  have h2 := hpk.1
  rw [← npSort_eq_iff.2 hzw, ← hzw.length_eq, h1] at h2
  simp at h2
  rw [h2]; exact hk

end Verif.MeshGraph
