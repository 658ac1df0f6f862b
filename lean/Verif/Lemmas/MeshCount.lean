/- Counting entities and presence of faces. -/
import Verif.Lemmas.MeshBuild
import Mathlib.Data.Finset.Card

namespace Verif.MeshBuild

theorem entities_card (f : MeshFile) {e : Nat} (he : e ≠ 0) :
    (f.entities e).card = (entityKeys f e).dedup.length := by
  have h1 : (entityKeys f e).dedup.length = (entityKeys f e).toFinset.card :=
    (List.card_toFinset _).symm
  have h2 : f.entities e = (entityKeys f e).toFinset.image Multiset.ofList := by
    ext m
    simp only [MeshFile.entities, List.mem_toFinset, List.mem_map, List.mem_flatMap,
      Finset.mem_image, mem_entityKeys he]
    constructor
    · rintro ⟨y, ⟨s, hs, hy⟩, rfl⟩
      exact ⟨npSort y, ⟨s, hs, y, hy, rfl⟩, Multiset.coe_eq_coe.2 (npSort_perm y)⟩
    · rintro ⟨k, ⟨s, hs, y, hy, rfl⟩, rfl⟩
      exact ⟨y, ⟨s, hs, hy⟩, (Multiset.coe_eq_coe.2 (npSort_perm y)).symm⟩
  rw [h1, h2, Finset.card_image_of_injOn]
  intro a ha b hb hab
  simp only [Finset.mem_coe, List.mem_toFinset, mem_entityKeys he] at ha hb
  obtain ⟨_, _, y, _, rfl⟩ := ha
  obtain ⟨_, _, z, _, rfl⟩ := hb
  have := npSort_eq_iff.2 (Multiset.coe_eq_coe.1 hab)
  simpa using this

theorem EntsOK.off_eq {f : MeshFile} {E : Ents} (hE : EntsOK f E) {d : Nat} (hd : d ≤ 4) :
    EntsOK.off E d = f.start d := by
  have l1 : E.e1.length = (f.entities 1).card := by
    rw [entities_card f (by omega)]; exact hE.e1.length_eq
  have l2 : E.e2.length = (f.entities 2).card := by
    rw [entities_card f (by omega)]; exact hE.e2.length_eq
  have l3 : E.e3.length = (f.entities 3).card := by
    rw [entities_card f (by omega)]; exact hE.e3.length_eq
  match d, hd with
  | 0, _ => rfl
  | 1, _ => exact hE.len0
  | 2, _ => simp [EntsOK.off, MeshFile.start, hE.len0, l1]
  | 3, _ => simp [EntsOK.off, MeshFile.start, hE.len0, l1, l2]
  | 4, _ => simp [EntsOK.off, MeshFile.start, Ents.count, hE.len0, l1, l2, l3]

theorem entities_high (f : MeshFile) {e : Nat} (he : 4 ≤ e) : (f.entities e).card = 0 := by
  rw [entities_card f (by omega)]
  match e, he with
  | n + 4, _ => rfl

/-- All faces of a stored cell are stored. -/
theorem face_pointed {E : Ents} {cells : Cells} (hG : AllGood E cells) {i : Nat} {c : Cell}
    (hc : cells[i]? = some (some c)) {x : List Nat} (hx : IsFaceOf x c.nodeTags) :
    ∃ id, Pointed E cells x id := by
  have hg := hG.good _ _ hc
  have hl0 : x.length ≠ 0 := fun h => hx.1 (List.length_eq_zero_iff.1 h)
  have hle := hx.2.length_le
  rw [hg.nodes] at hle
  obtain ⟨y, hy, hp⟩ := (subperm_iff_mem_faces (e := x.length - 1) (by omega)).1 hx.2
  have hlt : x.length - 1 < c.sub.length := by rw [hg.subLen]; omega
  have h := hg.subs (x.length - 1) _ (List.getElem?_eq_getElem hlt)
  obtain ⟨j, hj, hjv⟩ := List.mem_iff_getElem.1 hy
  have h2 := List.Forall₂.get h (i := j) (by rw [h.length_eq]; exact hj) hj
  simp only [List.get_eq_getElem, hjv] at h2
  exact ⟨_, h2.congr hp.symm⟩

theorem Pointed.cell {f : MeshFile} {E : Ents} (hE : EntsOK f E) {cells : Cells}
    (hG : AllGood E cells) {x : List Nat} {id : Nat} (hp : Pointed E cells x id) :
    ∃ s, cells[id]? = some (some s) ∧ s.dimension = x.length - 1 ∧ s.nodeTags.Perm x := by
  obtain ⟨h1, s, hs⟩ := hp
  have hg := hG.good _ _ hs
  have := hE.get_inj hg.num h1
  exact ⟨s, hs, this.1, npSort_eq_iff.1 this.2⟩

/-- Every face of a tagged simplex is stored. -/
theorem Inv.stored_face {f : MeshFile} {E : Ents} (hE : EntsOK f E) {cells : Cells}
    (hI : Inv E cells f.tagged) (hf : f.WF) {p : List Nat × Int} (hp : p ∈ f.tagged)
    {x : List Nat} (hx : IsFaceOf x p.1) : ∃ id, Pointed E cells x id := by
  have hne : p.1 ≠ [] := by
    intro h; have := hx.2; rw [h] at this
    exact hx.1 (List.subperm_nil.1 this)
  have hk := hasKeys_of_row hE (tagged_mem_simplices hp) (hf.2.2 p hp)
  obtain ⟨id, hid⟩ := hk.self hne
  obtain ⟨c, hc⟩ := hI.present p hp id hid
  obtain ⟨c', hc', -, hperm⟩ := Pointed.cell hE hI.all ⟨hid, c, hc⟩
  exact face_pointed hI.all hc' ⟨hx.1, hx.2.trans hperm.symm.subperm⟩

end Verif.MeshBuild
