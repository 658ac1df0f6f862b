/- Facts on the uniform lookup `Ents.get`. -/
import Verif.Lemmas.MeshNumber

namespace Verif.MeshBuild

theorem subperm_iff_faces {x s : List Nat} {e : Nat} (hx : x.length = e + 1) :
    x.Subperm s ↔ ∃ y ∈ s.sublistsLen (e + 1), x.Perm y := by
  constructor
  · rintro ⟨y, hy, hs⟩
    exact ⟨y, List.mem_sublistsLen.2 ⟨hs, by rw [hy.length_eq, hx]⟩, hy.symm⟩
  · rintro ⟨y, hy, hp⟩
    exact ⟨y, hp.symm, (List.mem_sublistsLen.1 hy).1⟩

theorem mem_faces {x s : List Nat} {e : Nat} :
    x ∈ faces e s → x.length = e + 1 ∧ x.Subperm s := by
  unfold faces
  split
  · rename_i h; subst h
    intro hx
    obtain ⟨a, ha, rfl⟩ := List.mem_map.1 hx
    exact ⟨rfl, List.singleton_subperm_iff.2 ha⟩
  · intro hx
    have := List.mem_sublistsLen.1 hx
    exact ⟨this.2, this.1.subperm⟩

theorem subperm_iff_mem_faces {x s : List Nat} {e : Nat} (hx : x.length = e + 1) :
    x.Subperm s ↔ ∃ y ∈ faces e s, x.Perm y := by
  constructor
  · intro h
    unfold faces
    split
    · rename_i he; subst he
      obtain ⟨a, rfl⟩ := List.length_eq_one_iff.1 hx
      exact ⟨[a], List.mem_map.2 ⟨a, List.singleton_subperm_iff.1 h, rfl⟩, List.Perm.refl _⟩
    · exact (subperm_iff_faces hx).1 h
  · rintro ⟨y, hy, hp⟩
    exact hp.subperm.trans (mem_faces hy).2

theorem mem_simplices {f : MeshFile} {s : List Nat} :
    s ∈ f.simplices ↔ (∃ b ∈ f.blocks, ∃ a rows p, b = .vertex rows p ∧ a ∈ rows ∧ s = [a]) ∨
      (∃ r ∈ f.lineData, s = [r.1, r.2]) ∨ (∃ r ∈ f.triangleData, s = [r.1, r.2.1, r.2.2]) ∨
      (∃ r ∈ f.tetraData, s = [r.1, r.2.1, r.2.2.1, r.2.2.2]) := by
  simp only [MeshFile.simplices, MeshFile.lineData, MeshFile.triangleData, MeshFile.tetraData,
    List.mem_flatMap]
  constructor
  · rintro ⟨b, hb, hs⟩
    cases b with
    | vertex rows p =>
      left
      simp only [Block.simplices, List.mem_map] at hs
      obtain ⟨a, ha, rfl⟩ := hs
      exact ⟨_, hb, a, rows, p, rfl, ha, rfl⟩
    | line rows p =>
      simp only [Block.simplices, List.mem_map] at hs
      obtain ⟨a, ha, rfl⟩ := hs
      exact .inr (.inl ⟨a, ⟨_, hb, ha⟩, rfl⟩)
    | triangle rows p =>
      simp only [Block.simplices, List.mem_map] at hs
      obtain ⟨a, ha, rfl⟩ := hs
      exact .inr (.inr (.inl ⟨a, ⟨_, hb, ha⟩, rfl⟩))
    | tetra rows p =>
      simp only [Block.simplices, List.mem_map] at hs
      obtain ⟨a, ha, rfl⟩ := hs
      exact .inr (.inr (.inr ⟨a, ⟨_, hb, ha⟩, rfl⟩))
  · rintro (⟨b, hb, a, rows, p, rfl, ha, rfl⟩ | ⟨a, ⟨b, hb, ha⟩, rfl⟩ | ⟨a, ⟨b, hb, ha⟩, rfl⟩ |
      ⟨a, ⟨b, hb, ha⟩, rfl⟩)
    · exact ⟨_, hb, by simpa [Block.simplices] using ha⟩
    all_goals
      cases b <;> simp at ha
      refine ⟨_, hb, ?_⟩
      simp only [Block.simplices, List.mem_map]
      exact ⟨a, ha, rfl⟩

theorem edgeKeys_ne_nil {f : MeshFile} :
    f.tetraData.flatMap tetraEdgeKeys ++ f.triangleData.flatMap triEdgeKeys ++
      f.lineData.map lineKey ≠ [] ↔ ∃ s ∈ f.simplices, 2 ≤ s.length := by
  constructor
  · intro h
    by_cases h3 : f.tetraData = []
    · by_cases h2 : f.triangleData = []
      · by_cases h1 : f.lineData = []
        · simp [h1, h2, h3] at h
        · obtain ⟨r, hr⟩ := List.exists_mem_of_ne_nil _ h1
          exact ⟨_, mem_simplices.2 (.inr (.inl ⟨r, hr, rfl⟩)), by simp⟩
      · obtain ⟨r, hr⟩ := List.exists_mem_of_ne_nil _ h2
        exact ⟨_, mem_simplices.2 (.inr (.inr (.inl ⟨r, hr, rfl⟩))), by simp⟩
    · obtain ⟨r, hr⟩ := List.exists_mem_of_ne_nil _ h3
      exact ⟨_, mem_simplices.2 (.inr (.inr (.inr ⟨r, hr, rfl⟩))), by simp⟩
  · rintro ⟨s, hs, hl⟩
    rcases mem_simplices.1 hs with ⟨b, hb, a, rows, p, rfl, ha, rfl⟩ | ⟨r, hr, rfl⟩ |
      ⟨r, hr, rfl⟩ | ⟨r, hr, rfl⟩
    · simp at hl
    all_goals
      intro h
      have := List.append_eq_nil_iff.1 h
      have h' := List.append_eq_nil_iff.1 this.1
    · have h2 := this.2
      simp at h2; rw [h2] at hr; simp at hr
    · have h2 := h'.2
      rw [List.flatMap_eq_nil_iff] at h2
      have := h2 r hr; simp [triEdgeKeys] at this
    · have h2 := h'.1
      rw [List.flatMap_eq_nil_iff] at h2
      have := h2 r hr; simp [tetraEdgeKeys] at this

/-- Membership in the list of edge (face, volume) keys, independent of the algorithm. -/
def entityKeys (f : MeshFile) : Nat → List (List Nat)
  | 1 => f.tetraData.flatMap tetraEdgeKeys ++ f.triangleData.flatMap triEdgeKeys ++
      f.lineData.map lineKey
  | 2 => f.tetraData.flatMap tetraFaceKeys ++ f.triangleData.map triKey
  | 3 => f.tetraData.map tetraKey
  | _ => []

theorem mem_entityKeys {f : MeshFile} {e : Nat} (he : e ≠ 0) {k : List Nat} :
    k ∈ entityKeys f e ↔ ∃ s ∈ f.simplices, ∃ y ∈ faces e s, k = npSort y := by
  have key : ∀ (s : List Nat), (∃ y ∈ faces e s, k = npSort y) ↔
      k ∈ (s.sublistsLen (e + 1)).map npSort := by
    intro s; simp [faces, he, eq_comm]
  simp only [key]
  constructor
  · intro h
    match e, he with
    | 1, _ =>
      simp only [entityKeys, List.mem_append, List.mem_flatMap, List.mem_map] at h
      rcases h with (⟨r, hr, h⟩ | ⟨r, hr, h⟩) | ⟨r, hr, h⟩
      · exact ⟨_, mem_simplices.2 (.inr (.inr (.inr ⟨r, hr, rfl⟩))), h⟩
      · exact ⟨_, mem_simplices.2 (.inr (.inr (.inl ⟨r, hr, rfl⟩))), h⟩
      · exact ⟨_, mem_simplices.2 (.inr (.inl ⟨r, hr, rfl⟩)), by subst h; exact .head _⟩
    | 2, _ =>
      simp only [entityKeys, List.mem_append, List.mem_flatMap, List.mem_map] at h
      rcases h with ⟨r, hr, h⟩ | ⟨r, hr, h⟩
      · exact ⟨_, mem_simplices.2 (.inr (.inr (.inr ⟨r, hr, rfl⟩))), h⟩
      · exact ⟨_, mem_simplices.2 (.inr (.inr (.inl ⟨r, hr, rfl⟩))), by subst h; exact .head _⟩
    | 3, _ =>
      simp only [entityKeys, List.mem_map] at h
      obtain ⟨r, hr, h⟩ := h
      exact ⟨_, mem_simplices.2 (.inr (.inr (.inr ⟨r, hr, rfl⟩))), by subst h; exact .head _⟩
    | n + 4, _ => simp [entityKeys] at h
  · rintro ⟨s, hs, h⟩
    rcases mem_simplices.1 hs with ⟨b, hb, a, rows, p, rfl, ha, rfl⟩ | ⟨r, hr, rfl⟩ |
      ⟨r, hr, rfl⟩ | ⟨r, hr, rfl⟩
    · match e, he with
      | n + 1, _ => simp at h
    · match e, he with
      | 1, _ =>
        simp only [entityKeys, List.mem_append, List.mem_flatMap, List.mem_map]
        right; exact ⟨r, hr, (List.mem_singleton.1 (show k ∈ [lineKey r] from h)).symm⟩
      | n + 2, _ => simp at h
    · match e, he with
      | 1, _ =>
        simp only [entityKeys, List.mem_append, List.mem_flatMap]
        left; right; exact ⟨r, hr, h⟩
      | 2, _ =>
        simp only [entityKeys, List.mem_append, List.mem_flatMap, List.mem_map]
        right; exact ⟨r, hr, (List.mem_singleton.1 (show k ∈ [triKey r] from h)).symm⟩
      | n + 3, _ => simp at h
    · match e, he with
      | 1, _ =>
        simp only [entityKeys, List.mem_append, List.mem_flatMap]
        left; left; exact ⟨r, hr, h⟩
      | 2, _ =>
        simp only [entityKeys, List.mem_append, List.mem_flatMap]
        left; exact ⟨r, hr, h⟩
      | 3, _ =>
        simp only [entityKeys, List.mem_map]
        exact ⟨r, hr, (List.mem_singleton.1 (show k ∈ [tetraKey r] from h)).symm⟩
      | n + 4, _ => simp at h

namespace EntsOK
variable {f : MeshFile} {E : Ents}

theorem len0 (h : EntsOK f E) : E.e0.length = f.nPoints := by
  rw [h.e0]; exact (numberPoints_eq _).2

theorem get_zero (h : EntsOK f E) {k : List Nat} {i : Nat} :
    E.get 0 k = some i ↔ k = [i] ∧ i < f.nPoints := by
  match k with
  | [] => simp [Ents.get]
  | [a] =>
    simp only [Ents.get, h.e0, numberPoints_get?]
    constructor
    · rintro ⟨h1, rfl⟩; exact ⟨rfl, h1⟩
    · rintro ⟨h1, h2⟩; simp at h1; subst h1; exact ⟨h2, rfl⟩
  | a :: b :: t => simp [Ents.get]

theorem get_exists (h : EntsOK f E) {e : Nat} (he : e ≠ 0) {k : List Nat} :
    (∃ i, E.get e k = some i) ↔ k ∈ entityKeys f e := by
  match e, he with
  | 1, _ => simp only [Ents.get, entityKeys]; exact h.e1.get?_exists
  | 2, _ => simp only [Ents.get, entityKeys]; exact h.e2.get?_exists
  | 3, _ => simp only [Ents.get, entityKeys]; exact h.e3.get?_exists
  | n + 4, _ => simp [Ents.get, entityKeys]

/-- first id of each dimension -/
def off (E : Ents) : Nat → Nat
  | 0 => 0
  | 1 => E.e0.length
  | 2 => E.e0.length + E.e1.length
  | 3 => E.e0.length + E.e1.length + E.e2.length
  | _ => E.count

theorem get_bounds (h : EntsOK f E) {e : Nat} {k : List Nat} {i : Nat}
    (hg : E.get e k = some i) : e ≤ 3 ∧ off E e ≤ i ∧ i < off E (e + 1) := by
  match e with
  | 0 =>
    have := h.get_zero.1 hg
    refine ⟨by omega, by simp [off], ?_⟩
    simp only [off, h.len0]; exact this.2
  | 1 => have := h.e1.get?_bounds hg; simp only [off]; omega
  | 2 => have := h.e2.get?_bounds hg; simp only [off]; omega
  | 3 => have := h.e3.get?_bounds hg; simp only [off, Ents.count]; omega
  | n + 4 => simp [Ents.get] at hg

theorem off_mono : ∀ e, off E e ≤ off E (e + 1)
  | 0 => by simp [off]
  | 1 => by simp [off]
  | 2 => by simp [off]
  | 3 => by simp [off, Ents.count]
  | n + 4 => by simp [off]

theorem off_le_count (e : Nat) : off E e ≤ E.count := by
  match e with
  | 0 => simp [off]
  | 1 => simp only [off, Ents.count]; omega
  | 2 => simp only [off, Ents.count]; omega
  | 3 => simp only [off, Ents.count]; omega
  | n + 4 => simp [off]

theorem off_le {e e' : Nat} (h : e ≤ e') : off E e ≤ off E e' := by
  induction h with
  | refl => exact Nat.le_refl _
  | step _ ih => exact Nat.le_trans ih (off_mono _)

theorem get_lt (h : EntsOK f E) {e : Nat} {k : List Nat} {i : Nat}
    (hg : E.get e k = some i) : i < E.count :=
  Nat.lt_of_lt_of_le (h.get_bounds hg).2.2 (off_le_count _)

theorem get_inj (h : EntsOK f E) {e e' : Nat} {k k' : List Nat} {i : Nat}
    (hg : E.get e k = some i) (hg' : E.get e' k' = some i) : e = e' ∧ k = k' := by
  have b := h.get_bounds hg
  have b' := h.get_bounds hg'
  have he : e = e' := by
    rcases Nat.lt_trichotomy e e' with hlt | rfl | hlt
    · have := off_le (E := E) (show e + 1 ≤ e' from hlt); omega
    · rfl
    · have := off_le (E := E) (show e' + 1 ≤ e from hlt); omega
  subst he
  refine ⟨rfl, ?_⟩
  match e with
  | 0 => rw [(h.get_zero.1 hg).1, (h.get_zero.1 hg').1]
  | 1 => exact h.e1.get?_inj hg hg'
  | 2 => exact h.e2.get?_inj hg hg'
  | 3 => exact h.e3.get?_inj hg hg'
  | n + 4 => simp [Ents.get] at hg

theorem get_surj (h : EntsOK f E) {i : Nat} (hi : i < E.count) :
    ∃ e k, E.get e k = some i := by
  unfold Ents.count at hi
  by_cases h0 : i < E.e0.length
  · exact ⟨0, [i], h.get_zero.2 ⟨rfl, by rw [← h.len0]; exact h0⟩⟩
  by_cases h1 : i < E.e0.length + E.e1.length
  · obtain ⟨k, hk⟩ := h.e1.get?_surj (by omega) h1
    exact ⟨1, k, hk⟩
  by_cases h2 : i < E.e0.length + E.e1.length + E.e2.length
  · obtain ⟨k, hk⟩ := h.e2.get?_surj (by omega) h2
    exact ⟨2, k, hk⟩
  · obtain ⟨k, hk⟩ := h.e3.get?_surj (i := i) (by omega) (by omega)
    exact ⟨3, k, hk⟩

end EntsOK

end Verif.MeshBuild
