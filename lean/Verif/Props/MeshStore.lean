/-
C06 and C10: storing additional cells.
-/
import Verif.Lemmas.MeshStore

namespace Verif.MeshStore
open MeshBuild MeshGraph

/-! ### C10 -/

/-- C10.  A batch is accepted exactly when it is not empty and none of its ids is below the number
of stored cells; the stored cells stay where they are and the batch follows. -/
theorem C10_accepts {cells cells' : Cells} {batch : List Cell} :
    appendCells cells batch = .ok cells' ↔
      batch ≠ [] ∧ (∀ c ∈ batch, cells.length ≤ c.id) ∧ cells' = cells ++ batch.map some :=
  appendCells_ok

/-- C10, first half: on a mesh whose ids are positions, no cell of an accepted batch has the id of
a stored cell, and the stored cells are still found at the position equal to their id. -/
theorem C10_no_reuse {cells cells' : Cells} {batch : List Cell} (hw : IdsArePositions cells)
    (h : appendCells cells batch = .ok cells') :
    (∀ c ∈ batch, ∀ i c', Stored cells i c' → c'.id ≠ c.id) ∧
    (∀ i c', Stored cells i c' → Stored cells' i c' ∧ c'.id = i) := by
  obtain ⟨-, h2, rfl⟩ := appendCells_ok.1 h
  have hid : ∀ i c', Stored cells i c' → i < cells.length ∧ c'.id = i := by
    intro i c' hc
    have hi := (List.getElem?_eq_some_iff.1 hc).1
    obtain ⟨c0, h0, h1⟩ := hw i hi
    unfold Stored at h0 hc
    rw [hc] at h0
    have : c' = c0 := by simpa using h0
    exact ⟨hi, this ▸ h1⟩
  refine ⟨fun c hc i c' hs he => ?_, fun i c' hs =>
    ⟨stored_of_prefix (List.prefix_append _ _) hs, (hid i c' hs).2⟩⟩
  have := hid i c' hs
  have := h2 c hc
  omega

/-- C10, rejections: an empty batch, or a batch naming a used id, raises `ValueError`; nothing
else does. -/
theorem C10_rejects {cells : Cells} {batch : List Cell} :
    appendCells cells batch = .error .valueError ↔
      batch = [] ∨ ∃ c ∈ batch, c.id < cells.length := appendCells_error

/-- C10 is violated as stated: an accepted batch may break "id = position", since ids larger than
the next free one are not noticed, nor are repeated ids. -/
theorem C10_positions_violated (cells : Cells) :
    ∃ batch cells', appendCells cells batch = .ok cells' ∧ ¬ IdsArePositions cells' := by
  refine ⟨[createCell 0 [0] (cells.length + 1) none], _,
    appendCells_ok.2 ⟨by simp, by simp [createCell], rfl⟩, ?_⟩
  intro h
  obtain ⟨c, h1, h2⟩ := h cells.length (by simp)
  simp [Stored] at h1
  subst h1
  simp [createCell] at h2

/-- C10, what holds: after acceptance ids are positions exactly when the batch is numbered
consecutively from the number of stored cells. -/
theorem C10_positions_partial {cells cells' : Cells} {batch : List Cell}
    (hw : IdsArePositions cells) (h : appendCells cells batch = .ok cells') :
    IdsArePositions cells' ↔ batch.map (·.id) = List.range' cells.length batch.length := by
  obtain ⟨-, -, rfl⟩ := appendCells_ok.1 h
  constructor
  · intro hi
    apply List.ext_getElem (by simp)
    intro k h1 h2
    simp only [List.length_map] at h1
    obtain ⟨c, hc, he⟩ := hi (cells.length + k) (by simpa using h1)
    unfold Stored at hc
    rw [List.getElem?_append_right (by omega)] at hc
    simp only [Nat.add_sub_cancel_left, List.getElem?_map, List.getElem?_eq_getElem h1,
      Option.map_some, Option.some.injEq] at hc
    subst hc
    simp [he]
  · intro hb i hi
    rcases Nat.lt_or_ge i cells.length with hl | hl
    · obtain ⟨c, h1, h2⟩ := hw i hl
      exact ⟨c, stored_of_prefix (List.prefix_append _ _) h1, h2⟩
    · simp only [List.length_append, List.length_map] at hi
      have hk : i - cells.length < batch.length := by omega
      refine ⟨batch[i - cells.length], ?_, ?_⟩
      · unfold Stored
        rw [List.getElem?_append_right hl]
        simp [List.getElem?_eq_getElem hk]
      · have h1 : (batch.map (·.id))[i - cells.length]'(by simpa using hk) =
            (List.range' cells.length batch.length)[i - cells.length]'(by simpa using hk) := by
          congr 1
        simp only [List.getElem_map, List.getElem_range'] at h1
        omega

/-- Two vertices appended to a mesh of two vertices. -/
example : IdsArePositions [some (createCell 0 [0] 0 none), some (createCell 0 [1] 1 none)] ∧
    appendCells [some (createCell 0 [0] 0 none), some (createCell 0 [1] 1 none)]
      [createCell 0 [2] 2 none, createCell 0 [3] 3 none] =
    .ok [some (createCell 0 [0] 0 none), some (createCell 0 [1] 1 none),
      some (createCell 0 [2] 2 none), some (createCell 0 [3] 3 none)] := by
  refine ⟨?_, rfl⟩
  intro i hi
  have : i = 0 ∨ i = 1 := by simp at hi; omega
  rcases this with rfl | rfl <;> exact ⟨_, rfl, rfl⟩

/-! ### C06 -/

/-- C06 is violated: the edges with nodes 1, 23 and 12, 3 get the same key, and the second
insertion returns the first edge. -/
theorem C06_violated :
    ∃ (r r' : Request) (s : Store) (c : Cell), ¬ SameEntity r r' ∧
      insertAll ⟨[], []⟩ [r, r'] = .ok (s, [some c, some c]) ∧ c.nodeTags = r.tags ∧
      c.nodeTags ≠ r'.tags := by
  refine ⟨⟨createCell 1 [1, 23] 0 none, 2, [1, 23], 0⟩,
    ⟨createCell 1 [12, 3] 0 none, 2, [12, 3], 0⟩, ?_, createCell 1 [1, 23] 0 none, ?_, ?_, rfl, ?_⟩
  · exact ⟨[(keyOf [0, 2, 1, 23, 0, 0], 0)], [some (createCell 1 [1, 23] 0 none)]⟩
  · rintro ⟨-, -, h⟩; simp at h
  · have h1 : keyOf [0, 2, 1, 23, 0, 0] = [.digit 0, .digit 2, .digit 1, .digit 2, .digit 3,
        .digit 0, .digit 0] := by
      simp [keyOf, strInt, strNat, Nat.digits_def']
    have h2 : keyOf [0, 2, 12, 3, 0, 0] = [.digit 0, .digit 2, .digit 1, .digit 2, .digit 3,
        .digit 0, .digit 0] := by
      simp [keyOf, strInt, strNat, Nat.digits_def']
    simp [insertAll, insertCellData, chunk, h1, h2, Dict.get?, Dict.set, getIdx, createCell]
  · simp [createCell]

/-- C06 is violated on built meshes as well: `build_conformal_mesh` fills `cells` without filling
`cell_data`, so the first cell inserted by key gets the id 0 while it is stored behind the others
(this is how `duplicate_entity` uses it). -/
theorem C06_position_violated (cells : Cells) (hc : cells ≠ []) (c : Cell) (typeIndex : Nat)
    (tags : List Nat) (ht : tags.length ≤ 4) (sign : Int) :
    ∃ s c', insertCellData ⟨[], cells⟩ c typeIndex tags sign = .ok (s, some c') ∧
      c'.id = 0 ∧ Stored s.cells cells.length c' ∧ c'.id ≠ cells.length := by
  refine ⟨⟨[(keyOf (sign :: (typeIndex : Int) ::
        (tags.map Int.ofNat ++ List.replicate (4 - tags.length) 0)), 0)],
      cells ++ [some { c with id := 0 }]⟩, { c with id := 0 }, ?_, rfl, ?_, ?_⟩
  · simp [insertCellData, chunk, ht, Dict.get?, Dict.set]
  · simp [Stored]
  · intro h
    exact hc (List.length_eq_zero_iff.1 (by simpa using h.symm))

/-- The same for `duplicate_entity` on a built mesh: the duplicate of a vertex is recorded under
the id 0, which names another cell of the mesh. -/
theorem C06_duplicate_entity_violated (cells : Cells) (c0 c : Cell) (h0 : Stored cells 0 c0)
    (tag : Nat) (hd : c0.nodeTags ≠ [tag]) (phys : Option Int) (sign : Int) :
    ∃ s c', duplicateEntity ⟨[], cells⟩ "vertex" c [tag] phys sign [] =
        .ok (s, c', [(c.id, 0)]) ∧ Stored s.cells cells.length c' ∧ Stored s.cells 0 c0 ∧
        c0 ≠ c' := by
  have hne : cells ≠ [] := by rintro rfl; simp [Stored] at h0
  obtain ⟨s, c', h1, h2, h3, -⟩ := C06_position_violated cells hne
    { c with nodeTags := [tag], material := phys } 1 [tag] (by simp) sign
  refine ⟨s, c', ?_, h3, ?_, ?_⟩
  · unfold duplicateEntity
    rw [show typeIndexOf "vertex" = .ok 1 from rfl, Res.bind_ok]
    simp only [npSort_singleton]
    rw [h1, Res.bind_ok]
    simp [h2, Dict.set]
  · have hs : s.cells = cells ++ [some c'] := by
      have hl : (insertCellData ⟨[], cells⟩ { c with nodeTags := [tag], material := phys } 1 [tag]
          sign) = .ok (s, some c') := h1
      simp [insertCellData, chunk, Dict.get?, Dict.set] at hl
      obtain ⟨rfl, rfl⟩ := hl
      rfl
    rw [hs]
    exact stored_of_prefix (List.prefix_append _ _) h0
  · rintro rfl
    simp [insertCellData, chunk, Dict.get?, Dict.set] at h1
    rw [← h1.2] at hd
    simp at hd

theorem good_empty : Good ⟨[], []⟩ :=
  ⟨⟨[], by simp, rfl⟩, rfl, by intro i hi; simp at hi⟩

/-- C06, what holds: starting with an empty mesh, and as long as all node tags have one common
number of digits, every sequence of insertions succeeds, ids are positions, each call returns the
cell of the first request for the same entity, and two calls return the same id exactly when they
name the same entity. -/
theorem C06_partial (w : Nat) (reqs : List Request) (hp : ∀ r ∈ reqs, Plain w r) :
    ∃ s res, insertAll ⟨[], []⟩ reqs = .ok (s, res) ∧ IdsArePositions s.cells ∧
      List.Forall₂ (fun r c => ∃ c0 r0, c = some c0 ∧ Stored s.cells c0.id c0 ∧
        reqs.find? (fun r' => SameEntity r' r) = some r0 ∧
        c0 = { r0.cell with id := c0.id }) reqs res ∧
      ∀ (i j : Nat) ri rj ci cj, reqs[i]? = some ri → reqs[j]? = some rj →
        res[i]? = some (some ci) → res[j]? = some (some cj) →
        (ci.id = cj.id ↔ SameEntity ri rj) := by
  obtain ⟨s, res, h1, h2, -, h4, -, h6⟩ := insertAll_spec reqs good_empty
    (fun r hr => by have := hp r hr; rw [this.1]; exact this.2.1)
  refine ⟨s, res, h1, h2.ids, ?_, ?_⟩
  · rw [List.forall₂_iff_zip] at h4 ⊢
    refine ⟨h4.1, fun {r c} hrc => ?_⟩
    obtain ⟨c0, rfl, hk, hs⟩ := h4.2 hrc
    obtain ⟨r0, hf, he⟩ := h6 _ _ _ hk hs rfl
    refine ⟨c0, r0, rfl, hs, ?_, he⟩
    rw [← hf]
    have hr := (List.of_mem_zip hrc).1
    have : ∀ l : List Request, (∀ x ∈ l, x ∈ reqs) →
        l.find? (fun r' => SameEntity r' r) = l.find? (fun r' => r'.key = r.key) := by
      intro l hl
      induction l with
      | nil => rfl
      | cons x l ih =>
        have hx := hl x (by simp)
        have hiff : SameEntity x r ↔ x.key = r.key :=
          ⟨sameEntity_key, plain_key_inj (hp x hx) (hp r hr)⟩
        simp only [List.find?_cons, hiff]
        rw [ih fun y hy => hl y (by simp [hy])]
    exact this reqs fun _ h => h
  · intro i j ri rj ci cj hi hj hci hcj
    have get : ∀ (i : Nat) ri ci, reqs[i]? = some ri → res[i]? = some (some ci) →
        s.cellData.get? ri.key = some ci.id := by
      intro i ri ci hi hci
      have hm : (ri, some ci) ∈ reqs.zip res :=
        List.mem_iff_getElem?.2 ⟨i, by simp [List.getElem?_zip_eq_some, hi, hci]⟩
      obtain ⟨c0, he, hk, -⟩ := (List.forall₂_iff_zip.1 h4).2 hm
      have : ci = c0 := by simpa using he
      rw [this]; exact hk
    have a := get i ri ci hi hci
    have b := get j rj cj hj hcj
    constructor
    · intro h
      rw [← h] at b
      exact plain_key_inj (hp ri (List.mem_of_getElem? hi)) (hp rj (List.mem_of_getElem? hj))
        (h2.inj a b)
    · intro h
      rw [sameEntity_key h, b] at a
      simpa using a.symm

/-- More than four tags raise `IndexError`. -/
theorem C06_rejects (s : Store) (c : Cell) (typeIndex : Nat) (tags : List Nat)
    (ht : 4 < tags.length) (sign : Int) :
    insertCellData s c typeIndex tags sign = .error .indexError := by
  simp [insertCellData, chunk, Nat.not_le.2 ht]

/-- Two vertices, an edge and the first vertex again, all with two digit tags. -/
example : ∀ r ∈ [(⟨createCell 0 [10] 0 none, 1, [10], 0⟩ : Request),
    ⟨createCell 0 [11] 0 none, 1, [11], 0⟩, ⟨createCell 1 [10, 11] 0 none, 2, [10, 11], -1⟩,
    ⟨createCell 0 [10] 5 (some 3), 1, [10], 0⟩], Plain 2 r := by
  simp [Plain, HasWidth]

#print axioms C10_accepts
#print axioms C10_no_reuse
#print axioms C10_rejects
#print axioms C10_positions_violated
#print axioms C10_positions_partial
#print axioms C06_violated
#print axioms C06_position_violated
#print axioms C06_duplicate_entity_violated
#print axioms C06_partial
#print axioms C06_rejects

end Verif.MeshStore
