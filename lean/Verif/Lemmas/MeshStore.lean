/-
Lemmas for C06 and C10.
-/
import Verif.Spec.MeshStore
import Verif.Lemmas.Trace
import Mathlib.Data.Nat.Digits.Lemmas
import Mathlib.Tactic.Positivity

namespace Verif.MeshStore
open MeshBuild MeshGraph

/-! ### append_cells -/

theorem npMin_ok {l : List Nat} {m : Nat} (h : npMin l = .ok m) : m ∈ l ∧ ∀ x ∈ l, m ≤ x := by
  cases l with
  | nil => simp [npMin] at h
  | cons a t =>
    simp only [npMin, Except.ok.injEq] at h
    subst h
    induction t generalizing a with
    | nil => simp
    | cons b t ih =>
      have := ih (min a b)
      simp only [List.foldl_cons, List.mem_cons] at this ⊢
      obtain ⟨h1, h2⟩ := this
      constructor
      · rcases h1 with h1 | h1
        · rcases min_choice a b with hm | hm
          · left; exact h1.trans hm
          · right; left; exact h1.trans hm
        · right; right; exact h1
      · rintro x (rfl | rfl | hx)
        · exact (h2 _ (Or.inl rfl)).trans (min_le_left _ _)
        · exact (h2 _ (Or.inl rfl)).trans (min_le_right _ _)
        · exact h2 x (Or.inr hx)

theorem npMin_exists {l : List Nat} (h : l ≠ []) : ∃ m, npMin l = .ok m := by
  cases l with
  | nil => exact absurd rfl h
  | cons a t => exact ⟨_, rfl⟩

theorem appendCells_ok {cells cells' : Cells} {batch : List Cell} :
    appendCells cells batch = .ok cells' ↔
      batch ≠ [] ∧ (∀ c ∈ batch, cells.length ≤ c.id) ∧ cells' = cells ++ batch.map some := by
  unfold appendCells
  rw [Res.bind_eq_ok]
  constructor
  · rintro ⟨m, hm, h⟩
    obtain ⟨h1, h2⟩ := npMin_ok hm
    split at h
    · simp at h
    · rename_i hlt
      refine ⟨?_, ?_, ?_⟩
      · rintro rfl; simp at h1
      · intro c hc
        have := h2 c.id (List.mem_map_of_mem hc)
        omega
      · simpa using h.symm
  · rintro ⟨h1, h2, rfl⟩
    obtain ⟨m, hm⟩ := npMin_exists (l := batch.map (·.id)) (by simpa using h1)
    refine ⟨m, hm, ?_⟩
    obtain ⟨h3, -⟩ := npMin_ok hm
    obtain ⟨c, hc, rfl⟩ := List.mem_map.1 h3
    have := h2 c hc
    rw [if_neg (by omega)]

theorem appendCells_error {cells : Cells} {batch : List Cell} :
    appendCells cells batch = .error .valueError ↔
      batch = [] ∨ ∃ c ∈ batch, c.id < cells.length := by
  constructor
  · intro h
    by_contra hn
    push Not at hn
    have := (appendCells_ok (cells := cells) (batch := batch)).2 ⟨hn.1, hn.2, rfl⟩
    rw [this] at h; simp at h
  · intro h
    unfold appendCells
    by_cases hb : batch = []
    · subst hb; rfl
    · obtain ⟨m, hm⟩ := npMin_exists (l := batch.map (·.id)) (by simpa using hb)
      rw [hm, Res.bind_ok]
      rcases h with h | ⟨c, hc, hlt⟩
      · exact absurd h hb
      · have := (npMin_ok hm).2 c.id (List.mem_map_of_mem hc)
        rw [if_pos (by omega)]

/-! ### keys -/

theorem strNat_inj {m n : Nat} (h : strNat m = strNat n) : m = n := by
  have key : ∀ k : Nat, k ≠ 0 → strNat k ≠ [.digit 0] := by
    intro k hk hs
    unfold strNat at hs
    rw [if_neg hk] at hs
    have hlast := Nat.getLast_digit_ne_zero 10 hk
    have hne : Nat.digits 10 k ≠ [] := Nat.digits_ne_nil_iff_ne_zero.2 hk
    have h1 : Nat.digits 10 k = [0] := by
      have h2 : Function.Injective (List.map Sym.digit) :=
      List.map_injective_iff.2 (fun a b h => by simpa using h)
      have h3 : (Nat.digits 10 k).reverse = [0] := h2 (by simpa using hs)
      simpa using congrArg List.reverse h3
    simp [h1] at hlast
  by_cases hm : m = 0
  · subst hm
    by_cases hn : n = 0
    · exact hn.symm
    · exact absurd (h.symm.trans (by simp [strNat])) (key n hn)
  · by_cases hn : n = 0
    · subst hn; exact absurd (h.trans (by simp [strNat])) (key m hm)
    · unfold strNat at h
      rw [if_neg hm, if_neg hn] at h
      have h2 : Function.Injective (List.map Sym.digit) :=
      List.map_injective_iff.2 (fun a b h => by simpa using h)
      have h3 := List.reverse_injective (h2 h)
      exact Nat.digits_inj_iff.1 h3

theorem strNat_ne_minus {n : Nat} : ∀ s ∈ strNat n, s ≠ Sym.minus := by
  unfold strNat
  split
  · simp
  · simp only [List.mem_map]
    rintro _ ⟨d, _, rfl⟩; simp

theorem strNat_ne_nil (n : Nat) : strNat n ≠ [] := by
  unfold strNat
  split
  · simp
  · rename_i h
    simpa [Nat.digits_eq_nil_iff_eq_zero] using h

theorem strInt_inj {a b : Int} (h : strInt a = strInt b) : a = b := by
  unfold strInt at h
  split at h <;> split at h
  · have := strNat_inj (List.cons.inj h).2; omega
  · exact absurd rfl (strNat_ne_minus Sym.minus (by rw [← h]; simp))
  · exact absurd rfl (strNat_ne_minus Sym.minus (by rw [h]; simp))
  · have := strNat_inj h; omega

theorem strNat_length {w n : Nat} (h : HasWidth w n) : (strNat n).length = w := by
  unfold strNat
  obtain ⟨h1, h2⟩ := h
  split
  · rename_i h0
    subst h0
    rcases h2 with h2 | h2
    · exact absurd h2 (Nat.not_le.2 (by positivity))
    · simp [h2.2]
  · rename_i h0
    simp only [List.length_map, List.length_reverse]
    rcases h2 with h2 | h2
    · have hw : w ≠ 0 := by rintro rfl; simp at h1; exact h0 h1
      have h3 : (Nat.digits 10 n).length ≤ w := (Nat.digits_length_le_iff (by decide) n).2 h1
      have h4 : w - 1 < (Nat.digits 10 n).length := (Nat.lt_digits_length_iff (by decide) n).2 h2
      omega
    · exact absurd h2.1 h0

theorem keyOf_inj : ∀ {l l' : List Int},
    List.Forall₂ (fun a b => (strInt a).length = (strInt b).length) l l' →
      keyOf l = keyOf l' → l = l'
  | _, _, .nil, _ => rfl
  | _, _, .cons (a := a) (b := b) (l₁ := l) (l₂ := l') h t, hk => by
    simp only [keyOf, List.flatMap_cons] at hk
    obtain ⟨h1, h2⟩ := List.append_inj hk h
    rw [strInt_inj h1, keyOf_inj t h2]

theorem keyOf_cons (a : Int) (l : List Int) : keyOf (a :: l) = strInt a ++ keyOf l := by
  simp [keyOf]

theorem strInt_short {z : Int} (h : z.natAbs < 10) :
    strInt z = if z < 0 then [.minus, .digit z.natAbs] else [.digit z.natAbs] := by
  have : strNat z.natAbs = [.digit z.natAbs] := by
    unfold strNat
    split
    · rename_i h0; simp [h0]
    · rename_i h0; rw [Nat.digits_of_lt 10 _ h0 h]; rfl
  unfold strInt
  split <;> simp [this]

/-- The six integers of a request. -/
def Request.ints (r : Request) : List Int :=
  r.sign :: (r.typeIndex : Int) ::
    (r.tags.map Int.ofNat ++ List.replicate (4 - r.tags.length) 0)

def Request.key (r : Request) : List Sym := keyOf r.ints

theorem forall₂_widths {w : Nat} : ∀ {t t' : List Nat}, t.length = t'.length →
    (∀ x ∈ t, HasWidth w x) → (∀ x ∈ t', HasWidth w x) →
    List.Forall₂ (fun a b => (strInt a).length = (strInt b).length)
      (t.map Int.ofNat) (t'.map Int.ofNat)
  | [], [], _, _, _ => .nil
  | a :: t, b :: t', hl, h, h' => by
    simp only [List.map_cons]
    refine .cons ?_ (forall₂_widths (by simpa using hl) (fun x hx => h x (by simp [hx]))
      (fun x hx => h' x (by simp [hx])))
    have ha := strNat_length (h a (by simp))
    have hb := strNat_length (h' b (by simp))
    have hs : ∀ n : Nat, strInt (Int.ofNat n) = strNat n := fun n => by
      unfold strInt; rw [if_neg (by simp)]; rfl
    rw [hs, hs, ha, hb]
  | [], b :: t', hl, _, _ => by simp at hl
  | a :: t, [], hl, _, _ => by simp at hl

theorem forall₂_refl_len (l : List Int) :
    List.Forall₂ (fun a b => (strInt a).length = (strInt b).length) l l :=
  List.forall₂_same.2 fun _ _ => rfl

theorem tags_inj {t t' : List Nat} (hl : t.length = t'.length)
    (h : t.map Int.ofNat ++ List.replicate (4 - t.length) 0 =
      t'.map Int.ofNat ++ List.replicate (4 - t'.length) 0) : t = t' := by
  have := (List.append_inj h (by simp [hl])).1
  exact List.map_injective_iff.2 (fun a b h => by simpa using h) this

/-- With plain requests the key determines the entity. -/
theorem plain_key_inj {w : Nat} {r r' : Request} (h : Plain w r) (h' : Plain w r')
    (hk : r.key = r'.key) : SameEntity r r' := by
  obtain ⟨h1, h2, h3, h4⟩ := h
  obtain ⟨h1', h2', h3', h4'⟩ := h'
  unfold Request.key Request.ints at hk
  have ht : (strInt (r.typeIndex : Int)) = [.digit r.typeIndex] := by
    rw [strInt_short (by omega), if_neg (by omega)]; simp
  have ht' : (strInt (r'.typeIndex : Int)) = [.digit r'.typeIndex] := by
    rw [strInt_short (by omega), if_neg (by omega)]; simp
  rw [keyOf_cons, keyOf_cons, keyOf_cons, keyOf_cons, ht, ht'] at hk
  have hs : (strInt r.sign).length = (strInt r'.sign).length := by
    rw [strInt_short h3, strInt_short h3'] at hk ⊢
    split at hk <;> split at hk <;> rename_i ha hb <;> simp_all only [if_true, if_false] <;> simp_all
  obtain ⟨e1, e2⟩ := List.append_inj hk hs
  have e3 := strInt_inj e1
  simp only [List.cons_append, List.nil_append, List.cons.injEq, Sym.digit.injEq] at e2
  obtain ⟨e4, e5⟩ := e2
  have hl : r.tags.length = r'.tags.length := by omega
  refine ⟨e3, e4, tags_inj hl (keyOf_inj ?_ e5)⟩
  refine List.rel_append (forall₂_widths hl h4 h4') ?_
  rw [hl]; exact forall₂_refl_len _

theorem sameEntity_key {r r' : Request} (h : SameEntity r r') : r.key = r'.key := by
  obtain ⟨h1, h2, h3⟩ := h
  simp [Request.key, Request.ints, h1, h2, h3]

/-! ### runs of insert_cell_data -/

/-- `cell_data` numbers its keys with the positions of the cells. -/
structure Good (s : Store) : Prop where
  data : ∃ keys : List (List Sym), keys.Nodup ∧ s.cellData = keys.zipIdx
  len : s.cellData.length = s.cells.length
  ids : IdsArePositions s.cells

theorem get?_zipIdx {κ : Type} [DecidableEq κ] {keys : List κ} {k : κ} {i n : Nat}
    (h : Dict.get? (keys.zipIdx n) k = some i) : n ≤ i ∧ keys[i - n]? = some k := by
  have := Dict.mem_of_get? h
  have := List.mem_zipIdx this
  refine ⟨this.1, ?_⟩
  rw [List.getElem?_eq_getElem (by omega)]
  simp [this.2.2]

theorem Good.inj {s : Store} (h : Good s) {k k' : List Sym} {i : Nat}
    (h1 : s.cellData.get? k = some i) (h2 : s.cellData.get? k' = some i) : k = k' := by
  obtain ⟨keys, -, hd⟩ := h.data
  rw [hd] at h1 h2
  have a := (get?_zipIdx h1).2
  have b := (get?_zipIdx h2).2
  rw [a] at b; simpa using b

theorem Good.pos {s : Store} (h : Good s) {k : List Sym} {i : Nat}
    (h1 : s.cellData.get? k = some i) : ∃ c, Stored s.cells i c ∧ c.id = i := by
  obtain ⟨keys, -, hd⟩ := h.data
  have hl := h.len
  rw [hd] at h1 hl
  have a := (get?_zipIdx h1).2
  have := (List.getElem?_eq_some_iff.1 a).1
  simp only [List.length_zipIdx] at hl
  exact h.ids i (by omega)

theorem insert_step {s : Store} (hs : Good s) {r : Request} (hr : r.tags.length ≤ 4) :
    ∃ s' c, insertCellData s r.cell r.typeIndex r.tags r.sign = .ok (s', some c) ∧ Good s' ∧
      s'.cellData.get? r.key = some c.id ∧ Stored s'.cells c.id c ∧
      (∀ k, k ≠ r.key → s'.cellData.get? k = s.cellData.get? k) ∧ s.cells <+: s'.cells ∧
      (s.cellData.get? r.key = none → c = { r.cell with id := c.id }) ∧
      (∀ i, s.cellData.get? r.key = some i → c.id = i ∧ s' = s) := by
  have hc : chunk r.sign r.typeIndex r.tags = .ok r.ints := by simp [chunk, hr, Request.ints]
  unfold insertCellData
  rw [hc, Res.bind_ok]
  simp only [show keyOf r.ints = r.key from rfl]
  cases hg : s.cellData.get? r.key with
  | none =>
    have hset : s.cellData.set r.key s.cellData.length =
        s.cellData ++ [(r.key, s.cellData.length)] :=
      Dict.set_of_not_mem _ (Dict.get?_eq_none.1 hg)
    refine ⟨_, _, rfl, ⟨?_, ?_, ?_⟩, ?_, ?_, ?_, ?_, ?_, ?_⟩
    · obtain ⟨keys, hn, hd⟩ := hs.data
      refine ⟨keys ++ [r.key], ?_, ?_⟩
      · rw [List.nodup_append]
        refine ⟨hn, by simp, ?_⟩
        rintro a ha b hb rfl
        simp only [List.mem_singleton] at hb
        subst hb
        have := Dict.get?_eq_none.1 hg
        apply this
        rw [hd, Dict.keys]
        simpa using ha
      · change s.cellData.set r.key s.cellData.length = _
        rw [hset, hd, List.zipIdx_append]
        simp
    · change (s.cellData.set r.key s.cellData.length).length = _
      rw [hset]
      simp [hs.len]
    · intro i hi
      simp only [List.length_append, List.length_singleton] at hi
      rcases Nat.lt_or_ge i s.cells.length with h | h
      · obtain ⟨c, h1, h2⟩ := hs.ids i h
        exact ⟨c, by unfold Stored at h1 ⊢; simp only [List.getElem?_append_left h]; exact h1, h2⟩
      · have : i = s.cells.length := by omega
        subst this
        exact ⟨{ r.cell with id := s.cellData.length }, by
          unfold Stored; simp only [List.getElem?_concat_length], hs.len⟩
    · exact Dict.get?_set_self _ _ _
    · unfold Stored
      change (s.cells ++ [some _])[s.cellData.length]? = _
      rw [hs.len, List.getElem?_concat_length]
    · intro k hk; exact Dict.get?_set_ne _ _ hk
    · exact List.prefix_append _ _
    · intro _; rfl
    · intro i hi; simp at hi
  | some i =>
    obtain ⟨c, h1, h2⟩ := hs.pos hg
    refine ⟨s, c, ?_, hs, by rw [hg, h2], by rw [h2]; exact h1, fun _ _ => rfl,
      List.prefix_refl _, by simp, ?_⟩
    · change (do let c ← getIdx s.cells i; pure (s, c) : Res _) = _
      rw [show getIdx s.cells i = .ok (some c) from getIdx_of h1]; rfl
    · intro j hj; exact ⟨h2.trans (by simpa using hj), rfl⟩

theorem stored_of_prefix {a b : Cells} (h : a <+: b) {i : Nat} {c : Cell} (hc : Stored a i c) :
    Stored b i c := by
  obtain ⟨t, rfl⟩ := h
  unfold Stored at hc ⊢
  rw [List.getElem?_append_left (List.getElem?_eq_some_iff.1 hc).1, hc]

theorem insertAll_spec : ∀ (reqs : List Request) {s : Store}, Good s →
    (∀ r ∈ reqs, r.tags.length ≤ 4) →
    ∃ s' res, insertAll s reqs = .ok (s', res) ∧ Good s' ∧ s.cells <+: s'.cells ∧
      List.Forall₂ (fun r c => ∃ c0, c = some c0 ∧ s'.cellData.get? r.key = some c0.id ∧
        Stored s'.cells c0.id c0) reqs res ∧
      (∀ k i, s.cellData.get? k = some i → s'.cellData.get? k = some i) ∧
      (∀ k i c, s'.cellData.get? k = some i → Stored s'.cells i c → s.cellData.get? k = none →
        ∃ r, reqs.find? (fun r => r.key = k) = some r ∧ c = { r.cell with id := i })
  | [], s, hs, _ => ⟨s, [], rfl, hs, List.prefix_refl _, .nil, fun _ _ h => h, by
      intro k i c h _ h'; rw [h] at h'; simp at h'⟩
  | r :: rs, s, hs, hr => by
    obtain ⟨s1, c1, e1, g1, k1, st1, o1, p1, n1, x1⟩ := insert_step hs (hr r (by simp))
    obtain ⟨s2, res, e2, g2, p2, f2, m2, n2⟩ :=
      insertAll_spec rs g1 (fun x hx => hr x (by simp [hx]))
    refine ⟨s2, some c1 :: res, ?_, g2, p1.trans p2, ?_, ?_, ?_⟩
    · simp [insertAll, e1, e2]
    · exact .cons ⟨c1, rfl, m2 _ _ k1, stored_of_prefix p2 st1⟩ f2
    · intro k i hk
      apply m2
      by_cases h : k = r.key
      · subst h
        obtain ⟨-, rfl⟩ := x1 i hk
        exact hk
      · rw [o1 k h]; exact hk
    · intro k i c hk hc hn
      by_cases h : k = r.key
      · subst h
        refine ⟨r, by simp, ?_⟩
        have h1 := m2 _ _ k1
        rw [hk] at h1
        have hi : i = c1.id := by simpa using h1
        subst hi
        have h2 := stored_of_prefix p2 st1
        unfold Stored at h2 hc
        rw [hc] at h2
        have : c = c1 := by simpa using h2
        subst this
        exact n1 hn
      · obtain ⟨r', h1, h2⟩ := n2 k i c hk hc (by rw [o1 k h]; exact hn)
        exact ⟨r', by rw [List.find?_cons_of_neg (by simpa using fun h' => h h'.symm)]; exact h1, h2⟩

end Verif.MeshStore
