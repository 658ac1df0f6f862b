/- Helper lemmas on the runtime primitives of `Verif.Prelude`. -/
import Verif.Prelude

namespace Verif

@[simp] theorem Res.bind_ok {α β : Type} (a : α) (f : α → Res β) :
    (Except.ok a >>= f) = f a := rfl
@[simp] theorem Res.bind_error {α β : Type} (e : Err) (f : α → Res β) :
    ((Except.error e : Res α) >>= f) = Except.error e := rfl
@[simp] theorem Res.pure_eq {α : Type} (a : α) : (pure a : Res α) = Except.ok a := rfl
@[simp] theorem Res.map_ok {α β : Type} (a : α) (f : α → β) :
    (f <$> (Except.ok a : Res α)) = Except.ok (f a) := rfl

theorem Res.bind_eq_ok {α β : Type} {x : Res α} {f : α → Res β} {b : β} :
    (x >>= f) = Except.ok b ↔ ∃ a, x = Except.ok a ∧ f a = Except.ok b := by
  cases x <;> simp

theorem Res.bind_eq_error {α β : Type} {x : Res α} {f : α → Res β} {e : Err} :
    (x >>= f) = Except.error e ↔
      x = Except.error e ∨ ∃ a, x = Except.ok a ∧ f a = Except.error e := by
  cases x <;> simp

namespace Dict
variable {κ ν : Type} [DecidableEq κ]

@[simp] theorem get?_nil (k : κ) : get? ([] : Dict κ ν) k = none := rfl

theorem get?_set_self (d : Dict κ ν) (k : κ) (v : ν) : (d.set k v).get? k = some v := by
  induction d with
  | nil => simp [set, get?]
  | cons p t ih =>
    obtain ⟨k', v'⟩ := p
    by_cases h : k' = k <;> simp [set, get?, h, ih]

theorem get?_set_ne (d : Dict κ ν) {k k₂ : κ} (v : ν) (hne : k₂ ≠ k) :
    (d.set k v).get? k₂ = d.get? k₂ := by
  induction d with
  | nil => simp [set, get?, Ne.symm hne]
  | cons p t ih =>
    obtain ⟨k', v'⟩ := p
    by_cases h : k' = k
    · subst h; simp [set, get?, Ne.symm hne]
    · by_cases h2 : k' = k₂
      · subst h2; simp [set, get?, h]
      · simp [set, get?, h, h2, ih]

theorem get?_set (d : Dict κ ν) (k k₂ : κ) (v : ν) :
    (d.set k v).get? k₂ = if k₂ = k then some v else d.get? k₂ := by
  by_cases h : k₂ = k
  · subst h; simp [get?_set_self]
  · simp [h, get?_set_ne d v h]

theorem mem_of_get? {d : Dict κ ν} {k : κ} {v : ν} (h : d.get? k = some v) : (k, v) ∈ d := by
  induction d with
  | nil => simp at h
  | cons p t ih =>
    obtain ⟨k', v'⟩ := p
    by_cases hk : k' = k
    · subst hk; simp [get?] at h; simp [h]
    · simp [get?, hk] at h; exact List.mem_cons_of_mem _ (ih h)

theorem get?_eq_none {d : Dict κ ν} {k : κ} : d.get? k = none ↔ k ∉ d.keys := by
  induction d with
  | nil => simp [keys]
  | cons p t ih =>
    obtain ⟨k', v'⟩ := p
    by_cases hk : k' = k
    · subst hk; simp [get?, keys]
    · simp only [keys, List.map_cons, List.mem_cons, not_or] at *
      simp [get?, hk, ih, Ne.symm hk, eq_comm]

theorem get?_isSome {d : Dict κ ν} {k : κ} : (∃ v, d.get? k = some v) ↔ k ∈ d.keys := by
  by_cases h : k ∈ d.keys
  · simp only [h, iff_true]
    cases hg : d.get? k with
    | none => exact absurd h (get?_eq_none.1 hg)
    | some v => exact ⟨v, rfl⟩
  · simp only [h, iff_false]
    rw [get?_eq_none.2 h]; simp

theorem get?_of_mem {d : Dict κ ν} (hd : d.keys.Nodup) {k : κ} {v : ν} (h : (k, v) ∈ d) :
    d.get? k = some v := by
  induction d with
  | nil => simp at h
  | cons p t ih =>
    obtain ⟨k', v'⟩ := p
    simp only [keys, List.map_cons, List.nodup_cons] at hd
    rcases List.mem_cons.1 h with h | h
    · cases h; simp [get?]
    · have : k' ≠ k := by
        rintro rfl
        exact hd.1 (List.mem_map.2 ⟨_, h, rfl⟩)
      simp [get?, this]; exact ih hd.2 h

theorem set_of_not_mem {d : Dict κ ν} {k : κ} (v : ν) (h : k ∉ d.keys) :
    d.set k v = d ++ [(k, v)] := by
  induction d with
  | nil => rfl
  | cons p t ih =>
    obtain ⟨k', v'⟩ := p
    simp only [keys, List.map_cons, List.mem_cons, not_or] at h
    simp [set, Ne.symm h.1]
    exact ih h.2

theorem keys_set_of_mem {d : Dict κ ν} {k : κ} (v : ν) (h : k ∈ d.keys) :
    (d.set k v).keys = d.keys := by
  induction d with
  | nil => simp [keys] at h
  | cons p t ih =>
    obtain ⟨k', v'⟩ := p
    by_cases hk : k' = k
    · subst hk; simp [set, keys]
    · simp only [keys, List.map_cons, List.mem_cons] at *
      simp [set, hk]
      exact ih (h.resolve_left (Ne.symm hk))

theorem keys_set_nodup {d : Dict κ ν} (k : κ) (v : ν) (h : d.keys.Nodup) :
    (d.set k v).keys.Nodup := by
  by_cases hk : k ∈ d.keys
  · rw [keys_set_of_mem v hk]; exact h
  · rw [set_of_not_mem v hk]
    simp only [keys, List.map_append, List.map_cons, List.map_nil] at *
    refine List.nodup_append.2 ⟨h, by simp, ?_⟩
    intro a ha b hb
    simp at hb; subst hb; rintro rfl; exact hk ha

theorem mem_keys_set {d : Dict κ ν} {k k₂ : κ} {v : ν} :
    k₂ ∈ (d.set k v).keys ↔ k₂ = k ∨ k₂ ∈ d.keys := by
  rw [← get?_isSome, ← get?_isSome, get?_set]
  by_cases h : k₂ = k <;> simp [h]

@[simp] theorem getItem_eq_ok {d : Dict κ ν} {k : κ} {v : ν} :
    d.getItem k = .ok v ↔ d.get? k = some v := by
  unfold getItem; cases d.get? k <;> simp

theorem getItem_of_get? {d : Dict κ ν} {k : κ} {v : ν} (h : d.get? k = some v) :
    d.getItem k = .ok v := getItem_eq_ok.2 h

end Dict

/-! ### sorting -/

theorem npSort_perm (l : List Nat) : (npSort l).Perm l := List.perm_insertionSort _ l

theorem npSort_pairwise (l : List Nat) : (npSort l).Pairwise (· ≤ ·) :=
  List.pairwise_insertionSort _ l

theorem npSort_eq_iff {l₁ l₂ : List Nat} : npSort l₁ = npSort l₂ ↔ l₁.Perm l₂ := by
  constructor
  · intro h
    exact ((npSort_perm l₁).symm.trans (h ▸ List.Perm.refl _)).trans (npSort_perm l₂)
  · intro h
    exact List.Perm.eq_of_pairwise (fun a b _ _ h1 h2 => Nat.le_antisymm h1 h2)
      (npSort_pairwise _) (npSort_pairwise _)
      ((npSort_perm l₁).trans (h.trans (npSort_perm l₂).symm))

@[simp] theorem npSort_npSort (l : List Nat) : npSort (npSort l) = npSort l :=
  npSort_eq_iff.2 (npSort_perm l)

@[simp] theorem npSort_length (l : List Nat) : (npSort l).length = l.length :=
  (npSort_perm l).length_eq

@[simp] theorem mem_npSort {a : Nat} {l : List Nat} : a ∈ npSort l ↔ a ∈ l :=
  (npSort_perm l).mem_iff

@[simp] theorem npSort_singleton (a : Nat) : npSort [a] = [a] := rfl

theorem foldl_max_range' (s n : Nat) : ∀ a, a ≤ s →
    (List.range' s n).foldl max a = if n = 0 then a else s + n - 1 := by
  induction n generalizing s with
  | zero => intro a _; simp
  | succ n ih =>
    intro a ha
    rw [List.range'_succ, List.foldl_cons, Nat.max_eq_right ha]
    rw [ih (s + 1) s (by omega)]
    by_cases h : n = 0 <;> simp [h]

theorem npMax_range' (s n : Nat) : npMax (List.range' s (n + 1)) = .ok (s + n) := by
  rw [List.range'_succ]
  simp only [npMax]
  rw [foldl_max_range' _ _ _ (by omega)]
  by_cases h : n = 0 <;> simp [h]

@[simp] theorem getIdx_eq_ok {α : Type} {l : List α} {i : Nat} {a : α} :
    getIdx l i = .ok a ↔ l[i]? = some a := by
  unfold getIdx; cases l[i]? <;> simp

theorem getIdx_of {α : Type} {l : List α} {i : Nat} {a : α} (h : l[i]? = some a) :
    getIdx l i = .ok a := getIdx_eq_ok.2 h

end Verif
