/- Sorting permutations, rows of vectors, sides of triangles. -/
import Verif.Spec.FvTransfer
import Verif.Lemmas.Trace
import Mathlib.Data.List.Sort
import Mathlib.Tactic.Linarith
import Mathlib.Tactic.Ring

namespace Verif.FvTransfer
open MeshGraph Trace
variable {K : Type}

theorem sel_get {α : Type} (l : List α) : ∀ p : List Nat, (∀ i ∈ p, i < l.length) →
    (p.filterMap fun i => l[i]?).length = p.length ∧
    ∀ (k j : Nat), p[k]? = some j → (p.filterMap fun i => l[i]?)[k]? = l[j]?
  | [], _ => by simp
  | i :: p, h => by
    obtain ⟨h1, h2⟩ := sel_get l p (fun x hx => h x (by simp [hx]))
    have hi : i < l.length := h i (by simp)
    have he : l[i]? = some l[i] := List.getElem?_eq_getElem hi
    rw [List.filterMap_cons_some (f := fun i => l[i]?) he]
    refine ⟨by simp [h1], fun k j hk => ?_⟩
    cases k with
    | zero =>
      obtain rfl : i = j := by simpa using hk
      simp [he]
    | succ k => simpa using h2 k j (by simpa using hk)

theorem sel_range {α : Type} (l : List α) :
    ((List.range l.length).filterMap fun i => l[i]?) = l := by
  obtain ⟨h1, h2⟩ := sel_get l (List.range l.length) (by simp)
  apply List.ext_getElem?
  intro k
  by_cases hk : k < l.length
  · exact h2 k k (by simp [hk])
  · rw [List.getElem?_eq_none (by rw [h1]; simpa using hk), List.getElem?_eq_none (by omega)]

theorem perm_lt {l : List Int} {p : List Nat} (h : IsArgsort l p) :
    (∀ i ∈ p, i < l.length) ∧ p.length = l.length := by
  constructor
  · intro i hi; simpa using h.1.mem_iff.1 hi
  · simpa using h.1.length_eq

theorem sel_perm {l : List Int} {p : List Nat} (h : IsArgsort l p) :
    (p.filterMap fun i => l[i]?).Perm l := by
  have := h.1.filterMap fun i => l[i]?
  rwa [sel_range] at this

/-- Sorting a sorting permutation inverts it. -/
theorem argsort_twice {l : List Int} {b c : List Nat} (hb : IsArgsort l b)
    (hc : IsArgsort (b.map Int.ofNat) c) (k : Nat) (hk : k < l.length) :
    ∃ j, c[k]? = some j ∧ b[j]? = some k := by
  obtain ⟨hblt, hbl⟩ := perm_lt hb
  obtain ⟨hclt, hcl⟩ := perm_lt hc
  have hsel : (c.filterMap fun i => (b.map Int.ofNat)[i]?) =
      (List.range l.length).map Int.ofNat := by
    apply List.Perm.eq_of_pairwise' hc.2
    · rw [List.pairwise_map]
      exact (List.pairwise_lt_range).imp (by intro a b h; simp; omega)
    · exact (sel_perm hc).trans (hb.1.map _)
  have hk' : k < c.length := by rw [hcl]; simp [hbl, hk]
  refine ⟨c[k], List.getElem?_eq_getElem hk', ?_⟩
  have h2 := (sel_get (b.map Int.ofNat) c hclt).2 k _ (List.getElem?_eq_getElem hk')
  rw [hsel] at h2
  simp only [List.getElem?_map, List.getElem?_range hk, Option.map_some] at h2
  cases hb' : b[c[k]]? with
  | none => rw [hb'] at h2; simp at h2
  | some x =>
    rw [hb'] at h2
    simp only [Option.map_some, Option.some.injEq] at h2
    have : x = k := by simpa using h2.symm
    rw [this]

theorem mapRes_map {α β : Type} {f : α → Res β} {g : α → β} {l : List α}
    (h : ∀ a ∈ l, f a = .ok (g a)) : mapRes f l = .ok (l.map g) := by
  rw [mapRes_iff]
  induction l with
  | nil => exact .nil
  | cons a t ih => exact .cons (h a (by simp)) (ih fun b hb => h b (by simp [hb]))

theorem fancy_outside {α : Type} {a : List α} {idx : List Nat} {i : Nat} (hi : i ∈ idx)
    (ha : a.length ≤ i) : fancy a idx = .error .indexError := by
  unfold fancy
  induction idx with
  | nil => simp at hi
  | cons j t ih =>
    by_cases hj : j < a.length
    · have hm : i ∈ t := by
        rcases List.mem_cons.1 hi with h | h
        · omega
        · exact h
      have hg : getIdx a j = .ok a[j] := by
        simp [getIdx, List.getElem?_eq_getElem hj]
      show (do let b ← getIdx a j; let bs ← mapRes (getIdx a) t; pure (b :: bs)) = _
      rw [hg, ih hm]
      rfl
    · have hg : getIdx a j = .error .indexError := by
        simp [getIdx, List.getElem?_eq_none (Nat.le_of_not_lt hj)]
      show (do let b ← getIdx a j; let bs ← mapRes (getIdx a) t; pure (b :: bs)) = _
      rw [hg]
      rfl

theorem forall₂_sel {α : Type} {a : List α} {idx : List Nat} {r : List α}
    (h : List.Forall₂ (fun i b => a[i]? = some b) idx r) : r = idx.filterMap fun i => a[i]? := by
  induction h with
  | nil => rfl
  | cons h _ ih => rw [List.filterMap_cons_some h, ← ih]

theorem forall₂_get {α : Type} {a : List α} {idx : List Nat} {r : List α}
    (h : List.Forall₂ (fun i b => a[i]? = some b) idx r) (j : Nat) :
    ∀ i : Nat, idx[i]? = some j → r[i]? = a[j]? := by
  induction h with
  | nil => simp
  | cons h _ ih =>
    intro i hi
    cases i with
    | zero =>
      simp only [List.getElem?_cons_zero, Option.some.injEq] at hi
      rw [← hi, h]; rfl
    | succ k => simpa using ih k (by simpa using hi)

theorem vec_two (a b c : ℝ) : (![a, b, c] : Pt ℝ) 2 = c := rfl

theorem splitRows_ok (v : List K) (n w : Nat) (hn : 0 < n) (hv : v.length = n * w) :
    splitRows v n = .ok ((List.range n).map fun i => (v.drop (i * w)).take w) := by
  have h1 : v.length % n = 0 := by rw [hv]; exact Nat.mul_mod_right n w
  have h2 : v.length / n = w := by rw [hv]; exact Nat.mul_div_cancel_left w hn
  simp [splitRows, Nat.pos_iff_ne_zero.1 hn, h1, h2]

/-- Flattened rows of the same length -/
theorem flatten_get {rows : List (List K)} {w : Nat} (h : ∀ r ∈ rows, r.length = w) :
    rows.flatten.length = rows.length * w ∧
    ∀ (i : Nat) (r : List K), rows[i]? = some r → ∀ c < w, rows.flatten[w * i + c]? = r[c]? := by
  induction rows with
  | nil => simp
  | cons a t ih =>
    obtain ⟨h1, h2⟩ := ih (fun r hr => h r (by simp [hr]))
    have ha := h a (by simp)
    constructor
    · simp only [List.flatten_cons, List.length_append, h1, ha, List.length_cons]; ring
    · intro i r hr c hc
      rw [List.flatten_cons]
      cases i with
      | zero =>
        obtain rfl : a = r := by simpa using hr
        rw [List.getElem?_append_left (by omega)]; simp
      | succ i =>
        rw [List.getElem?_append_right (by rw [ha, Nat.mul_add]; omega)]
        rw [← h2 i r (by simpa using hr) c hc, ha]
        congr 1
        rw [Nat.mul_add]; omega

theorem sq_dist (p q : Pt ℝ) :
    dist p q ^ 2 = (q 0 - p 0) ^ 2 + (q 1 - p 1) ^ 2 + (q 2 - p 2) ^ 2 :=
  Real.sq_sqrt (by positivity)

theorem dist_nonneg (p q : Pt ℝ) : 0 ≤ dist p q := Real.sqrt_nonneg _

/-- Sorting three numbers -/
theorem sort_three (a b c : ℝ) : ∃ x y z, [a, b, c].insertionSort (· ≤ ·) = [x, y, z] ∧
    x ≤ y ∧ y ≤ z ∧ [x, y, z].Perm [a, b, c] := by
  have hp := List.perm_insertionSort (· ≤ ·) [a, b, c]
  have hs := List.pairwise_insertionSort (r := fun x y : ℝ => x ≤ y) [a, b, c]
  have hl := hp.length_eq
  match hm : [a, b, c].insertionSort (· ≤ ·), hl with
  | [x, y, z], _ =>
    rw [hm] at hp hs
    simp only [List.pairwise_cons, List.mem_cons, List.not_mem_nil, or_false] at hs
    exact ⟨x, y, z, rfl, hs.1 y (.inl rfl), hs.2.1 z rfl, hp⟩

end Verif.FvTransfer
