/- The loop filling the list of rules. -/
import Verif.Spec.Quadrature
import Verif.Lemmas.Prelude
import Mathlib.Data.List.Sort
import Mathlib.Tactic.Linarith
import Mathlib.Tactic.IntervalCases

namespace Verif.Quadrature
variable {ρ : Type} {mk : Nat → Int → Res ρ} {pt : ρ} {order : Int}

/-- A turn of the loop for the dimension succeeds. -/
def Served (mk : Nat → Int → Res ρ) (order : Int) (d : Int) : Prop :=
  0 ≤ d ∧ d ≤ 3 ∧ (d ≠ 0 → ∃ r, mk d.toNat order = .ok r)

theorem setRule_ok {l : List (Option ρ)} {d : Int} (h : Served mk order d) :
    ∃ r, RuleFor mk pt order d.toNat r ∧
      setRule mk pt order l d = .ok (l.set d.toNat (some r)) := by
  by_cases hd : d = 0
  · subst hd
    exact ⟨pt, ⟨fun _ => rfl, fun h => absurd rfl h⟩, by simp [setRule]⟩
  · obtain ⟨r, hr⟩ := h.2.2 hd
    refine ⟨r, ⟨fun h0 => ?_, fun _ => hr⟩, ?_⟩
    · have := h.1; omega
    · simp [setRule, hd, typeByDimension, h.1, h.2.1, hr]

theorem ruleFor_unique {d : Nat} {r r' : ρ} (h : RuleFor mk pt order d r)
    (h' : RuleFor mk pt order d r') : r = r' := by
  by_cases hd : d = 0
  · rw [h.1 hd, h'.1 hd]
  · have := h.2 hd; rw [h'.2 hd] at this; exact (Except.ok.inj this).symm

theorem fill_ok : ∀ (ds : List Int) (l : List (Option ρ)), l.length = 4 →
    (∀ d ∈ ds, Served mk order d) →
    ∃ l', fill mk pt order ds l = (l', none) ∧ l'.length = 4 ∧ ∀ i : Nat, i < 4 →
      ((i : Int) ∈ ds → ∃ r, RuleFor mk pt order i r ∧ l'[i]? = some (some r)) ∧
      ((i : Int) ∉ ds → l'[i]? = l[i]?)
  | [], l, hl, _ => ⟨l, rfl, hl, fun i _ => ⟨by simp, fun _ => rfl⟩⟩
  | d :: ds, l, hl, h => by
    have hd := h d (by simp)
    obtain ⟨r, hr, hs⟩ := setRule_ok (pt := pt) (l := l) hd
    obtain ⟨l', hf, hl', hg⟩ := fill_ok ds (l.set d.toNat (some r)) (by simpa using hl)
      (fun x hx => h x (by simp [hx]))
    refine ⟨l', by simp [fill, hs, hf], hl', fun i hi => ⟨fun hm => ?_, fun hm => ?_⟩⟩
    · by_cases hmem : (i : Int) ∈ ds
      · exact (hg i hi).1 hmem
      · have hid : (i : Int) = d := by
          rcases List.mem_cons.1 hm with h | h
          · exact h
          · exact absurd h hmem
        have hid' : d.toNat = i := by omega
        refine ⟨r, hid' ▸ hr, ?_⟩
        rw [(hg i hi).2 hmem, ← hid', List.getElem?_set_self (by omega)]
    · have hm' : (i : Int) ≠ d ∧ (i : Int) ∉ ds := by simpa using hm
      rw [(hg i hi).2 hm'.2, List.getElem?_set_ne]
      have := hd.1
      omega

theorem fill_error : ∀ (pre : List Int) (d : Int) (post : List Int) (l : List (Option ρ)) (e : Err),
    (∀ x ∈ pre, Served mk order x) → (∀ l, setRule mk pt order l d = .error e) →
    (fill mk pt order (pre ++ d :: post) l).2 = some e
  | [], d, post, l, e, _, hd => by simp [fill, hd]
  | x :: pre, d, post, l, e, h, hd => by
    obtain ⟨r, hr, hs⟩ := setRule_ok (pt := pt) (l := l) (h x (by simp))
    simp only [List.cons_append, fill, hs]
    exact fill_error pre d post _ e (fun y hy => h y (by simp [hy])) hd

/-- A list has a first element which is not served, or all are. -/
theorem first_bad (P : Int → Prop) (ds : List Int) :
    (∀ d ∈ ds, P d) ∨ ∃ pre d post, ds = pre ++ d :: post ∧ (∀ x ∈ pre, P x) ∧ ¬ P d := by
  classical
  induction ds with
  | nil => exact .inl (by simp)
  | cons a t ih =>
    by_cases ha : P a
    · rcases ih with h | ⟨pre, d, post, rfl, hp, hd⟩
      · exact .inl (by simpa using ⟨ha, h⟩)
      · exact .inr ⟨a :: pre, d, post, rfl, by simpa using ⟨ha, hp⟩, hd⟩
    · exact .inr ⟨[], a, t, rfl, by simp, ha⟩

theorem setRule_key {l : List (Option ρ)} {d : Int} (h : ¬ (0 ≤ d ∧ d ≤ 3)) :
    setRule mk pt order l d = .error .keyError := by
  have : d ≠ 0 := by omega
  simp only [setRule, if_neg this, typeByDimension, if_neg h]
  rfl

theorem maxInt_spec {data : List (Nat × Int)} (h : data ≠ []) :
    ∃ k, maxInt (data.map Prod.snd) = .ok k ∧ IsTopOrder data k := by
  have key : ∀ (t : List Int) (a : Int), (t.foldl max a ∈ a :: t) ∧ ∀ x ∈ a :: t, x ≤ t.foldl max a := by
    intro t
    induction t with
    | nil => intro a; simp
    | cons b t ih =>
      intro a
      obtain ⟨h1, h2⟩ := ih (max a b)
      constructor
      · rcases List.mem_cons.1 h1 with h | h
        · simp only [List.foldl_cons]
          rw [h]
          rcases max_choice a b with h | h <;> rw [h] <;> simp
        · simp only [List.foldl_cons, List.mem_cons]; exact .inr (.inr h)
      · intro x hx
        have hb := h2 (max a b) (by simp)
        simp only [List.foldl_cons]
        rcases List.mem_cons.1 hx with rfl | hx
        · exact le_trans (le_max_left _ _) hb
        · rcases List.mem_cons.1 hx with rfl | hx
          · exact le_trans (le_max_right _ _) hb
          · exact h2 x (by simp [hx])
  match data, h with
  | p :: t, _ =>
    refine ⟨_, rfl, ?_, ?_⟩
    · obtain ⟨h1, -⟩ := key (t.map Prod.snd) p.2
      have : (t.map Prod.snd).foldl max p.2 ∈ (p :: t).map Prod.snd := by simpa using h1
      obtain ⟨q, hq, he⟩ := List.mem_map.1 this
      exact ⟨q, hq, he⟩
    · intro q hq
      exact (key (t.map Prod.snd) p.2).2 q.2 (by
        rw [← List.map_cons (f := Prod.snd)]; exact List.mem_map_of_mem hq)

theorem top_unique {data : List (Nat × Int)} {k k' : Int} (h : IsTopOrder data k)
    (h' : IsTopOrder data k') : k = k' := by
  obtain ⟨p, hp, rfl⟩ := h.1
  obtain ⟨q, hq, rfl⟩ := h'.1
  exact le_antisymm (h'.2 _ hp) (h.2 _ hq)

theorem npMax_dims {data : List (Nat × Int)} (h : data ≠ []) :
    ∃ m, npMax (data.map Prod.fst) = .ok m ∧ (∃ p ∈ data, p.1 = m) ∧ ∀ p ∈ data, p.1 ≤ m := by
  have key : ∀ (t : List Nat) (a : Nat), (t.foldl max a ∈ a :: t) ∧ ∀ x ∈ a :: t, x ≤ t.foldl max a := by
    intro t
    induction t with
    | nil => intro a; simp
    | cons b t ih =>
      intro a
      obtain ⟨h1, h2⟩ := ih (max a b)
      constructor
      · rcases List.mem_cons.1 h1 with h | h
        · simp only [List.foldl_cons]
          rw [h]
          rcases max_choice a b with h | h <;> rw [h] <;> simp
        · simp only [List.foldl_cons, List.mem_cons]; exact .inr (.inr h)
      · intro x hx
        have hb := h2 (max a b) (by simp)
        simp only [List.foldl_cons]
        rcases List.mem_cons.1 hx with rfl | hx
        · exact le_trans (le_max_left _ _) hb
        · rcases List.mem_cons.1 hx with rfl | hx
          · exact le_trans (le_max_right _ _) hb
          · exact h2 x (by simp [hx])
  match data, h with
  | p :: t, _ =>
    refine ⟨_, rfl, ?_, ?_⟩
    · obtain ⟨h1, -⟩ := key (t.map Prod.fst) p.1
      have : (t.map Prod.fst).foldl max p.1 ∈ (p :: t).map Prod.fst := by simpa using h1
      obtain ⟨q, hq, he⟩ := List.mem_map.1 this
      exact ⟨q, hq, he⟩
    · intro q hq
      exact (key (t.map Prod.fst) p.1).2 q.1 (by
        rw [← List.map_cons (f := Prod.fst)]; exact List.mem_map_of_mem hq)

theorem mem_npUnique {l : List Nat} {x : Nat} : x ∈ npUnique l ↔ x ∈ l := by
  simp [npUnique, List.mem_insertionSort]

end Verif.Quadrature
