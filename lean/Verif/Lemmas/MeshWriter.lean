/-
Lemmas on the writers of the mesh.
-/
import Verif.Spec.MeshWriter
import Verif.Lemmas.MeshGraph
import Verif.Props.MeshMetrics

namespace Verif.MeshWriter
open MeshBuild MeshGraph MeshMetrics Trace

theorem tagged_eq (cs : List Cell) (d : Nat) :
    cs.filter (fun c => c.dimension == d && c.material.isSome) = tagged cs d := by
  unfold tagged
  refine List.filter_congr fun c _ => ?_
  cases c.material <;> simp [Bool.beq_eq_decide_eq]

theorem rectangular_ok {rows : List (List Nat)} {n : Nat} (h : ∀ r ∈ rows, r.length = n) :
    rectangular rows = .ok rows := by
  unfold rectangular
  match rows, h with
  | [], _ => rfl
  | r :: rows, h =>
    dsimp only
    rw [if_pos]
    rw [List.all_eq_true]
    intro s hs
    rw [h s hs, h r (by simp)]
    simp

theorem rectangular_tagged {cs : List Cell} (hs : Simplices cs) (d : Nat) :
    rectangular ((tagged cs d).map Cell.nodeTags) = .ok ((tagged cs d).map Cell.nodeTags) := by
  refine rectangular_ok (n := d + 1) fun r hr => ?_
  obtain ⟨c, hc, rfl⟩ := List.mem_map.1 hr
  obtain ⟨h1, h2⟩ := List.mem_filter.1 hc
  rw [hs c h1, (of_decide_eq_true h2).1]

/-- The file of a dimension, without colours. -/
theorem fileOf_plain {equitable : DiGraph Node → Nat → Res (Dict Node Nat)} {cs : List Cell} {dim : Nat}
    (hs : Simplices cs) (d : Nat) :
    fileOf equitable false ⟨dim, cs.map some⟩ d =
      if tagged cs d = [] then .ok none
      else if d = 3 ∧ ∃ c ∈ cs, c.dimension = 3 ∧ c.material = none then .error .valueError
      else .ok (some (goodFile cs d)) := by
  unfold fileOf
  simp only [selectCells_filled, Res.bind_ok, tagged_eq, rectangular_tagged hs, List.map_eq_nil_iff]
  split
  · rfl
  · rename_i hne
    simp only [Bool.false_eq_true, if_false, Res.pure_eq, Res.bind_ok]
    split
    · rename_i h
      obtain ⟨rfl, c, hc, hd, hm⟩ := h
      have hlt : (tagged cs 3).length < (cs.filter fun c => c.dimension == 3 && (3 == 3 || c.material.isSome)).length := by
        have hsub : (tagged cs 3).Sublist (cs.filter fun c => c.dimension == 3 && (3 == 3 || c.material.isSome)) := by
          have : tagged cs 3 = (cs.filter fun c => c.dimension == 3 && (3 == 3 || c.material.isSome)).filter
              fun c => c.material.isSome := by
            rw [List.filter_filter, ← tagged_eq]
            refine List.filter_congr fun c _ => ?_
            cases c.material <;> simp
          rw [this]
          exact List.filter_sublist
        refine lt_of_le_of_ne hsub.length_le fun he => ?_
        have heq := hsub.eq_of_length he
        have hmem : c ∈ tagged cs 3 := by
          rw [heq, List.mem_filter]
          exact ⟨hc, by simp [hd]⟩
        have := of_decide_eq_true (List.mem_filter.1 hmem).2
        exact this.2 hm
      unfold meshio
      rw [if_neg]
      · rfl
      · rintro ⟨h, -⟩
        simp only [List.length_map] at h
        omega
    · rename_i h
      have he : (cs.filter fun c => c.dimension == d && (d == 3 || c.material.isSome)) = tagged cs d := by
        rw [← tagged_eq]
        refine List.filter_congr fun c hc => ?_
        by_cases hcd : c.dimension = d
        · by_cases hd3 : d = 3
          · subst hd3
            have : c.material ≠ none := fun hm => h ⟨rfl, c, hc, hcd, hm⟩
            cases hm : c.material
            · exact absurd hm this
            · simp [hcd]
          · simp [hcd, hd3]
        · rw [beq_eq_false_iff_ne.2 hcd, Bool.false_and, Bool.false_and]
      rw [he]
      unfold meshio
      rw [if_pos (by simp)]
      rfl

/-- With colours there is an exception whenever there is a tagged cell of positive dimension. -/
theorem fileOf_colors (equitable : DiGraph Node → Nat → Res (Dict Node Nat)) {cs : List Cell} {dim : Nat}
    (hs : Simplices cs) {d : Nat} (hd : 0 < d) (hne : tagged cs d ≠ []) :
    ∃ e, fileOf equitable true ⟨dim, cs.map some⟩ d = .error e := by
  unfold fileOf
  simp only [selectCells_filled, Res.bind_ok, tagged_eq, rectangular_tagged hs, List.map_eq_nil_iff, if_neg hne,
    if_true]
  have : ∃ e, colorsOf equitable ⟨dim, cs.map some⟩ d ((tagged cs d).map Cell.id) = .error e := by
    unfold colorsOf
    obtain ⟨e, he⟩ := C36_violated equitable (nColors (0 + 1)) ⟨dim, cs.map some⟩ d (0 + 1) hd
    obtain ⟨n, rfl⟩ := Nat.exists_eq_succ_of_ne_zero hd.ne'
    refine ⟨e, ?_⟩
    rw [List.finRange_succ, mapRes]
    have h0 : coloring equitable (nColors (((0 : Fin (n + 1)) : Nat) + 1)) ⟨dim, cs.map some⟩ (n + 1)
      (((0 : Fin (n + 1)) : Nat) + 1) (0 : Fin (n + 1)).isLt = .error e := he
    rw [h0]
    rfl
  obtain ⟨e, he⟩ := this
  exact ⟨e, by rw [he]; rfl⟩

theorem fileOf_none {equitable : DiGraph Node → Nat → Res (Dict Node Nat)} {q : Bool} {cs : List Cell} {dim d : Nat}
    (h : tagged cs d = []) : fileOf equitable q ⟨dim, cs.map some⟩ d = .ok none := by
  unfold fileOf
  simp only [selectCells_filled, Res.bind_ok, tagged_eq, h]
  rfl

theorem writeAll_ok {file : Nat → Res (Option VtkFile)} {cs : List Cell} : ∀ {dims : List Nat},
    (∀ d ∈ dims, file d = if tagged cs d = [] then .ok none else .ok (some (goodFile cs d))) →
    writeAll file dims = (goodFiles cs dims, none)
  | [], _ => rfl
  | d :: dims, h => by
    have ih := writeAll_ok (dims := dims) fun e he => h e (by simp [he])
    rw [writeAll, h d (by simp)]
    by_cases hd : tagged cs d = []
    · rw [if_pos hd]
      dsimp only
      rw [ih]
      simp [goodFiles, hd]
    · rw [if_neg hd]
      dsimp only
      rw [ih]
      simp [goodFiles, hd]

theorem minOf_iff {l : List Nat} {m : Nat} : minOf l = .ok m ↔ m ∈ l ∧ ∀ x ∈ l, m ≤ x := by
  have fold : ∀ (l : List Nat) (a : Nat), l.foldl min a ∈ a :: l ∧ ∀ x ∈ a :: l, l.foldl min a ≤ x := by
    intro l
    induction l with
    | nil => intro a; simp
    | cons b l ih =>
      intro a
      obtain ⟨h1, h2⟩ := ih (min a b)
      rw [List.foldl_cons]
      refine ⟨?_, ?_⟩
      · rcases List.mem_cons.1 h1 with h | h
        · rw [h]
          rcases min_choice a b with h | h <;> rw [h] <;> simp
        · simp [h]
      · intro x hx
        have h0 := h2 (min a b) (by simp)
        rcases List.mem_cons.1 hx with rfl | hx
        · omega
        · rcases List.mem_cons.1 hx with rfl | hx
          · omega
          · exact h2 x (by simp [hx])
  match l with
  | [] => simp [minOf]
  | a :: l =>
    obtain ⟨h1, h2⟩ := fold l a
    rw [minOf]
    constructor
    · intro h
      cases h
      exact ⟨h1, h2⟩
    · rintro ⟨h3, h4⟩
      exact congrArg Except.ok (le_antisymm (h2 _ h3) (h4 _ h1))

theorem maxOf_iff {l : List Nat} {m : Nat} : maxOf l = .ok m ↔ m ∈ l ∧ ∀ x ∈ l, x ≤ m := by
  have fold : ∀ (l : List Nat) (a : Nat), l.foldl max a ∈ a :: l ∧ ∀ x ∈ a :: l, x ≤ l.foldl max a := by
    intro l
    induction l with
    | nil => intro a; simp
    | cons b l ih =>
      intro a
      obtain ⟨h1, h2⟩ := ih (max a b)
      rw [List.foldl_cons]
      refine ⟨?_, ?_⟩
      · rcases List.mem_cons.1 h1 with h | h
        · rw [h]
          rcases max_choice a b with h | h <;> rw [h] <;> simp
        · simp [h]
      · intro x hx
        have h0 := h2 (max a b) (by simp)
        rcases List.mem_cons.1 hx with rfl | hx
        · omega
        · rcases List.mem_cons.1 hx with rfl | hx
          · omega
          · exact h2 x (by simp [hx])
  match l with
  | [] => simp [maxOf]
  | a :: l =>
    obtain ⟨h1, h2⟩ := fold l a
    rw [maxOf]
    constructor
    · intro h
      cases h
      exact ⟨h1, h2⟩
    · rintro ⟨h3, h4⟩
      exact congrArg Except.ok (le_antisymm (h4 _ h1) (h2 _ h3))

end Verif.MeshWriter
