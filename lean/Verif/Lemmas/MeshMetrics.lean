/-
Lemmas for C36 and C37.
-/
import Verif.Spec.MeshMetrics
import Verif.Lemmas.Trace
import Verif.Lemmas.MeshGraph

namespace Verif.MeshMetrics
open MeshBuild MeshGraph Trace

theorem norm3_eq (p q : Pt ℝ) : norm3 (q - p) = dist (toE p) (toE q) := by
  rw [EuclideanSpace.dist_eq]
  simp only [norm3, toE, Fin.sum_univ_three, Real.dist_eq, sq_abs, Pi.sub_apply]
  congr 1; ring

theorem maxR_iff {l : List ℝ} {d : ℝ} : maxR l = .ok d ↔ IsGreatest {x | x ∈ l} d := by
  have key : ∀ (t : List ℝ) (a : ℝ), IsGreatest {x | x ∈ a :: t} (t.foldl max a) := by
    intro t
    induction t with
    | nil => intro a; simp [IsGreatest, upperBounds]
    | cons b t ih =>
      intro a
      obtain ⟨h1, h2⟩ := ih (max a b)
      simp only [List.foldl_cons]
      constructor
      · simp only [Set.mem_ofPred_eq, List.mem_cons] at h1 ⊢
        rcases h1 with h1 | h1
        · rcases max_choice a b with hm | hm
          · left; exact h1.trans hm
          · right; left; exact h1.trans hm
        · right; right; exact h1
      · intro x hx
        simp only [Set.mem_ofPred_eq, List.mem_cons] at hx
        rcases hx with rfl | rfl | hx
        · exact (le_max_left _ b).trans (h2 (by simp))
        · exact (le_max_right a _).trans (h2 (by simp))
        · exact h2 (by simp [hx])
  cases l with
  | nil => simp [maxR, IsGreatest]
  | cons a t =>
    simp only [maxR, Except.ok.injEq]
    exact ⟨fun h => h ▸ key t a, fun h => (key t a).unique h⟩

theorem minR_iff {l : List ℝ} {d : ℝ} : minR l = .ok d ↔ IsLeast {x | x ∈ l} d := by
  have key : ∀ (t : List ℝ) (a : ℝ), IsLeast {x | x ∈ a :: t} (t.foldl min a) := by
    intro t
    induction t with
    | nil => intro a; simp [IsLeast, lowerBounds]
    | cons b t ih =>
      intro a
      obtain ⟨h1, h2⟩ := ih (min a b)
      simp only [List.foldl_cons]
      constructor
      · simp only [Set.mem_ofPred_eq, List.mem_cons] at h1 ⊢
        rcases h1 with h1 | h1
        · rcases min_choice a b with hm | hm
          · left; exact h1.trans hm
          · right; left; exact h1.trans hm
        · right; right; exact h1
      · intro x hx
        simp only [Set.mem_ofPred_eq, List.mem_cons] at hx
        rcases hx with rfl | rfl | hx
        · exact (h2 (by simp : min x b ∈ _)).trans (min_le_left _ _)
        · exact (h2 (by simp : min a x ∈ _)).trans (min_le_right _ _)
        · exact h2 (by simp [hx])
  cases l with
  | nil => simp [minR, IsLeast]
  | cons a t =>
    simp only [minR, Except.ok.injEq]
    exact ⟨fun h => h ▸ key t a, fun h => (key t a).unique h⟩

theorem maxR_exists {l : List ℝ} (h : l ≠ []) : ∃ d, maxR l = .ok d := by
  cases l with
  | nil => exact absurd rfl h
  | cons a t => exact ⟨_, rfl⟩

theorem minR_exists {l : List ℝ} (h : l ≠ []) : ∃ d, minR l = .ok d := by
  cases l with
  | nil => exact absurd rfl h
  | cons a t => exact ⟨_, rfl⟩

theorem mem_pairDiffs {ps : List (Pt ℝ)} {x : ℝ} :
    x ∈ (pairDiffs ps).map norm3 ↔
      ∃ (i j : Nat) (p q : Pt ℝ), i ≠ j ∧ ps[i]? = some p ∧ ps[j]? = some q ∧
        x = dist (toE p) (toE q) := by
  simp only [pairDiffs, List.mem_map, List.mem_flatMap, List.mem_filter, List.mem_zipIdx_iff_getElem?,
    Prod.exists, decide_eq_true_eq]
  constructor
  · rintro ⟨v, ⟨p, i, hp, q, j, ⟨hq, hij⟩, rfl⟩, rfl⟩
    exact ⟨i, j, p, q, hij, hp, hq, norm3_eq p q⟩
  · rintro ⟨i, j, p, q, hij, hp, hq, rfl⟩
    exact ⟨_, ⟨p, i, hp, q, j, ⟨hq, hij⟩, rfl⟩, norm3_eq p q⟩

theorem cellDiam_iff {points : Points ℝ} {c : Cell} {d : ℝ} :
    cellDiam points c = .ok d ↔ ∃ ps,
      List.Forall₂ (fun t p => points[t]? = some p) c.nodeTags ps ∧
      IsGreatest {x | ∃ (i j : Nat) (p q : Pt ℝ), i ≠ j ∧ ps[i]? = some p ∧ ps[j]? = some q ∧
        x = dist (toE p) (toE q)} d := by
  unfold cellDiam
  rw [Res.bind_eq_ok]
  refine exists_congr fun ps => ?_
  rw [fancy_iff, maxR_iff]
  simp only [mem_pairDiffs]

theorem diam_hull {ps : List (Pt ℝ)} {d : ℝ}
    (h : IsGreatest {x | ∃ (i j : Nat) (p q : Pt ℝ), i ≠ j ∧ ps[i]? = some p ∧ ps[j]? = some q ∧
        x = dist (toE p) (toE q)} d) : Metric.diam (hull ps) = d := by
  unfold hull
  rw [convexHull_diam]
  obtain ⟨⟨i, j, p, q, hij, hp, hq, rfl⟩, hu⟩ := h
  apply le_antisymm
  · apply Metric.diam_le_of_forall_dist_le dist_nonneg
    rintro x ⟨p', hp', rfl⟩ y ⟨q', hq', rfl⟩
    obtain ⟨i', hi'⟩ := List.mem_iff_getElem?.1 hp'
    obtain ⟨j', hj'⟩ := List.mem_iff_getElem?.1 hq'
    by_cases he : i' = j'
    · subst he
      rw [hi'] at hj'
      obtain rfl : p' = q' := by simpa using hj'
      simp
    · exact hu ⟨i', j', p', q', he, hi', hj', rfl⟩
  · refine Metric.dist_le_diam_of_mem ?_ ⟨p, List.mem_of_getElem? hp, rfl⟩
      ⟨q, List.mem_of_getElem? hq, rfl⟩
    have : {x | ∃ p ∈ ps, x = toE p} = {x | x ∈ ps.map toE} := by
      ext x; simp [eq_comm]
    rw [this]
    exact (List.finite_toSet _).isBounded

theorem mean_bounds {l : List ℝ} (hl : l ≠ []) {a b : ℝ} (ha : ∀ x ∈ l, a ≤ x)
    (hb : ∀ x ∈ l, x ≤ b) : a ≤ l.sum / l.length ∧ l.sum / l.length ≤ b := by
  have hpos : (0 : ℝ) < l.length := by
    have := List.length_pos_iff.2 hl
    exact_mod_cast this
  rw [le_div_iff₀ hpos, div_le_iff₀ hpos]
  have h1 := List.card_nsmul_le_sum l a ha
  have h2 := List.sum_le_card_nsmul l b hb
  rw [nsmul_eq_mul] at h1 h2
  constructor <;> linarith

theorem meshSize_filled {m : Mesh} {cs : List Cell} (hcs : m.cells = cs.map some)
    (points : Points ℝ) (dim : Option Nat) (tag : Option Int) :
    meshSize m points dim tag = (do
      let sizes ← mapRes (cellDiam points) (cs.filter fun c => Selected m dim tag c)
      let mn ← minR sizes
      let mx ← maxR sizes
      pure (mn, sizes.sum / sizes.length, mx)) := by
  unfold meshSize
  simp only [hcs, selectCells_filled, Res.bind_ok]
  congr 2
  apply List.filter_congr
  intro c _
  cases tag with
  | none => rw [Bool.eq_iff_iff]; simp [Selected]
  | some t => rw [Bool.eq_iff_iff]; simp [Selected]

end Verif.MeshMetrics

namespace Verif.MeshMetrics
open MeshBuild MeshGraph

theorem ofList_nodup {κ ν : Type} [DecidableEq κ] : ∀ {l : List (κ × ν)},
    (l.map Prod.fst).Nodup → Dict.ofList l = l := by
  intro l
  unfold Dict.ofList
  induction l using List.reverseRecOn with
  | nil => simp
  | append_singleton l p ih =>
    intro h
    rw [List.map_append, List.nodup_append] at h
    rw [List.foldl_append, ih h.1]
    simp only [List.foldl_cons, List.foldl_nil]
    rw [Dict.set_of_not_mem]
    intro hp
    exact h.2.2 p.1 hp p.1 (by simp) rfl

theorem groupByColor_get? (l : List (PyVal × Nat)) (k : Nat) :
    (groupByColor l).get? k =
      if (l.filter fun it => it.2 = k) = [] then none
      else some ((l.filter fun it => it.2 = k).map Prod.fst) := by
  unfold groupByColor
  induction l using List.reverseRecOn with
  | nil => simp
  | append_singleton l p ih =>
    rw [List.foldl_append]
    simp only [List.foldl_cons, List.foldl_nil, List.filter_append, List.map_append]
    generalize hd : l.foldl (fun (d : Dict Nat (List PyVal)) it =>
      match Dict.get? d it.2 with
      | none => Dict.set d it.2 [it.1]
      | some l => Dict.set d it.2 (l ++ [it.1])) ([] : Dict Nat (List PyVal)) = d at ih
    by_cases hk : p.2 = k
    · subst hk
      rw [ih]
      by_cases hl : (l.filter fun it => it.2 = p.2) = []
      · simp [hl, Dict.get?_set_self]
      · simp [hl, Dict.get?_set_self]
    · have : ([p].filter fun it => it.2 = k) = [] := by simp [hk]
      rw [this]
      simp only [List.append_nil, List.map_nil]
      rw [← ih]
      split <;> exact Dict.get?_set_ne _ _ (fun h => hk h.symm)

theorem compress_spec (colors : List Nat) :
    (∀ a ∈ colors, ∀ b ∈ colors, compress colors a = compress colors b ↔ a = b) ∧
    (∀ k, k < colors.toFinset.card ↔ ∃ a ∈ colors, compress colors a = k) ∧
    (∀ a ∈ colors, ∀ b ∈ colors, a < b → compress colors a < compress colors b) := by
  have hmem : ∀ a, a ∈ npSort (uniq colors) ↔ a ∈ colors := by simp
  have hnd : (npSort (uniq colors)).Nodup := (npSort_perm _).nodup_iff.2 (nodup_uniq _)
  have hcard : colors.toFinset.card = (npSort (uniq colors)).length := by
    rw [← List.toFinset_card_of_nodup hnd]
    congr 1; ext a; simp
  have hinj : ∀ a ∈ colors, ∀ b ∈ colors, compress colors a = compress colors b ↔ a = b := by
    intro a ha b hb
    unfold compress
    exact List.idxOf_inj ((hmem a).2 ha)
  have hsort : (npSort (uniq colors)).Pairwise (· < ·) := by
    have h1 := npSort_pairwise (uniq colors)
    exact (h1.and hnd).imp fun h => lt_of_le_of_ne h.1 h.2
  refine ⟨hinj, ?_, ?_⟩
  · intro k
    rw [hcard]
    constructor
    · intro hk
      exact ⟨(npSort (uniq colors))[k], (hmem _).1 (List.getElem_mem hk),
        by unfold compress; exact hnd.idxOf_getElem k hk⟩
    · rintro ⟨a, ha, rfl⟩
      exact List.idxOf_lt_length_of_mem ((hmem a).2 ha)
  · intro a ha b hb hab
    by_contra hn
    have hle := Nat.not_lt.1 hn
    have h1 := List.idxOf_lt_length_of_mem ((hmem a).2 ha)
    have h2 := List.idxOf_lt_length_of_mem ((hmem b).2 hb)
    rcases Nat.lt_or_eq_of_le hle with h | h
    · have := List.pairwise_iff_getElem.1 hsort _ _ h2 h1 h
      simp only [List.getElem_idxOf] at this
      omega
    · have := (hinj b hb a ha).1 h
      omega

end Verif.MeshMetrics
