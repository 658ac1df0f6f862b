/-
Lemmas for C99: vertices embedded in an edge.
-/
import Verif.Spec.EmbedVertex
import Verif.Lemmas.FractureSplit
import Verif.Lemmas.VertexOps

namespace Verif.VertexOps
open MeshBuild MeshGraph Trace MeshMetrics Geometry
open scoped Classical

/-! ### `np.unique` -/

theorem lexLe_trans {x y z : Pt ℝ} (h1 : LexLe x y) (h2 : LexLe y z) : LexLe x z := by
  unfold LexLe at *
  rcases h1 with h1 | ⟨e1, h1⟩ <;> rcases h2 with h2 | ⟨e2, h2⟩
  · exact Or.inl (h1.trans h2)
  · exact Or.inl (e2 ▸ h1)
  · exact Or.inl (e1 ▸ h2)
  · refine Or.inr ⟨e1.trans e2, ?_⟩
    rcases h1 with h1 | ⟨f1, h1⟩ <;> rcases h2 with h2 | ⟨f2, h2⟩
    · exact Or.inl (h1.trans h2)
    · exact Or.inl (f2 ▸ h1)
    · exact Or.inl (f1 ▸ h2)
    · exact Or.inr ⟨f1.trans f2, h1.trans h2⟩

theorem lexLe_total (x y : Pt ℝ) : LexLe x y ∨ LexLe y x := by
  unfold LexLe
  rcases lt_trichotomy (x 0) (y 0) with h | h | h
  · exact Or.inl (Or.inl h)
  · rcases lt_trichotomy (x 1) (y 1) with g | g | g
    · exact Or.inl (Or.inr ⟨h, Or.inl g⟩)
    · rcases le_total (x 2) (y 2) with k | k
      · exact Or.inl (Or.inr ⟨h, Or.inr ⟨g, k⟩⟩)
      · exact Or.inr (Or.inr ⟨h.symm, Or.inr ⟨g.symm, k⟩⟩)
    · exact Or.inr (Or.inr ⟨h.symm, Or.inl g⟩)
  · exact Or.inr (Or.inl h)

theorem mem_firstOnes : ∀ {vs : List Vtx} {v : Vtx}, v ∈ firstOnes vs ↔ IsFirst vs v
  | [], v => by simp [firstOnes, IsFirst]
  | u :: vs, v => by
    unfold IsFirst
    rw [firstOnes, List.mem_cons, List.mem_filter, mem_firstOnes (vs := vs), List.find?_cons]
    by_cases h : u.point = v.point
    · simp only [h, decide_true, Option.some.injEq, decide_eq_true_eq, ne_eq]
      constructor
      · rintro (rfl | ⟨-, h'⟩)
        · rfl
        · simp at h'
      · rintro rfl
        exact Or.inl rfl
    · simp only [h, decide_false, decide_eq_true_eq, ne_eq]
      constructor
      · rintro (rfl | ⟨h', -⟩)
        · exact absurd rfl h
        · exact h'
      · intro h'
        exact Or.inr ⟨h', fun e => h e.symm⟩

theorem firstOnes_nodup : ∀ vs : List Vtx, (firstOnes vs).Pairwise fun v w => v.point ≠ w.point
  | [] => List.Pairwise.nil
  | u :: vs => by
    rw [firstOnes, List.pairwise_cons]
    refine ⟨fun w hw => ?_, (firstOnes_nodup vs).sublist List.filter_sublist⟩
    have := (List.mem_filter.1 hw).2
    simp only [ne_eq, decide_eq_true_eq] at this
    exact fun e => this e.symm

theorem mem_unique {vs : List Vtx} {v : Vtx} : v ∈ uniqueVertices vs ↔ IsFirst vs v := by
  unfold uniqueVertices
  rw [(List.mergeSort_perm _ _).mem_iff, mem_firstOnes]

theorem unique_once (vs : List Vtx) :
    (uniqueVertices vs).Pairwise fun v w => LexLe v.point w.point ∧ v.point ≠ w.point := by
  refine List.Pairwise.and ?_ ?_
  · have := List.pairwise_mergeSort (le := fun v w : Vtx => decide (LexLe v.point w.point))
      (fun a b c h1 h2 => by
        simp only [decide_eq_true_eq] at *
        exact lexLe_trans h1 h2)
      (fun a b => by simpa using lexLe_total a.point b.point) (firstOnes vs)
    exact this.imp fun h => of_decide_eq_true h
  · exact ((List.mergeSort_perm (firstOnes vs) _).pairwise_iff fun h => Ne.symm h).2 (firstOnes_nodup vs)

theorem IsFirst.mem {vs : List Vtx} {v : Vtx} (h : IsFirst vs v) : v ∈ vs := List.mem_of_find?_eq_some h

theorem exists_first {vs : List Vtx} {v : Vtx} (h : v ∈ vs) : ∃ w, IsFirst vs w ∧ w.point = v.point := by
  cases hf : vs.find? fun w => decide (w.point = v.point) with
  | none => exact absurd (List.find?_eq_none.1 hf v h) (by simp)
  | some w =>
    have hw : w.point = v.point := by simpa using List.find?_some hf
    exact ⟨w, by unfold IsFirst; rw [hw]; exact hf, hw⟩

/-! ### The ends -/

/-- The state after some vertices, with their numbers, have been compared with the ends. -/
structure EndsAfter (a b : Vtx) (done : List (Vtx × Nat)) (s : Ends) : Prop where
  first : s.first.point = a.point ∧ ((∃ i, (s.first, i) ∈ done) ∨
    (s.first = a ∧ ∀ x ∈ done, x.1.point ≠ a.point))
  second : s.second.point = b.point ∧ ((∃ i, (s.second, i) ∈ done) ∨
    (s.second = b ∧ ∀ x ∈ done, x.1.point ≠ b.point))
  onBc : ∀ i, i ∈ s.onBc ↔ ∃ x ∈ done, x.2 = i ∧ (x.1.point = a.point ∨ x.1.point = b.point)

theorem close_self (x : Pt ℝ) : DefaultClose x x := by
  intro k
  unfold IsClose
  rw [sub_self, abs_zero]
  positivity

theorem ends_fold {a b : Vtx} (hab : a.point ≠ b.point) : ∀ (todo done : List (Vtx × Nat)) (s : Ends),
    EndsAfter a b done s →
    (∀ x ∈ todo, x.1.point ≠ a.point → ¬ DefaultClose x.1.point a.point) →
    (∀ x ∈ todo, x.1.point ≠ b.point → ¬ DefaultClose x.1.point b.point) →
    EndsAfter a b (done ++ todo) (todo.foldl endStep s)
  | [], done, s, h, _, _ => by simpa using h
  | x :: todo, done, s, h, h1, h2 => by
    rw [List.foldl_cons, show done ++ x :: todo = (done ++ [x]) ++ todo by simp]
    refine ends_fold hab todo (done ++ [x]) _ ?_ (fun y hy => h1 y (by simp [hy])) fun y hy => h2 y (by simp [hy])
    obtain ⟨f1, f2⟩ := h.first
    obtain ⟨s1, s2⟩ := h.second
    have mono1 : ∀ {v : Vtx}, (∃ i, (v, i) ∈ done) → ∃ i, (v, i) ∈ done ++ [x] := fun ⟨i, hi⟩ => ⟨i, by simp [hi]⟩
    unfold endStep
    by_cases ha : x.1.point = a.point
    · rw [if_pos (by rw [f1, ha]; exact close_self _)]
      refine ⟨⟨ha, Or.inl ⟨x.2, by simp⟩⟩, ⟨s1, ?_⟩, ?_⟩
      · rcases s2 with s2 | ⟨s2, s3⟩
        · exact Or.inl (mono1 s2)
        · refine Or.inr ⟨s2, fun y hy => ?_⟩
          rcases List.mem_append.1 hy with hy | hy
          · exact s3 y hy
          · rw [List.mem_singleton.1 hy, ha]; exact hab
      · intro i
        simp only [List.mem_append, List.mem_singleton, h.onBc]
        constructor
        · rintro (⟨y, hy, e, h⟩ | rfl)
          · exact ⟨y, Or.inl hy, e, h⟩
          · exact ⟨x, Or.inr rfl, rfl, Or.inl ha⟩
        · rintro ⟨y, hy | rfl, e, h⟩
          · exact Or.inl ⟨y, hy, e, h⟩
          · exact Or.inr e.symm
    · rw [if_neg (by rw [f1]; exact h1 x (by simp) ha)]
      have keep : ∀ {v : Vtx}, v = a ∧ (∀ x ∈ done, x.1.point ≠ a.point) →
          v = a ∧ ∀ y ∈ done ++ [x], y.1.point ≠ a.point := fun ⟨e, h⟩ => ⟨e, fun y hy => by
        rcases List.mem_append.1 hy with hy | hy
        · exact h y hy
        · rw [List.mem_singleton.1 hy]; exact ha⟩
      by_cases hb : x.1.point = b.point
      · rw [if_pos (by rw [s1, hb]; exact close_self _)]
        refine ⟨⟨f1, f2.imp mono1 keep⟩, ⟨hb, Or.inl ⟨x.2, by simp⟩⟩, ?_⟩
        intro i
        simp only [List.mem_append, List.mem_singleton, h.onBc]
        constructor
        · rintro (⟨y, hy, e, h⟩ | rfl)
          · exact ⟨y, Or.inl hy, e, h⟩
          · exact ⟨x, Or.inr rfl, rfl, Or.inr hb⟩
        · rintro ⟨y, hy | rfl, e, h⟩
          · exact Or.inl ⟨y, hy, e, h⟩
          · exact Or.inr e.symm
      · rw [if_neg (by rw [s1]; exact h2 x (by simp) hb)]
        have keep' : s.second = b ∧ (∀ x ∈ done, x.1.point ≠ b.point) →
            s.second = b ∧ ∀ y ∈ done ++ [x], y.1.point ≠ b.point := fun ⟨e, h⟩ => ⟨e, fun y hy => by
          rcases List.mem_append.1 hy with hy | hy
          · exact h y hy
          · rw [List.mem_singleton.1 hy]; exact hb⟩
        refine ⟨⟨f1, f2.imp mono1 keep⟩, ⟨s1, s2.imp mono1 keep'⟩, ?_⟩
        · intro i
          rw [h.onBc]
          simp only [List.mem_append, List.mem_singleton]
          constructor
          · rintro ⟨y, hy, e⟩
            exact ⟨y, Or.inl hy, e⟩
          · rintro ⟨y, hy | rfl, e, h | h⟩
            · exact ⟨y, hy, e, Or.inl h⟩
            · exact ⟨y, hy, e, Or.inr h⟩
            · exact absurd h ha
            · exact absurd h hb

/-! ### The parts -/

theorem joins_partsOf : ∀ (chain : List Vtx) (tag : Int), chain ≠ [] → Joins chain tag (partsOf tag chain)
  | [], _, h => absurd rfl h
  | [v], tag, _ => ⟨rfl, by simp [partsOf]⟩
  | v :: w :: vs, tag, _ => by
    have ih := joins_partsOf (w :: vs) (tag + 1) (by simp)
    refine ⟨by rw [partsOf, List.length_cons, ih.count]; rfl, ?_⟩
    intro i e h
    rw [partsOf] at h
    cases i with
    | zero =>
      simp only [List.getElem?_cons_zero, Option.some.injEq] at h
      subst h
      unfold mkEdge
      split_ifs with ht
      · exact ⟨by simp, rfl, ht.le, v, w, rfl, rfl, Or.inr ⟨rfl, rfl⟩⟩
      · exact ⟨by simp, rfl, not_lt.1 ht, v, w, rfl, rfl, Or.inl ⟨rfl, rfl⟩⟩
    | succ i =>
      obtain ⟨h1, h2, h3, x, y, h4, h5, h6⟩ := ih.joined i e (by simpa using h)
      exact ⟨by rw [h1]; push_cast; ring, h2, h3, x, y, by simpa using h4, by simpa using h5, h6⟩

/-- A list in the order of a function that is least at `a` and greatest at `b` -/
theorem sorted_ends {α : Type} {D : α → ℝ} {a b : α} {l sorted : List α} (hp : sorted.Perm (a :: b :: l))
    (ho : sorted.Pairwise fun v w => D v ≤ D w) (ha : ∀ x ∈ l, D a < D x) (hb : ∀ x ∈ l, D x < D b)
    (hab : D a < D b) : ∃ inner, sorted = a :: inner ++ [b] ∧ inner.Perm l := by
  match sorted, hp, ho with
  | [], hp, _ => simpa using hp.length_eq
  | x :: t, hp, ho =>
    obtain ⟨h1, h2⟩ := List.pairwise_cons.1 ho
    have hx : x = a := by
      by_contra hne
      have hat : a ∈ t := by
        have : a ∈ x :: t := hp.mem_iff.2 (by simp)
        exact (List.mem_cons.1 this).resolve_left fun e => hne e.symm
      have hle := h1 a hat
      have hxm : x ∈ a :: b :: l := hp.mem_iff.1 (by simp)
      simp only [List.mem_cons] at hxm
      rcases hxm with e | rfl | hxl
      · exact hne e
      · exact absurd hle (not_le.2 hab)
      · exact absurd hle (not_le.2 (ha x hxl))
    subst hx
    have hp := hp.cons_inv
    rcases List.eq_nil_or_concat t with rfl | ⟨t', y, rfl⟩
    · simpa using hp.length_eq
    · rw [List.concat_eq_append] at *
      have hy : y = b := by
        by_contra hne
        have hbt : b ∈ t' := by
          have : b ∈ t' ++ [y] := hp.mem_iff.2 (by simp)
          rcases List.mem_append.1 this with h | h
          · exact h
          · exact absurd (List.mem_singleton.1 h).symm hne
        have hle := (List.pairwise_append.1 h2).2.2 b hbt y (by simp)
        have hym : y ∈ b :: l := hp.mem_iff.1 (by simp)
        rcases List.mem_cons.1 hym with e | hyl
        · exact hne e
        · exact absurd hle (not_le.2 (hb y hyl))
      subst hy
      exact ⟨t', rfl, ((List.perm_append_singleton y t').symm.trans hp).cons_inv⟩

theorem between_line {a d : Pt ℝ} {r s t : ℝ} (h1 : r ≤ t) (h2 : t ≤ s) :
    a + t • d ∈ segment ℝ (a + r • d) (a + s • d) := by
  rcases (h1.trans h2).eq_or_lt with h | h
  · have : t = r := le_antisymm (h ▸ h2) h1
    rw [this]
    exact left_mem_segment ℝ _ _
  · have hp : 0 < s - r := by linarith
    refine mem_segment_iff.2 ⟨(t - r) / (s - r), div_nonneg (by linarith) hp.le, (div_le_one hp).2 (by linarith), ?_⟩
    rw [show a + s • d - (a + r • d) = (s - r) • d by module, smul_smul, div_mul_cancel₀ _ hp.ne']
    module

/-- Consecutive points along a segment leave no gap. -/
theorem chain_covers {a d : Pt ℝ} : ∀ (chain : List Vtx) (tag : Int) (parts : List Edg) (x y : Vtx) (mid : List Vtx),
    chain = x :: mid ++ [y] → Joins chain tag parts → (∀ v ∈ chain, ∃ t : ℝ, v.point = a + t • d) →
    ∀ (r s t : ℝ), x.point = a + r • d → y.point = a + s • d → r ≤ t → t ≤ s →
      ∃ e ∈ parts, a + t • d ∈ segment ℝ e.first.point e.second.point := by
  intro chain tag parts x y mid
  induction mid generalizing chain tag parts x with
  | nil =>
    rintro rfl hj hl r s t hx hy h1 h2
    have hc := hj.count
    obtain ⟨e, rfl⟩ : ∃ e, parts = [e] := List.length_eq_one_iff.1 (by simpa using hc)
    refine ⟨e, by simp, ?_⟩
    obtain ⟨-, -, -, v, w, hv, hw, he⟩ := hj.joined 0 e rfl
    have hv : x = v := by simpa using hv
    have hw : y = w := by simpa using hw
    subst hv hw
    have : a + t • d ∈ segment ℝ x.point y.point := by
      rw [hx, hy]
      exact between_line h1 h2
    rcases he with ⟨e1, e2⟩ | ⟨e1, e2⟩
    · rw [e1, e2]; exact this
    · rw [e1, e2, segment_symm]; exact this
  | cons z mid ih =>
    rintro rfl hj hl r s t hx hy h1 h2
    obtain ⟨q, hq⟩ := hl z (by simp)
    match parts, hj with
    | [], hj => simpa using hj.count
    | e :: parts, hj =>
      by_cases htq : t ≤ q
      · refine ⟨e, by simp, ?_⟩
        obtain ⟨-, -, -, v, w, hv, hw, he⟩ := hj.joined 0 e rfl
        have hv : x = v := by simpa using hv
        have hw : z = w := by simpa using hw
        subst hv hw
        have : a + t • d ∈ segment ℝ x.point z.point := by
          rw [hx, hq]
          exact between_line h1 htq
        rcases he with ⟨e1, e2⟩ | ⟨e1, e2⟩
        · rw [e1, e2]; exact this
        · rw [e1, e2, segment_symm]; exact this
      · have hj' : Joins (z :: mid ++ [y]) (tag + 1) parts := by
          refine ⟨by simpa using hj.count, fun i e' he' => ?_⟩
          obtain ⟨g1, g2, g3, v, w, g4, g5, g6⟩ := hj.joined (i + 1) e' (by simpa using he')
          exact ⟨by rw [g1]; push_cast; ring, g2, g3, v, w, by simpa using g4, by simpa using g5, g6⟩
        obtain ⟨e', he', h⟩ := ih _ _ _ z rfl hj' (fun v hv => hl v (by simp at hv ⊢; tauto)) q s t hq hy
          (not_le.1 htq).le h2
        exact ⟨e', by simp [he'], h⟩

end Verif.VertexOps
