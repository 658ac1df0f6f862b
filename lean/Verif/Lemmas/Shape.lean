/-
Lemmas on shape equality and wire orientation.
-/
import Verif.Spec.Shape
import Verif.Lemmas.Prelude
import Mathlib.Tactic.FinCases
import Mathlib.Tactic.NormNum

namespace Verif.Topology.Shape
variable {P : Type} {close : P → P → Bool}

theorem view_dimension (s : Shape P) : s.view.dimension = s.dimension := by
  cases s <;> rfl

theorem view_tag (s : Shape P) : s.view.tag = s.tag := by
  cases s <;> rfl

theorem viewAll_eq (l : List (Shape P)) : viewAll l = l.map view := by
  induction l with
  | nil => rfl
  | cons a l ih => simp [viewAll, ih]

theorem view_boundary (s : Shape P) : s.view.boundary = s.boundary.map view := by
  cases s <;> simp [view, boundary, viewAll_eq]

theorem view_immersed (s : Shape P) : s.view.immersed =
    match s with
    | .composed .wire _ _ _ i => expand (i.map view)
    | _ => s.immersed.map view := by
  cases s with
  | vertex => rfl
  | composed k => cases k <;> simp [view, immersed, viewAll_eq]

mutual
theorem eq_refl (hc : ∀ x, close x x = true) : (s : Shape P) → eq close s s = .ok true
  | .vertex t _ x => by simp [eq, hc]
  | .composed k t p b i => by
    have hb := eqAll_refl hc b
    have hi := eqAll_refl hc i
    simp only [eq, boundary, immersed, dimension, tag, hb, hi]
    by_cases h1 : b.length = 0 <;> by_cases h2 : i.length = 0 <;>
      simp [h1, h2, bind, Except.bind, pure, Except.pure]
theorem eqAll_refl (hc : ∀ x, close x x = true) : (l : List (Shape P)) → eqAll close l l = .ok true
  | [] => rfl
  | s :: ss => by
    simp [eqAll, eq_refl hc s, eqAll_refl hc ss, bind, Except.bind, pure, Except.pure]
end

/-- `==` is true. -/
abbrev Equal (close : P → P → Bool) (a b : Shape P) : Prop := eq close a b = .ok true

theorem eqAll_true {as bs : List (Shape P)} (hl : as.length = bs.length) :
    eqAll close as bs = .ok true ↔ List.Forall₂ (Equal close) as bs := by
  induction as generalizing bs with
  | nil =>
    cases bs with
    | nil => simp [eqAll, pure, Except.pure]
    | cons => simp at hl
  | cons a as ih =>
    cases bs with
    | nil => simp at hl
    | cons b bs =>
      simp only [List.length_cons, Nat.add_right_cancel_iff] at hl
      rw [List.forall₂_cons, ← ih hl]
      simp only [eqAll, bind, Except.bind, pure, Except.pure, Equal]
      rcases eq close a b with e | x
      · simp
      · rcases eqAll close as bs with e | y
        · simp
        · cases x <;> cases y <;> simp

/-- Exactly when a composed shape equals another one. -/
theorem eq_composed {k : Kind} {t : Int} {p : Option Int} {b i : List (Shape P)} {other : Shape P} :
    Equal close (.composed k t p b i) other ↔
      k.dimension = other.dimension ∧ t = other.tag ∧ b.length = other.boundary.length ∧
      i.length = other.immersed.length ∧
      (i = [] → List.Forall₂ (Equal close) b other.boundary) ∧
      (i ≠ [] → List.Forall₂ (Equal close) i other.immersed ∧
        ∃ r, eqAll close b other.boundary = .ok r) := by
  unfold Equal
  simp only [eq]
  by_cases hb : b.length = other.boundary.length
  · by_cases hi : i.length = other.immersed.length
    · have eb : (if b.length != 0 && b.length == other.boundary.length then
          eqAll close b other.boundary else pure true) = eqAll close b other.boundary := by
        split
        · rfl
        · rename_i h
          have h0 : b = [] := by
            cases b with
            | nil => rfl
            | cons => simp [← hb] at h
          subst h0
          cases hbb : other.boundary <;> rfl
      rw [eb]
      by_cases h0 : i = []
      · subst h0
        have := eqAll_true (close := close) hb
        rcases hr : eqAll close b other.boundary with e | x
        · rw [hr] at this
          simp [bind, Except.bind, ← this]
        · rw [hr] at this
          have hx : List.Forall₂ (Equal close) b other.boundary ↔ x = true := by
            rw [← this]; simp
          have hi' : other.immersed.length = 0 := by simpa using hi.symm
          simp [bind, Except.bind, pure, Except.pure, hx, hb, hi', and_assoc]
      · have h1 : i.length ≠ 0 := fun h => h0 (List.length_eq_zero_iff.1 h)
        have hq : (i.length != 0 && i.length == other.immersed.length) = true := by simp [h0, ← hi]
        simp only [hq, if_true]
        have := eqAll_true (close := close) hi
        rcases eqAll close b other.boundary with e | x
        · simp [bind, Except.bind, h0]
        · rcases hr : eqAll close i other.immersed with e | y
          · rw [hr] at this
            simp [bind, Except.bind, h0, ← this]
          · rw [hr] at this
            have hy : List.Forall₂ (Equal close) i other.immersed ↔ y = true := by
              rw [← this]; simp
            simp [bind, Except.bind, pure, Except.pure, h0, hb, hi, hy, and_assoc]
    · constructor
      · intro h
        exfalso
        have hi' : (i.length == other.immersed.length) = false := by simpa using hi
        revert h
        simp only [bind, Except.bind, pure, Except.pure, hi']
        split <;> simp
      · rintro ⟨-, -, -, h, -⟩
        exact absurd h hi
  · constructor
    · intro h
      exfalso
      have hb' : (b.length == other.boundary.length) = false := by simpa using hb
      revert h
      simp only [bind, Except.bind, pure, Except.pure, hb']
      split <;> simp
      split <;> simp
    · rintro ⟨-, -, h, -⟩
      exact absurd h hb

theorem forall₂_length {α β : Type} {R : α → β → Prop} {l : List α} {l' : List β}
    (h : List.Forall₂ R l l') : l.length = l'.length := h.length_eq

mutual
/-- If both comparisons give an answer, they give the same one when it is `True` once. -/
theorem eq_symm (hc : ∀ x y, close x y = true → close y x = true) : (a b : Shape P) →
    Equal close a b → ∀ r, eq close b a = .ok r → r = true
  | .vertex t _ x, .vertex t' _ x', h, r, hr => by
    simp only [Equal, eq, Except.ok.injEq, Bool.and_eq_true, beq_iff_eq] at h hr
    rw [← hr]
    simp [h.1, hc _ _ h.2]
  | .vertex .., .composed .., h, _, _ => by simp [Equal, eq] at h
  | .composed k t p b i, .vertex .., h, _, _ => by
    have h1 := (eq_composed.1 h).1
    cases k <;> simp [Kind.dimension, dimension] at h1
  | .composed k t p b i, .composed k' t' p' b' i', h, r, hr => by
    obtain ⟨h1, h2, h3, h4, h5, h6⟩ := eq_composed.1 h
    simp only [dimension, tag, boundary, immersed] at h1 h2 h3 h4 h5 h6
    have key : Equal close (.composed k' t' p' b' i') (.composed k t p b i) → r = true := by
      intro h'
      rw [Equal, hr] at h'
      simpa using h'
    have fb := eqAll_symm hc b b'
    have fi := eqAll_symm hc i i'
    -- the two comparisons inside `eq`
    have hr' : (do
        let byBoundary ←
          (if b'.length != 0 && b'.length == b.length then eqAll close b' b else pure true)
        let byBoundary ←
          (if i'.length != 0 && i'.length == i.length then eqAll close i' i else pure byBoundary)
        pure (k'.dimension == k.dimension && t' == t && b'.length == b.length
          && i'.length == i.length && byBoundary) : Res Bool) = .ok r := by
      rw [← hr, eq]
      rfl
    obtain ⟨x, hx, hr'⟩ := Res.bind_eq_ok.1 hr'
    obtain ⟨y, hy, hr'⟩ := Res.bind_eq_ok.1 hr'
    have hxx : ∃ z, eqAll close b' b = .ok z ∧ (z = true ∨ z = x) := by
      split at hx
      · exact ⟨x, hx, Or.inr rfl⟩
      · rename_i h0
        have : b' = [] := by
          cases b' with
          | nil => rfl
          | cons => simp [h3] at h0
        subst this
        cases b <;> exact ⟨true, rfl, Or.inl rfl⟩
    obtain ⟨z, hz, -⟩ := hxx
    refine key (eq_composed.2 ⟨h1.symm, h2.symm, h3.symm, h4.symm, ?_, ?_⟩)
    · intro h0
      subst h0
      have hi0 : i = [] := List.length_eq_zero_iff.1 (by simpa using h4)
      have := fb ((eqAll_true h3).2 (h5 hi0)) _ hz
      rw [this] at hz
      exact (eqAll_true h3.symm).1 hz
    · intro h0
      have hi0 : i ≠ [] := by
        rintro rfl
        exact h0 (List.length_eq_zero_iff.1 (by simpa using h4.symm))
      have hl : i'.length ≠ 0 := fun h => h0 (List.length_eq_zero_iff.1 h)
      rw [if_pos (by simp [h0, h4])] at hy
      have := fi ((eqAll_true h4).2 (h6 hi0).1) _ hy
      rw [this] at hy
      exact ⟨(eqAll_true h4.symm).1 hy, z, hz⟩
theorem eqAll_symm (hc : ∀ x y, close x y = true → close y x = true) : (as bs : List (Shape P)) →
    eqAll close as bs = .ok true → ∀ r, eqAll close bs as = .ok r → r = true
  | [], [], _, r, hr => by simpa [eqAll, pure, Except.pure] using hr.symm
  | [], _ :: _, _, r, hr => by simpa [eqAll, pure, Except.pure] using hr.symm
  | _ :: _, [], _, r, hr => by simpa [eqAll, pure, Except.pure] using hr.symm
  | a :: as, b :: bs, h, r, hr => by
    simp only [eqAll] at h hr
    obtain ⟨x, hx, h⟩ := Res.bind_eq_ok.1 h
    obtain ⟨y, hy, h⟩ := Res.bind_eq_ok.1 h
    obtain ⟨x', hx', hr⟩ := Res.bind_eq_ok.1 hr
    obtain ⟨y', hy', hr⟩ := Res.bind_eq_ok.1 hr
    simp only [Res.pure_eq, Except.ok.injEq, Bool.and_eq_true] at h hr
    obtain ⟨rfl, rfl⟩ := h
    rw [← hr, eq_symm hc a b hx x' hx', eqAll_symm hc as bs hy y' hy']
    rfl
end

/-! ### Wires -/

theorem vertex_cases {v : Shape P} (h : v.dimension = 0) : ∃ t p x, v = .vertex t p x := by
  cases v with
  | vertex t p x => exact ⟨t, p, x, rfl⟩
  | composed k => cases k <;> simp [dimension, Kind.dimension] at h

theorem eq_vertex_self (hc : ∀ x, close x x = true) {v : Shape P} (h : v.dimension = 0) :
    eq close v v = .ok true := by
  obtain ⟨t, p, x, rfl⟩ := vertex_cases h
  simp [eq, hc]

theorem eq_vertex_tag {v w : Shape P} (hv : v.dimension = 0) (hw : w.dimension = 0)
    (ht : v.tag ≠ w.tag) : eq close v w = .ok false := by
  obtain ⟨t, p, x, rfl⟩ := vertex_cases hv
  obtain ⟨t', p', x', rfl⟩ := vertex_cases hw
  have : (t == t') = false := by simpa [tag] using ht
  simp [eq, this]

theorem IsChain_tail {e : Shape P} {es : List (Shape P)} {v : Shape P} {vs : List (Shape P)}
    (h : IsChain (e :: es) (v :: vs)) : IsChain es vs :=
  ⟨by have := h.length; simpa using this, fun i e' x y h1 h2 h3 =>
    h.joins (i + 1) e' x y (by simpa using h1) (by simpa using h2) (by simpa using h3),
    fun x hx => h.isVertex x (List.mem_cons_of_mem _ hx)⟩

theorem StepsDiffer_tail {v : Shape P} {vs : List (Shape P)} (h : StepsDiffer (v :: vs)) :
    StepsDiffer vs :=
  fun i x y h1 h2 => h (i + 1) x y (by simpa using h1) (by simpa using h2)

theorem orientFrom_chain (hc : ∀ x, close x x = true) : ∀ {edges vs : List (Shape P)} {v : Shape P},
    IsChain edges (v :: vs) → StepsDiffer (v :: vs) →
    ∃ signs, orientFrom close v edges = .ok signs ∧ FollowsChain edges (v :: vs) signs
  | [], vs, v, _, _ => ⟨[], rfl, rfl, fun i e _ _ _ h => by simp at h⟩
  | e :: es, [], v, h, _ => by have := h.length; simp at this
  | e :: es, w :: vs, v, h, hd => by
    obtain ⟨signs, hs, hl, hf⟩ := orientFrom_chain hc (IsChain_tail h) (StepsDiffer_tail hd)
    have hv := h.isVertex v (by simp)
    have hw := h.isVertex w (by simp)
    have hne : v.tag ≠ w.tag := hd 0 v w rfl rfl
    have step : ∀ s, Traverses e s v w →
        FollowsChain (e :: es) (v :: w :: vs) (s :: signs) := by
      intro s ht
      refine ⟨by simp [hl], ?_⟩
      intro i e' x y s' h1 h2 h3 h4
      cases i with
      | zero =>
        simp only [List.getElem?_cons_zero, Option.some.injEq, Nat.zero_add,
          List.getElem?_cons_succ] at h1 h2 h3 h4
        subst h1 h2 h3 h4
        exact ht
      | succ i =>
        simp only [List.getElem?_cons_succ] at h1 h2 h3 h4
        exact hf i e' x y s' h1 h2 h3 h4
    rcases h.joins 0 e v w rfl rfl rfl with hb | hb
    · refine ⟨1 :: signs, ?_, step 1 (Or.inl ⟨rfl, hb⟩)⟩
      have e0 : endPoint e 0 = .ok v := by simp [endPoint, hb, getIdx]
      have e1 : endPoint e 1 = .ok w := by simp [endPoint, hb, getIdx]
      simp [orientFrom, e0, e1, eq_vertex_self hc hv, hs, bind, Except.bind, pure, Except.pure]
    · refine ⟨-1 :: signs, ?_, step (-1) (Or.inr ⟨rfl, hb⟩)⟩
      have e0 : endPoint e 0 = .ok w := by simp [endPoint, hb, getIdx]
      simp [orientFrom, e0, eq_vertex_tag hv hw hne, hs, bind, Except.bind, pure, Except.pure]

theorem verticesFrom_chain (hc : ∀ x, close x x = true) :
    ∀ {edges vs : List (Shape P)} {v : Shape P}, IsChain edges (v :: vs) → StepsDiffer (v :: vs) →
    verticesFrom close v edges = .ok ((v :: vs).take edges.length)
  | [], vs, v, _, _ => rfl
  | e :: es, [], v, h, _ => by have := h.length; simp at this
  | e :: es, w :: vs, v, h, hd => by
    have hs := verticesFrom_chain hc (IsChain_tail h) (StepsDiffer_tail hd)
    have hv := h.isVertex v (by simp)
    have hw := h.isVertex w (by simp)
    have hne : v.tag ≠ w.tag := hd 0 v w rfl rfl
    rcases h.joins 0 e v w rfl rfl rfl with hb | hb
    · have e0 : endPoint e 0 = .ok v := by simp [endPoint, hb, getIdx]
      have e1 : endPoint e 1 = .ok w := by simp [endPoint, hb, getIdx]
      simp [verticesFrom, e0, e1, eq_vertex_self hc hv, hs, bind, Except.bind, pure, Except.pure]
    · have e0 : endPoint e 0 = .ok w := by simp [endPoint, hb, getIdx]
      have e1 : endPoint e 1 = .ok v := by simp [endPoint, hb, getIdx]
      simp [verticesFrom, e0, e1, eq_vertex_tag hv hw hne, hs, bind, Except.bind, pure, Except.pure]

theorem seedVertex_chain {e : Shape P} {es vs : List (Shape P)} {v w : Shape P}
    (h : IsChain (e :: es) (v :: w :: vs)) (hlt : v.tag < w.tag) :
    seedVertex (e :: es) = .ok v := by
  rcases h.joins 0 e v w rfl rfl rfl with hb | hb
  · have e0 : endPoint e 0 = .ok v := by simp [endPoint, hb, getIdx]
    have e1 : endPoint e 1 = .ok w := by simp [endPoint, hb, getIdx]
    have : ¬ w.tag < v.tag := by omega
    simp [seedVertex, getIdx, e0, e1, bind, Except.bind, pure, Except.pure, this]
  · have e0 : endPoint e 0 = .ok w := by simp [endPoint, hb, getIdx]
    have e1 : endPoint e 1 = .ok v := by simp [endPoint, hb, getIdx]
    simp [seedVertex, getIdx, e0, e1, bind, Except.bind, pure, Except.pure, hlt]

/-! ### Membership -/

theorem count_spec {other : Shape P} {l : List (Shape P)} {n : Nat}
    (h : containsIn.count close other l = .ok n) :
    (∀ s ∈ l, ∃ r, eq close s other = .ok r) ∧
      n = (l.filter fun s => decide (eq close s other = .ok true)).length := by
  induction l generalizing n with
  | nil =>
    simp only [containsIn.count, Res.pure_eq, Except.ok.injEq] at h
    subst h
    simp
  | cons s l ih =>
    simp only [containsIn.count] at h
    obtain ⟨x, hx, h⟩ := Res.bind_eq_ok.1 h
    obtain ⟨m, hm, h⟩ := Res.bind_eq_ok.1 h
    obtain ⟨h1, h2⟩ := ih hm
    simp only [Res.pure_eq, Except.ok.injEq] at h
    refine ⟨List.forall_mem_cons.2 ⟨⟨x, hx⟩, h1⟩, ?_⟩
    cases x <;> simp [hx, ← h, h2]

theorem count_total {other : Shape P} : ∀ {l : List (Shape P)},
    (∀ s ∈ l, ∃ r, eq close s other = .ok r) → ∃ n, containsIn.count close other l = .ok n
  | [], _ => ⟨0, rfl⟩
  | s :: l, h => by
    obtain ⟨r, hr⟩ := h s (by simp)
    obtain ⟨n, hn⟩ := count_total fun s hs => h s (List.mem_cons_of_mem _ hs)
    exact ⟨if r then n + 1 else n, by
      simp [containsIn.count, hr, hn, bind, Except.bind, pure, Except.pure]⟩

theorem equal_identity {a b : Shape P} (h : eq close a b = .ok true) : a.identity = b.identity := by
  cases a with
  | vertex t p x =>
    cases b with
    | vertex t' p' x' =>
      simp only [eq, Except.ok.injEq, Bool.and_eq_true, beq_iff_eq] at h
      simp [identity, dimension, tag, h.1]
    | composed => simp [eq] at h
  | composed k t p bs is =>
    obtain ⟨h1, h2, -⟩ := eq_composed.1 h
    simp [identity, dimension, tag, h1, h2]

theorem containsIn_total {other : Shape P} {l : List (Shape P)}
    (ht : ∀ s ∈ l, ∃ r, eq close s other = .ok r) : containsIn close other l =
      .ok (decide ((l.filter fun s => decide (eq close s other = .ok true)).length = 1)) := by
  unfold containsIn
  split
  · obtain ⟨n, hn⟩ := count_total ht
    have := (count_spec hn).2
    simp [hn, bind, Except.bind, pure, Except.pure, ← this, beq_eq_decide]
  · rename_i h
    have : (l.filter fun s => decide (eq close s other = .ok true)) = [] := by
      rw [List.filter_eq_nil_iff]
      intro s hs hd
      exact h (List.mem_map.2 ⟨s, hs, equal_identity (by simpa using hd)⟩)
    simp [this, pure, Except.pure]

theorem one_of_nodup {other : Shape P} {l : List (Shape P)} (hn : (l.map identity).Nodup) :
    (l.filter fun s => decide (eq close s other = .ok true)).length = 1 ↔
      ∃ s ∈ l, eq close s other = .ok true := by
  rw [List.length_eq_one_iff]
  constructor
  · rintro ⟨s, hs⟩
    have : s ∈ l.filter fun s => decide (eq close s other = .ok true) := by rw [hs]; simp
    exact ⟨s, (List.mem_filter.1 this).1, by simpa using (List.mem_filter.1 this).2⟩
  · rintro ⟨s, hs, he⟩
    refine ⟨s, ?_⟩
    induction l with
    | nil => simp at hs
    | cons a l ih =>
      rw [List.map_cons, List.nodup_cons] at hn
      rcases List.mem_cons.1 hs with rfl | hs
      · rw [List.filter_cons_of_pos (by simpa using he)]
        congr 1
        rw [List.filter_eq_nil_iff]
        intro b hb hd
        refine hn.1 (List.mem_map.2 ⟨b, hb, ?_⟩)
        rw [equal_identity (by simpa using hd : eq close b other = .ok true), equal_identity he]
      · rw [List.filter_cons_of_neg, ih hn.2 hs]
        intro hd
        refine hn.1 (List.mem_map.2 ⟨s, hs, ?_⟩)
        rw [equal_identity he, equal_identity (by simpa using hd : eq close a other = .ok true)]

theorem perm_filterMap_range {α : Type} (l : List α) :
    (List.range l.length).filterMap (fun i => l[i]?) = l := by
  induction l with
  | nil => rfl
  | cons a l ih =>
    rw [List.length_cons, List.range_succ_eq_map, List.filterMap_cons]
    simp only [List.getElem?_cons_zero, List.filterMap_map]
    congr 1

end Verif.Topology.Shape
