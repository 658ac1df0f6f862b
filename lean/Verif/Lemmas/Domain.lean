/-
Lemmas on domains.
-/
import Verif.Spec.Domain
import Verif.Lemmas.Graph
import Verif.Lemmas.Shape
import Mathlib.Data.List.MinMax

namespace Verif.Topology
open Shape
variable {P : Type}

theorem map_inj_on {α β : Type} {f : α → β} : ∀ {l l' : List α},
    (∀ x ∈ l, ∀ y ∈ l', f x = f y → x = y) → l.map f = l'.map f → l = l'
  | [], [], _, _ => rfl
  | [], _ :: _, _, h => by simp at h
  | _ :: _, [], _, h => by simp at h
  | a :: l, b :: l', hi, h => by
    simp only [List.map_cons, List.cons.injEq] at h
    rw [hi a (by simp) b (by simp) h.1,
      map_inj_on (fun x hx y hy => hi x (by simp [hx]) y (by simp [hy])) h.2]

theorem foldl_min_spec : ∀ (l : List Nat) (a : Nat),
    l.foldl min a ≤ a ∧ (∀ x ∈ l, l.foldl min a ≤ x) ∧ (l.foldl min a = a ∨ l.foldl min a ∈ l)
  | [], a => ⟨le_refl _, by simp, Or.inl rfl⟩
  | b :: l, a => by
    obtain ⟨h1, h2, h3⟩ := foldl_min_spec l (min a b)
    rw [List.foldl_cons]
    refine ⟨by omega, ?_, ?_⟩
    · intro x hx
      rcases List.mem_cons.1 hx with rfl | hx
      · omega
      · exact h2 x hx
    · rcases h3 with h3 | h3
      · by_cases hab : a ≤ b
        · left; omega
        · right; rw [h3]; simp; left; omega
      · right; exact List.mem_cons_of_mem _ h3

/-- Appending shapes of one dimension. -/
theorem append_same {d : Domain P} {shapes : List (Shape P)} {k : Nat} (hne : shapes ≠ [])
    (h : ∀ s ∈ shapes, s.dimension = k) : d.append shapes =
      match d.shapes[k]? with
      | none => .error .indexError
      | some old => .ok { d with shapes := d.shapes.set k (old ++ shapes) } := by
  unfold Domain.append
  obtain ⟨s, ss, rfl⟩ := List.exists_cons_of_ne_nil hne
  have hm : (s :: ss).map Shape.dimension = List.replicate (s :: ss).length k := by
    rw [List.eq_replicate_iff]
    refine ⟨by simp, ?_⟩
    intro x hx
    obtain ⟨t, ht, rfl⟩ := List.mem_map.1 hx
    exact h t ht
  rw [hm]
  simp only [List.length_cons, List.replicate_succ]
  have hmin : (List.replicate ss.length k).foldl min k = k := by
    rcases (foldl_min_spec (List.replicate ss.length k) k).2.2 with h | h
    · exact h
    · exact List.eq_of_mem_replicate h
  simp only [hmin]
  rw [if_pos]
  · rfl
  · rw [List.filter_eq_self.2]
    · simp
    · intro x hx
      rcases List.mem_cons.1 hx with rfl | hx
      · simp
      · simp [List.eq_of_mem_replicate hx]

/-- Appending shapes of several dimensions. -/
theorem append_mixed {d : Domain P} {shapes : List (Shape P)} {s t : Shape P} (hs : s ∈ shapes)
    (ht : t ∈ shapes) (h : s.dimension ≠ t.dimension) :
    d.append shapes = .error .assertionError := by
  unfold Domain.append
  split
  · rename_i hm
    have : s.dimension ∈ shapes.map Shape.dimension := List.mem_map_of_mem hs
    rw [hm] at this
    simp at this
  · rename_i x xs hm
    rw [if_neg]
    rw [← hm]
    intro hl
    have hall : ∀ y ∈ shapes.map Shape.dimension, y = xs.foldl min x := by
      have hlen : ((shapes.map Shape.dimension).filter (· = xs.foldl min x)).length =
          (shapes.map Shape.dimension).length := by rw [hl, List.length_map]
      have := List.filter_sublist.eq_of_length hlen
      intro y hy
      rw [← this] at hy
      simpa using (List.mem_filter.1 hy).2
    exact h ((hall _ (List.mem_map_of_mem hs)).trans (hall _ (List.mem_map_of_mem ht)).symm)

theorem append_ok {d d' : Domain P} {shapes : List (Shape P)} (h : d.append shapes = .ok d') :
    (shapes = [] ∧ d' = d) ∨ ∃ k old, shapes ≠ [] ∧ (∀ s ∈ shapes, s.dimension = k) ∧
      d.shapes[k]? = some old ∧ d' = { d with shapes := d.shapes.set k (old ++ shapes) } := by
  by_cases hne : shapes = []
  · left
    subst hne
    simp only [Domain.append, List.map_nil, Except.ok.injEq] at h
    exact ⟨rfl, h.symm⟩
  · right
    obtain ⟨s, ss, rfl⟩ := List.exists_cons_of_ne_nil hne
    by_cases hall : ∀ t ∈ s :: ss, t.dimension = s.dimension
    · rw [append_same hne hall] at h
      split at h
      · simp at h
      · rename_i old hold
        simp only [Except.ok.injEq] at h
        exact ⟨_, old, hne, hall, hold, h.symm⟩
    · push Not at hall
      obtain ⟨t, ht, hd⟩ := hall
      rw [append_mixed ht List.mem_cons_self hd] at h
      simp at h

theorem intMax_spec {l : List Int} {m : Int} : intMax l = .ok m ↔ m ∈ l ∧ ∀ x ∈ l, x ≤ m := by
  have key : ∀ (l : List Int) (a : Int), a ≤ l.foldl max a ∧ (∀ x ∈ l, x ≤ l.foldl max a) ∧
      (l.foldl max a = a ∨ l.foldl max a ∈ l) := by
    intro l
    induction l with
    | nil => intro a; exact ⟨le_refl _, by simp, Or.inl rfl⟩
    | cons b l ih =>
      intro a
      obtain ⟨h1, h2, h3⟩ := ih (max a b)
      rw [List.foldl_cons]
      refine ⟨by omega, ?_, ?_⟩
      · intro x hx
        rcases List.mem_cons.1 hx with rfl | hx
        · omega
        · exact h2 x hx
      · rcases h3 with h3 | h3
        · by_cases hab : b ≤ a
          · left; omega
          · right; rw [h3]; simp; left; omega
        · right; exact List.mem_cons_of_mem _ h3
  cases l with
  | nil => simp [intMax]
  | cons a l =>
    obtain ⟨h1, h2, h3⟩ := key l a
    simp only [intMax, Except.ok.injEq]
    constructor
    · rintro rfl
      refine ⟨?_, ?_⟩
      · rcases h3 with h3 | h3
        · rw [h3]; simp
        · exact List.mem_cons_of_mem _ h3
      · intro x hx
        rcases List.mem_cons.1 hx with rfl | hx
        · exact h1
        · exact h2 x hx
    · rintro ⟨hm, hle⟩
      have a1 : l.foldl max a ≤ m := by
        rcases h3 with h3 | h3
        · rw [h3]; exact hle a (by simp)
        · exact hle _ (List.mem_cons_of_mem _ h3)
      have a2 : m ≤ l.foldl max a := by
        rcases List.mem_cons.1 hm with rfl | hm
        · exact h1
        · exact h2 m hm
      omega

/-! ### Graph -/

theorem child_vertex {t : Int} {p : Option Int} {x : P} {c : Shape P} :
    ¬ Child (.vertex t p x) c := by
  simp [Child, boundary, immersed]

theorem child_of_zero {s c : Shape P} (h : s.dimension = 0) : ¬ Child s c := by
  obtain ⟨t, p, x, rfl⟩ := vertex_cases h
  exact child_vertex

mutual
theorem mem_gatherEdges (D : Nat) (e : (Int × Int) × (Int × Int)) : (s : Shape P) →
    (e ∈ gatherEdges D s ↔ ∃ a c, Below s a ∧ Child a c ∧ e = (a.index D, c.index D))
  | .vertex t p x => by
    simp only [gatherEdges, List.not_mem_nil, false_iff]
    rintro ⟨a, c, h1, h2, -⟩
    rcases Relation.ReflTransGen.cases_head h1 with rfl | ⟨b, hb, -⟩
    · exact child_vertex h2
    · exact child_vertex hb
  | .composed k t p b i => by
    simp only [gatherEdges, List.mem_append]
    rw [mem_gatherAll D e _ b, mem_gatherAll D e _ i]
    have hidx : (Shape.composed k t p b i).index D = ((D : Int) - k.dimension, t) := rfl
    constructor
    · rintro (⟨c, hc, h⟩ | ⟨c, hc, h⟩)
      · have ch : Child (.composed k t p b i) c := Or.inl hc
        rcases h with h | ⟨a, c', h1, h2, h3⟩
        · exact ⟨_, c, .refl, ch, by rw [hidx]; exact h⟩
        · exact ⟨a, c', .head ch h1, h2, h3⟩
      · have ch : Child (.composed k t p b i) c := Or.inr hc
        rcases h with h | ⟨a, c', h1, h2, h3⟩
        · exact ⟨_, c, .refl, ch, by rw [hidx]; exact h⟩
        · exact ⟨a, c', .head ch h1, h2, h3⟩
    · rintro ⟨a, c, h1, h2, h3⟩
      rcases Relation.ReflTransGen.cases_head h1 with rfl | ⟨c', hc', h4⟩
      · rw [hidx] at h3
        rcases h2 with h2 | h2
        · exact Or.inl ⟨c, h2, Or.inl h3⟩
        · exact Or.inr ⟨c, h2, Or.inl h3⟩
      · rcases hc' with hc' | hc'
        · exact Or.inl ⟨c', hc', Or.inr ⟨a, c, h4, h2, h3⟩⟩
        · exact Or.inr ⟨c', hc', Or.inr ⟨a, c, h4, h2, h3⟩⟩
theorem mem_gatherAll (D : Nat) (e : (Int × Int) × (Int × Int)) (idx : Int × Int) :
    (l : List (Shape P)) → (e ∈ gatherAll D idx l ↔ ∃ c ∈ l, e = (idx, c.index D) ∨
      ∃ a c', Below c a ∧ Child a c' ∧ e = (a.index D, c'.index D))
  | [] => by simp [gatherAll]
  | c :: cs => by
    simp only [gatherAll, List.mem_append, List.mem_cons, exists_eq_or_imp]
    rw [mem_gatherAll D e idx cs]
    refine or_congr (or_congr Iff.rfl ?_) Iff.rfl
    split
    · exact mem_gatherEdges D e c
    · rename_i h
      push Not at h
      simp only [List.not_mem_nil, false_iff]
      rintro ⟨a, c', h1, h2, -⟩
      rcases Relation.ReflTransGen.cases_head h1 with rfl | ⟨b, hb, -⟩
      · exact child_of_zero h h2
      · exact child_of_zero h hb
end

/-! ### Dictionaries keyed by a function of the value -/

section
variable {κ : Type} [DecidableEq κ] {α : Type}

/-- `for x in l: d[key(x)] = x` -/
def setAll (key : α → κ) (d : Dict κ α) (l : List α) : Dict κ α :=
  l.foldl (fun d x => Dict.set d (key x) x) d

theorem keys_set (d : Dict κ α) (k : κ) (v : α) :
    Dict.keys (Dict.set d k v) = addNew (Dict.keys d) k := by
  unfold addNew
  split
  · rename_i h
    exact Dict.keys_set_of_mem v h
  · rename_i h
    rw [Dict.set_of_not_mem v h]
    simp [Dict.keys]

theorem keys_setAll (key : α → κ) (l : List α) : ∀ d : Dict κ α,
    Dict.keys (setAll key d l) = (l.map key).foldl addNew (Dict.keys d) := by
  induction l with
  | nil => intro d; rfl
  | cons x l ih =>
    intro d
    have := ih (Dict.set d (key x) x)
    rw [keys_set] at this
    exact this

theorem mem_set {d : Dict κ α} (hd : (Dict.keys d).Nodup) {k k' : κ} {v v' : α} :
    (k', v') ∈ Dict.set d k v ↔ (k' = k ∧ v' = v) ∨ (k' ≠ k ∧ (k', v') ∈ d) := by
  have hn := Dict.keys_set_nodup k v hd
  have e1 : (k', v') ∈ Dict.set d k v ↔ Dict.get? (Dict.set d k v) k' = some v' :=
    ⟨Dict.get?_of_mem hn, Dict.mem_of_get?⟩
  have e2 : (k', v') ∈ d ↔ Dict.get? d k' = some v' := ⟨Dict.get?_of_mem hd, Dict.mem_of_get?⟩
  rw [e1, e2, Dict.get?_set]
  by_cases h : k' = k
  · simp [h, eq_comm]
  · simp [h]

theorem nodup_setAll (key : α → κ) (l : List α) (d : Dict κ α) (hd : (Dict.keys d).Nodup) :
    (Dict.keys (setAll key d l)).Nodup := by
  rw [keys_setAll]
  exact nodup_foldl_addNew _ _ hd

/-- The entries: for each key the last value with that key. -/
theorem mem_setAll (key : α → κ) (l : List α) {k : κ} {v : α} :
    (k, v) ∈ setAll key [] l ↔ key v = k ∧ ∃ before after, l = before ++ v :: after ∧
      ∀ t ∈ after, key t ≠ key v := by
  induction l using List.reverseRecOn with
  | nil => simp [setAll]
  | append_singleton l x ih =>
    have hs : setAll key [] (l ++ [x]) = Dict.set (setAll key [] l) (key x) x := by
      simp [setAll, List.foldl_append]
    rw [hs, mem_set (nodup_setAll key l [] List.nodup_nil), ih]
    constructor
    · rintro (⟨rfl, rfl⟩ | ⟨h1, h2, b, a, h3, h4⟩)
      · exact ⟨rfl, l, [], by simp, by simp⟩
      · refine ⟨h2, b, a ++ [x], by rw [h3]; simp, ?_⟩
        intro t ht
        rcases List.mem_append.1 ht with ht | ht
        · exact h4 t ht
        · rw [List.mem_singleton.1 ht, h2]
          exact fun h => h1 h.symm
    · rintro ⟨rfl, b, a, h3, h4⟩
      rcases List.eq_nil_or_concat a with rfl | ⟨a', y, rfl⟩
      · have := List.append_inj' h3 rfl
        simp only [List.cons.injEq, and_true] at this
        exact Or.inl ⟨by rw [this.2], this.2.symm⟩
      · right
        have h5 : l ++ [x] = (b ++ v :: a') ++ [y] := by rw [h3]; simp
        have := List.append_inj' h5 rfl
        simp only [List.cons.injEq, and_true] at this
        obtain ⟨h6, rfl⟩ := this
        refine ⟨fun h => h4 x (by simp) h.symm, rfl, b, a', h6, ?_⟩
        intro t ht
        exact h4 t (by simp [ht])

theorem values_key (key : α → κ) (l : List α) :
    (Dict.values (setAll key [] l)).map key = uniq (l.map key) := by
  have : (Dict.values (setAll key [] l)).map key = Dict.keys (setAll key [] l) := by
    unfold Dict.values Dict.keys
    rw [List.map_map]
    refine List.map_congr_left ?_
    rintro ⟨k, v⟩ h
    exact ((mem_setAll key l).1 h).1
  rw [this, keys_setAll]
  rfl

end

/-! ### `create_domain` -/

theorem pyPosition_nat {n i : Nat} (h : i < n) : pyPosition n (i : Int) = some i := by
  unfold pyPosition
  rw [if_pos (by omega), if_pos (by omega)]
  rfl

/-- The dictionaries after the classification. -/
theorem classify_spec (combine : Int → Int → Int) (D : Nat) :
    ∀ (shapes : List (Shape P)) (ds : List (Dict Int (Shape P))), ds.length = D + 1 →
    (∀ s ∈ shapes, s.dimension ≤ D) → ∃ ds', classify combine D ds shapes = .ok ds' ∧
      ds'.length = D + 1 ∧ ∀ i, ds'[i]? = ds[i]?.map fun d =>
        setAll (Shape.hash combine) d (shapes.filter fun s => D - s.dimension = i)
  | [], ds, hl, _ => ⟨ds, rfl, hl, fun i => by simp [setAll]⟩
  | s :: ss, ds, hl, hd => by
    have hs := hd s (by simp)
    have hp : pyPosition ds.length ((D : Int) - s.dimension) = some (D - s.dimension) := by
      rw [← Int.ofNat_sub hs]
      exact pyPosition_nat (by omega)
    obtain ⟨ds', h1, h2, h3⟩ := classify_spec combine D ss
      (ds.set (D - s.dimension)
        (Dict.set (ds.getD (D - s.dimension) []) (s.hash combine) s)) (by simpa using hl)
      fun t ht => hd t (List.mem_cons_of_mem _ ht)
    refine ⟨ds', by simp only [classify, hp]; exact h1, h2, ?_⟩
    intro i
    rw [h3 i, List.getElem?_set]
    by_cases hi : D - s.dimension = i
    · subst hi
      have hlt : D - s.dimension < ds.length := by omega
      rw [if_pos rfl, if_pos hlt, List.filter_cons_of_pos (by simp),
        List.getD_eq_getElem?_getD,
        List.getElem?_eq_getElem hlt, Option.getD_some]
      rfl
    · rw [if_neg hi, List.filter_cons_of_neg (by simpa using hi)]

theorem appendAll_spec : ∀ (cs : List (Dict Int (Shape P))) (d : Domain P) (D : Nat),
    cs.length ≤ D + 1 → d.shapes.length = D + 1 →
    (∀ i c, cs[i]? = some c → ∀ s ∈ Dict.values c, s.dimension + i + (D + 1 - cs.length) = D) →
    ∃ d', appendAll d cs = .ok d' ∧ d'.dimension = d.dimension ∧ d'.shapes.length = D + 1 ∧
      ∀ k, d'.shapes[k]? = d.shapes[k]?.map fun old =>
        old ++ ((cs[cs.length - 1 - k]?.map Dict.values).getD []).filter fun _ => k < cs.length
  | [], d, D, _, hl, _ => ⟨d, rfl, rfl, hl, fun k => by simp⟩
  | c :: cs, d, D, hc, hl, h => by
    have hdim : ∀ s ∈ Dict.values c, s.dimension = cs.length := by
      intro s hs
      have := h 0 c rfl s hs
      simp only [List.length_cons] at this hc
      omega
    have hlt : cs.length < d.shapes.length := by simp only [List.length_cons] at hc; omega
    obtain ⟨d1, e1, hd1, hl1, hs1⟩ : ∃ d1, d.append (Dict.values c) = .ok d1 ∧
        d1.dimension = d.dimension ∧ d1.shapes.length = D + 1 ∧
        ∀ k, d1.shapes[k]? = d.shapes[k]?.map fun old =>
          old ++ if k = cs.length then Dict.values c else [] := by
      by_cases hne : Dict.values c = []
      · refine ⟨d, by rw [hne]; rfl, rfl, hl, fun k => ?_⟩
        rw [hne]
        simp
      · rw [append_same hne hdim, List.getElem?_eq_getElem hlt]
        refine ⟨_, rfl, rfl, by simpa using hl, fun k => ?_⟩
        simp only [List.getElem?_set]
        by_cases hk : cs.length = k
        · subst hk
          rw [if_pos rfl, if_pos hlt, List.getElem?_eq_getElem hlt]
          simp
        · rw [if_neg hk, if_neg (Ne.symm hk)]
          simp
    obtain ⟨d2, e2, hd2, hl2, hs2⟩ := appendAll_spec cs d1 D (by simp at hc; omega) hl1 (by
      intro i c' hc' s hs
      have := h (i + 1) c' (by simpa using hc') s hs
      have hil : i < cs.length := (List.getElem?_eq_some_iff.1 hc').1
      simp only [List.length_cons] at this hc
      omega)
    refine ⟨d2, by simp [appendAll, e1, e2, bind, Except.bind], hd2.trans hd1, hl2, fun k => ?_⟩
    rw [hs2, hs1, Option.map_map]
    congr 1
    funext old
    simp only [Function.comp, List.append_assoc]
    congr 1
    by_cases hk : k = cs.length
    · subst hk
      simp
    · rw [if_neg hk, List.nil_append]
      by_cases hk' : k < cs.length
      · have e : (c :: cs).length - 1 - k = (cs.length - 1 - k) + 1 := by
          simp only [List.length_cons]; omega
        rw [e, List.getElem?_cons_succ]
        simp only [List.length_cons, hk', Nat.lt_succ_of_lt hk', decide_true]
      · have hk2 : ¬ k < (c :: cs).length := by simp only [List.length_cons]; omega
        simp only [hk', hk2, decide_false, List.filter_false]

/-- Invariant of the classification: keys are the hashes of their values, once each. -/
def HashKeys (combine : Int → Int → Int) (S : List (Shape P)) (c : Dict Int (Shape P)) : Prop :=
  (Dict.keys c).Nodup ∧ ∀ k s, (k, s) ∈ c → k = s.hash combine ∧ s ∈ S

theorem classify_big {combine : Int → Int → Int} {D : Nat} {S : List (Shape P)}
    (hh : ∀ s ∈ S, ∀ t ∈ S, s.hash combine = t.hash combine → s.identity = t.identity) :
    ∀ (shapes : List (Shape P)) {ds ds' : List (Dict Int (Shape P))},
    classify combine D ds shapes = .ok ds' → (∀ s ∈ shapes, s ∈ S) →
    (∀ (i : Nat) (c : Dict Int (Shape P)), ds[i]? = some c → HashKeys combine S c) →
    ((∃ s ∈ shapes, D < s.dimension) ∨
      ∃ (i : Nat) (c : Dict Int (Shape P)) (k : Int) (s : Shape P), ds[i]? = some c ∧
        (k, s) ∈ c ∧ D < s.dimension) →
    ∃ (i : Nat) (c : Dict Int (Shape P)) (k : Int) (s : Shape P), ds'[i]? = some c ∧ (k, s) ∈ c ∧ D < s.dimension
  | [], ds, ds', h, _, _, hb => by
    simp only [classify, Except.ok.injEq] at h
    subst h
    rcases hb with ⟨s, hs, -⟩ | hb
    · simp at hs
    · exact hb
  | s :: ss, ds, ds', h, hS, hk, hb => by
    simp only [classify] at h
    split at h
    · simp at h
    · rename_i i hi
      have hlt : i < ds.length := by
        unfold pyPosition at hi
        split at hi
        · split at hi
          · simp only [Option.some.injEq] at hi; omega
          · simp at hi
        · split at hi
          · simp only [Option.some.injEq] at hi; omega
          · simp at hi
      have hget : ds.getD i [] = ds[i] := by
        rw [List.getD_eq_getElem?_getD, List.getElem?_eq_getElem hlt, Option.getD_some]
      have hki := hk i ds[i] (List.getElem?_eq_getElem hlt)
      rw [hget] at h
      refine classify_big hh ss h (fun t ht => hS t (List.mem_cons_of_mem _ ht)) ?_ ?_
      · intro j c hc
        rw [List.getElem?_set] at hc
        split at hc
        · rw [Option.some.injEq] at hc
          subst hc
          refine ⟨Dict.keys_set_nodup _ _ hki.1, ?_⟩
          intro k t ht
          rcases (mem_set hki.1).1 ht with ⟨rfl, rfl⟩ | ⟨-, ht⟩
          · exact ⟨rfl, hS _ (by simp)⟩
          · exact hki.2 k t ht
        · exact hk j c hc
      · rcases hb with ⟨t, ht, hd⟩ | ⟨j, c, k, t, hc, ht, hd⟩
        · rcases List.mem_cons.1 ht with rfl | ht
          · right
            exact ⟨i, _, t.hash combine, t, by simp [hlt], (mem_set hki.1).2 (Or.inl ⟨rfl, rfl⟩), hd⟩
          · exact Or.inl ⟨t, ht, hd⟩
        · right
          by_cases hij : i = j
          · subst hij
            rw [List.getElem?_eq_getElem hlt, Option.some.injEq] at hc
            subst hc
            refine ⟨i, Dict.set ds[i] (s.hash combine) s, ?_⟩
            by_cases hks : k = s.hash combine
            · have h1 := hki.2 k t ht
              have h2 := hh t h1.2 s (hS s (by simp)) (h1.1.symm.trans hks)
              have h3 : t.dimension = s.dimension := congrArg Prod.fst h2
              exact ⟨s.hash combine, s, by simp [hlt], (mem_set hki.1).2 (Or.inl ⟨rfl, rfl⟩), by omega⟩
            · exact ⟨k, t, by simp [hlt], (mem_set hki.1).2 (Or.inr ⟨hks, ht⟩), hd⟩
          · exact ⟨j, c, k, t, by rw [List.getElem?_set, if_neg hij]; exact hc, ht, hd⟩

theorem appendAll_big {D : Nat} : ∀ (cs : List (Dict Int (Shape P))) (d : Domain P),
    d.shapes.length = D + 1 → (∃ (i : Nat) (c : Dict Int (Shape P)) (s : Shape P), cs[i]? = some c ∧
      s ∈ Dict.values c ∧ D < s.dimension) → ∃ e, appendAll d cs = .error e
  | [], d, _, ⟨i, c, s, h, _⟩ => by simp at h
  | c :: cs, d, hl, ⟨i, c', s, hi, hs, hd⟩ => by
    simp only [appendAll]
    rcases ha : d.append (Dict.values c) with e | d1
    · exact ⟨e, rfl⟩
    · have hl1 : d1.shapes.length = D + 1 := by
        rcases append_ok ha with ⟨-, rfl⟩ | ⟨k, old, -, -, -, rfl⟩
        · exact hl
        · simpa using hl
      cases i with
      | zero =>
        simp only [List.getElem?_cons_zero, Option.some.injEq] at hi
        subst hi
        exfalso
        rcases append_ok ha with ⟨h0, -⟩ | ⟨k, old, -, hk, hold, -⟩
        · rw [h0] at hs; simp at hs
        · have h1 := hk s hs
          have h2 : k < d.shapes.length := (List.getElem?_eq_some_iff.1 hold).1
          omega
      | succ i =>
        exact appendAll_big cs d1 hl1 ⟨i, c', s, by simpa using hi, hs, hd⟩

end Verif.Topology
