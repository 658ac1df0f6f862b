/- Numbering phase of `build_conformal_mesh`: helper lemmas. -/
import Verif.Lemmas.Prelude
import Verif.Spec.Mesh

namespace Verif.MeshBuild

/-- A dictionary numbering the keys of `L` consecutively from `start`. -/
structure Numbered {κ : Type} [DecidableEq κ] (d : Dict κ Nat) (start : Nat) (L : List κ) :
    Prop where
  nodup : d.keys.Nodup
  vals : d.values = List.range' start d.length
  mem : ∀ k, k ∈ d.keys ↔ k ∈ L

namespace Numbered
variable {κ : Type} [DecidableEq κ] {d : Dict κ Nat} {s : Nat} {L : List κ}

theorem get?_iff (h : Numbered d s L) {k : κ} {i : Nat} :
    d.get? k = some i ↔ ∃ j, d.keys[j]? = some k ∧ i = s + j := by
  constructor
  · intro hg
    obtain ⟨j, hj, hjv⟩ := List.mem_iff_getElem.1 (Dict.mem_of_get? hg)
    refine ⟨j, ?_, ?_⟩
    · simp [Dict.keys, hj, hjv]
    · have : d.values[j]? = some i := by simp [Dict.values, hj, hjv]
      rw [h.vals] at this
      simp [hj] at this
      omega
  · rintro ⟨j, hj, rfl⟩
    apply Dict.get?_of_mem h.nodup
    have hlt : j < d.length := by
      have := (List.getElem?_eq_some_iff.1 hj).1
      simpa [Dict.keys] using this
    have hv : d.values[j]? = some (s + j) := by
      rw [h.vals]; simp [hlt]
    have h1 : d[j].1 = k := by
      simp only [Dict.keys, List.getElem?_map, List.getElem?_eq_getElem hlt] at hj
      simpa using hj
    have h2 : d[j].2 = s + j := by
      simp only [Dict.values, List.getElem?_map, List.getElem?_eq_getElem hlt] at hv
      simpa using hv
    rw [List.mem_iff_getElem]
    exact ⟨j, hlt, by rw [← h1, ← h2]⟩

theorem get?_bounds (h : Numbered d s L) {k : κ} {i : Nat} (hg : d.get? k = some i) :
    s ≤ i ∧ i < s + d.length := by
  obtain ⟨j, hj, rfl⟩ := h.get?_iff.1 hg
  have := (List.getElem?_eq_some_iff.1 hj).1
  have : j < d.length := by simpa [Dict.keys] using this
  omega

theorem get?_inj (h : Numbered d s L) {k k' : κ} {i : Nat} (hg : d.get? k = some i)
    (hg' : d.get? k' = some i) : k = k' := by
  obtain ⟨j, hj, rfl⟩ := h.get?_iff.1 hg
  obtain ⟨j', hj', he⟩ := h.get?_iff.1 hg'
  have : j = j' := by omega
  subst this
  rw [hj] at hj'; simpa using hj'

theorem get?_surj (h : Numbered d s L) {i : Nat} (h1 : s ≤ i) (h2 : i < s + d.length) :
    ∃ k, d.get? k = some i := by
  have hlt : i - s < d.keys.length := by simp [Dict.keys]; omega
  exact ⟨d.keys[i - s], h.get?_iff.2 ⟨i - s, by simp [hlt], by omega⟩⟩

theorem get?_exists (h : Numbered d s L) {k : κ} : (∃ i, d.get? k = some i) ↔ k ∈ L := by
  rw [Dict.get?_isSome, h.mem]

theorem length_eq (h : Numbered d s L) : d.length = L.dedup.length := by
  have : d.keys.Perm L.dedup := by
    rw [List.perm_ext_iff_of_nodup h.nodup (List.nodup_dedup L)]
    intro k; simp [h.mem]
  simpa [Dict.keys] using this.length_eq

theorem nil (s : Nat) : Numbered ([] : Dict κ Nat) s [] :=
  ⟨by simp [Dict.keys], by simp [Dict.values], by simp [Dict.keys]⟩

theorem congr {L' : List κ} (h : Numbered d s L) (hL : ∀ k, k ∈ L ↔ k ∈ L') : Numbered d s L' :=
  ⟨h.nodup, h.vals, fun k => (h.mem k).trans (hL k)⟩

theorem append (h : Numbered d s L) {k : κ} (hk : k ∉ d.keys) :
    Numbered (d.set k (s + d.length)) s (L ++ [k]) := by
  rw [Dict.set_of_not_mem _ hk]
  refine ⟨?_, ?_, ?_⟩
  · rw [← Dict.set_of_not_mem (s + d.length) hk]; exact Dict.keys_set_nodup _ _ h.nodup
  · have := h.vals
    simp only [Dict.values, List.map_append, List.map_cons, List.map_nil, List.length_append,
      List.length_cons, List.length_nil] at *
    rw [this, List.range'_1_concat]
  · intro k'
    have := h.mem k'
    simp only [Dict.keys, List.map_append, List.map_cons, List.map_nil, List.mem_append,
      List.mem_singleton] at *
    rw [this]

theorem max_values (h : Numbered d s L) (hne : d.length ≠ 0) :
    npMax d.values = .ok (s + d.length - 1) := by
  obtain ⟨n, hn⟩ := Nat.exists_eq_succ_of_ne_zero hne
  rw [h.vals, hn, npMax_range']; simp

end Numbered

theorem addKey_fold (M : List (List Nat)) :
    ∀ (d : Dict (List Nat) Nat) (s : Nat) (L : List (List Nat)), Numbered d s L →
      ∃ d', M.foldl addKey (d, s + d.length) = (d', s + d'.length) ∧ Numbered d' s (L ++ M) := by
  induction M with
  | nil => intro d s L h; exact ⟨d, rfl, by simpa using h⟩
  | cons k M ih =>
    intro d s L h
    rw [List.foldl_cons]
    cases hg : d.get? k with
    | some v =>
      have hk : k ∈ L := h.get?_exists.1 ⟨v, hg⟩
      have : addKey (d, s + d.length) k = (d, s + d.length) := by simp [addKey, hg]
      rw [this]
      obtain ⟨d', h1, h2⟩ := ih d s L h
      refine ⟨d', h1, h2.congr ?_⟩
      intro k'; simp only [List.mem_append, List.mem_cons]
      constructor
      · rintro (h | h) <;> simp [h]
      · rintro (h | rfl | h) <;> simp [*]
    | none =>
      have hk : k ∉ d.keys := Dict.get?_eq_none.1 hg
      have hlen : (d.set k (s + d.length)).length = d.length + 1 := by
        rw [Dict.set_of_not_mem _ hk]; simp
      have : addKey (d, s + d.length) k
          = (d.set k (s + d.length), s + (d.set k (s + d.length)).length) := by
        simp [addKey, hg, hlen, Nat.add_assoc]
      rw [this]
      obtain ⟨d', h1, h2⟩ := ih _ s _ (h.append hk)
      exact ⟨d', h1, by simpa using h2⟩

theorem numberPoints_eq (n : Nat) : Numbered (numberPoints n) 0 (List.range n) ∧
    (numberPoints n).length = n := by
  induction n with
  | zero => exact ⟨Numbered.nil 0, rfl⟩
  | succ n ih =>
    obtain ⟨h, hl⟩ := ih
    have hstep : numberPoints (n + 1) = (numberPoints n).set n n := by
      simp [numberPoints, List.range_succ, List.foldl_append]
    have hk : n ∉ (numberPoints n).keys := by rw [h.mem]; simp
    have ha := h.append hk
    rw [hl, Nat.zero_add] at ha
    rw [hstep, List.range_succ]
    refine ⟨ha, ?_⟩
    rw [Dict.set_of_not_mem _ hk]; simp [hl]

theorem numberPoints_get? (n k i : Nat) :
    (numberPoints n).get? k = some i ↔ k < n ∧ i = k := by
  have ⟨h, hl⟩ := numberPoints_eq n
  have key : ∀ n, (numberPoints n).keys = List.range n := by
    intro n
    induction n with
    | zero => rfl
    | succ n ih =>
      have hstep : numberPoints (n + 1) = (numberPoints n).set n n := by
        simp [numberPoints, List.range_succ, List.foldl_append]
      have hk : n ∉ (numberPoints n).keys := by rw [ih]; simp
      rw [hstep, Dict.set_of_not_mem _ hk, List.range_succ, ← ih]
      simp [Dict.keys]
  rw [h.get?_iff, key]
  constructor
  · rintro ⟨j, hj, rfl⟩
    have := List.getElem?_eq_some_iff.1 hj
    simp at this; omega
  · rintro ⟨hk, rfl⟩
    exact ⟨i, by simp [hk], by omega⟩

/-- Uniform lookup in the four entity dictionaries. -/
def Ents.get (E : Ents) : Nat → List Nat → Option Nat
  | 0, [k] => E.e0.get? k
  | 0, _ => none
  | 1, k => E.e1.get? k
  | 2, k => E.e2.get? k
  | 3, k => E.e3.get? k
  | _, _ => none

/-- What the numbering phase guarantees: consecutive ids per dimension. -/
structure EntsOK (f : MeshFile) (E : Ents) : Prop where
  e0 : E.e0 = numberPoints f.nPoints
  e1 : Numbered E.e1 E.e0.length (f.tetraData.flatMap tetraEdgeKeys ++
    f.triangleData.flatMap triEdgeKeys ++ f.lineData.map lineKey)
  e2 : Numbered E.e2 (E.e0.length + E.e1.length)
    (f.tetraData.flatMap tetraFaceKeys ++ f.triangleData.map triKey)
  e3 : Numbered E.e3 (E.e0.length + E.e1.length + E.e2.length) (f.tetraData.map tetraKey)

theorem nodes_lists_nonempty (f : MeshFile) (hE : f.tetraData.flatMap tetraFaceKeys ++
    f.triangleData.map triKey = []) : f.tetraData = [] := by
  cases h : f.tetraData with
  | nil => rfl
  | cons t ts => simp [h, tetraFaceKeys] at hE

/-- The numbering succeeds exactly when there is a point and an edge. -/
theorem numberEntities_spec (f : MeshFile) :
    (f.nPoints ≠ 0 ∧ f.tetraData.flatMap tetraEdgeKeys ++
      f.triangleData.flatMap triEdgeKeys ++ f.lineData.map lineKey ≠ [] →
        ∃ E, numberEntities f = .ok E ∧ EntsOK f E) ∧
    (¬ (f.nPoints ≠ 0 ∧ f.tetraData.flatMap tetraEdgeKeys ++
      f.triangleData.flatMap triEdgeKeys ++ f.lineData.map lineKey ≠ []) →
        numberEntities f = .error .valueError) := by
  have ⟨hp, hpl⟩ := numberPoints_eq f.nPoints
  obtain ⟨d1, hd1, hn1⟩ := addKey_fold (f.tetraData.flatMap tetraEdgeKeys) [] f.nPoints []
    (Numbered.nil _)
  obtain ⟨d2, hd2, hn2⟩ := addKey_fold (f.triangleData.flatMap triEdgeKeys) _ _ _ hn1
  obtain ⟨d3, hd3, hn3⟩ := addKey_fold (f.lineData.map lineKey) _ _ _ hn2
  obtain ⟨d4, hd4, hn4⟩ := addKey_fold (f.tetraData.flatMap tetraFaceKeys) []
    (f.nPoints + d3.length) [] (Numbered.nil _)
  obtain ⟨d5, hd5, hn5⟩ := addKey_fold (f.triangleData.map triKey) _ _ _ hn4
  simp only [List.length_nil, Nat.add_zero, List.nil_append] at *
  by_cases h0 : f.nPoints = 0
  · refine ⟨fun h => absurd h0 h.1, fun _ => ?_⟩
    have : npMax (numberPoints 0).values = .error .valueError := rfl
    simp [numberEntities, h0, this]
  have hm0 := hp.max_values (by rw [hpl]; exact h0)
  rw [hpl, Nat.zero_add] at hm0
  have e1 : f.nPoints - 1 + 1 = f.nPoints := by omega
  by_cases h1 : f.tetraData.flatMap tetraEdgeKeys ++
      f.triangleData.flatMap triEdgeKeys ++ f.lineData.map lineKey = []
  · refine ⟨fun h => absurd h1 h.2, fun _ => ?_⟩
    have hd3nil : d3 = [] := by
      cases d3 with
      | nil => rfl
      | cons p t =>
        have := (hn3.mem p.1).1 (by simp [Dict.keys])
        rw [h1] at this; simp at this
    have hmax : npMax (Dict.values d3) = .error .valueError := by subst hd3nil; rfl
    simp only [numberEntities, hm0, Res.bind_ok, e1, hd1, hd2, hd3, hmax]
    rfl
  · refine ⟨fun _ => ?_, fun h => absurd ⟨h0, h1⟩ h⟩
    have hd3ne : d3.length ≠ 0 := by
      intro hl
      obtain ⟨k, hk⟩ := List.exists_mem_of_ne_nil _ h1
      have := (hn3.mem k).2 hk
      have : d3 = [] := List.length_eq_zero_iff.1 hl
      subst this; simp [Dict.keys] at *
    have hm1 := hn3.max_values hd3ne
    have e2 : f.nPoints + d3.length - 1 + 1 = f.nPoints + d3.length := by omega
    simp only [numberEntities, hm0, Res.bind_ok, e1, hd1, hd2, hd3, hm1, e2, hd4, hd5]
    by_cases h2 : d5.length = 0
    · have hnil : f.tetraData = [] := by
        apply nodes_lists_nonempty
        cases hL : f.tetraData.flatMap tetraFaceKeys ++ f.triangleData.map triKey with
        | nil => rfl
        | cons k t =>
          have := (hn5.mem k).2 (by rw [hL]; simp)
          have : d5 = [] := List.length_eq_zero_iff.1 h2
          subst this; simp [Dict.keys] at *
      refine ⟨_, by simp only [h2]; rfl, ?_, ?_, ?_, ?_⟩
      · rfl
      · rw [hpl]; exact hn3
      · rw [hpl]; exact hn5
      · simp only [hnil, List.map_nil, List.foldl_nil]; exact Numbered.nil _
    · have hm2 := hn5.max_values h2
      have e3 : f.nPoints + d3.length + d5.length - 1 + 1
          = f.nPoints + d3.length + d5.length := by omega
      obtain ⟨d6, hd6, hn6⟩ := addKey_fold (f.tetraData.map tetraKey) []
        (f.nPoints + d3.length + d5.length) [] (Numbered.nil _)
      simp only [List.length_nil, Nat.add_zero, List.nil_append] at hd6 hn6
      refine ⟨{ e0 := numberPoints f.nPoints, e1 := d3, e2 := d5, e3 := d6 }, ?_, ?_, ?_, ?_, ?_⟩
      · simp [h2, hm2, e3, hd6]
      · rfl
      · rw [hpl]; exact hn3
      · rw [hpl]; exact hn5
      · rw [hpl]; exact hn6

end Verif.MeshBuild
