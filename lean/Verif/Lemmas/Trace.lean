/-
Lemmas for C27.
-/
import Verif.Lemmas.Topology
import Verif.Lemmas.Space
import Verif.Spec.Trace
import Mathlib.Tactic.Ring
import Mathlib.Tactic.IntervalCases

namespace Verif

theorem Dict.ofList_get? {κ ν : Type} [DecidableEq κ] (l : List (κ × ν)) (k : κ) :
    (∀ v, (Dict.ofList l).get? k = some v → (k, v) ∈ l) ∧
    (k ∈ l.map Prod.fst → ∃ v, (Dict.ofList l).get? k = some v) := by
  unfold Dict.ofList
  induction l using List.reverseRecOn with
  | nil => simp
  | append_singleton l p ih =>
    rw [List.foldl_append]
    simp only [List.foldl_cons, List.foldl_nil, Dict.get?_set]
    constructor
    · intro v hv
      split at hv
      · rename_i h
        have : v = p.2 := by simpa using hv.symm
        subst this
        simp [h]
      · exact List.mem_append_left _ (ih.1 v hv)
    · intro hk
      split
      · exact ⟨_, rfl⟩
      · rename_i h
        apply ih.2
        simp only [List.map_append, List.map_cons, List.map_nil, List.mem_append,
          List.mem_singleton] at hk
        rcases hk with hk | hk
        · exact hk
        · exact absurd hk (by simpa using h)

end Verif

namespace Verif.Trace
open MeshBuild MeshGraph

theorem mapRes_of_forall₂ {α β : Type} {f : α → Res β} : ∀ {l : List α} {r : List β},
    List.Forall₂ (fun a b => f a = .ok b) l r → mapRes f l = .ok r
  | _, _, .nil => rfl
  | _, _, .cons h t => by simp [mapRes, h, mapRes_of_forall₂ t]

theorem mapRes_iff {α β : Type} {f : α → Res β} {l : List α} {r : List β} :
    mapRes f l = .ok r ↔ List.Forall₂ (fun a b => f a = .ok b) l r :=
  ⟨Space.mapRes_inv, mapRes_of_forall₂⟩

theorem fancy_iff {α : Type} {a : List α} {idx : List Nat} {r : List α} :
    fancy a idx = .ok r ↔ List.Forall₂ (fun i b => a[i]? = some b) idx r := by
  unfold fancy
  rw [mapRes_iff]
  simp only [getIdx_eq_ok]

theorem mem_zip_forall₂ {α β : Type} {R : α → β → Prop} {l : List α} {r : List β}
    (h : List.Forall₂ R l r) {p : β × α} (hp : p ∈ r.zip l) : R p.2 p.1 := by
  induction h with
  | nil => simp at hp
  | cons h _ ih =>
    rcases List.mem_cons.1 hp with rfl | hp
    · exact h
    · exact ih hp

/-- The positions found are positions of the facet's nodes, in the facet's order. -/
theorem facetPositions_ok {d i : Nat} {facetTags neighTags facet x : List Nat}
    (hf : (refFacets (d + 1))[i]? = some facet)
    (hx : List.Forall₂ (fun p t => neighTags[p]? = some t) facet x)
    (hp : facetTags.Perm x) (h0 : d = 0 → facetTags.length = 1) :
    ∃ pos, facetPositions d i facetTags neighTags = .ok pos ∧
      List.Forall₂ (fun p t => neighTags[p]? = some t) pos facetTags := by
  unfold facetPositions
  rw [getIdx_of hf, Res.bind_ok, fancy_iff.2 hx, Res.bind_ok]
  split
  · rename_i h
    exact ⟨facet, rfl, h ▸ hx⟩
  · rename_i h
    have hd : d ≠ 0 := by
      intro hd
      obtain ⟨a, ha⟩ := List.length_eq_one_iff.1 (h0 hd)
      rw [ha] at hp h
      exact h (List.singleton_perm.1 hp)
    simp only [hd, if_false]
    rw [if_pos (npSort_eq_iff.2 hp)]
    have key : ∀ k ∈ facetTags, ∃ v, (Dict.ofList (x.zip facet)).get? k = some v ∧
        neighTags[v]? = some k := by
      intro k hk
      have hkx : k ∈ (x.zip facet).map Prod.fst := by
        rw [List.map_fst_zip (by rw [hx.length_eq])]
        exact (hp.mem_iff).1 hk
      obtain ⟨v, hv⟩ := (Dict.ofList_get? (x.zip facet) k).2 hkx
      exact ⟨v, hv, mem_zip_forall₂ hx ((Dict.ofList_get? _ _).1 v hv)⟩
    clear hp h h0
    induction facetTags with
    | nil => exact ⟨[], rfl, .nil⟩
    | cons k l ih =>
      obtain ⟨v, hv, hn⟩ := key k (by simp)
      obtain ⟨pos, hpos, hpo⟩ := ih (fun k hk => key k (by simp [hk]))
      refine ⟨v :: pos, ?_, .cons hn hpo⟩
      simp only [mapRes, Dict.getItem_of_get? hv, Res.bind_ok, hpos, Res.pure_eq]

/-- The reference facets are the faces of the node list. -/
theorem refFacets_faces {d i : Nat} {tags x : List Nat} (hd : d ≤ 2)
    (hl : tags.length = d + 2) (hx : (faces d tags)[i]? = some x) :
    ∃ facet, (refFacets (d + 1))[i]? = some facet ∧
      List.Forall₂ (fun p t => tags[p]? = some t) facet x := by
  obtain ⟨hi, hxi⟩ := List.getElem?_eq_some_iff.1 hx
  interval_cases d
  · obtain ⟨a, b, rfl⟩ := List.length_eq_two.1 hl
    have : faces 0 [a, b] = [[a], [b]] := rfl
    simp only [this] at hi hxi
    have hi2 : i < 2 := hi
    interval_cases i <;> subst hxi <;> refine ⟨_, rfl, ?_⟩ <;> simp
  · obtain ⟨a, b, c, rfl⟩ := List.length_eq_three.1 hl
    have : faces 1 [a, b, c] = [[b, c], [a, c], [a, b]] := rfl
    simp only [this] at hi hxi
    have hi2 : i < 3 := hi
    interval_cases i <;> subst hxi <;> refine ⟨_, rfl, ?_⟩ <;> simp
  · match tags, hl with
    | [a, b, c, e], _ =>
      have : faces 2 [a, b, c, e] = [[b, c, e], [a, c, e], [a, b, e], [a, b, c]] := rfl
      simp only [this] at hi hxi
      have hi2 : i < 4 := hi
      interval_cases i <;> subst hxi <;> refine ⟨_, rfl, ?_⟩ <;> simp

theorem fancy_total {α : Type} {a : List α} {idx : List Nat} (h : ∀ i ∈ idx, i < a.length) :
    ∃ r, List.Forall₂ (fun i b => a[i]? = some b) idx r := by
  induction idx with
  | nil => exact ⟨[], .nil⟩
  | cons i l ih =>
    obtain ⟨r, hr⟩ := ih (fun j hj => h j (by simp [hj]))
    exact ⟨a[i]'(h i (by simp)) :: r, .cons (List.getElem?_eq_getElem _) hr⟩

/-- Composition of two lookups. -/
theorem lookup_comp {α : Type} {tags : List Nat} {a : List α} {pts : List α} {pos ft : List Nat}
    {fp : List α}
    (h1 : List.Forall₂ (fun p t => tags[p]? = some t) pos ft)
    (h2 : List.Forall₂ (fun i b => a[i]? = some b) tags pts)
    (h3 : List.Forall₂ (fun i b => a[i]? = some b) ft fp) :
    List.Forall₂ (fun p b => pts[p]? = some b) pos fp := by
  induction h1 generalizing fp with
  | nil => cases h3; exact .nil
  | @cons p t pos ft hpt _ ih =>
    cases h3 with
    | cons h3 t3 =>
      refine .cons ?_ (ih t3)
      obtain ⟨hl, ht⟩ := List.getElem?_eq_some_iff.1 hpt
      have hl' : p < pts.length := by rw [← h2.length_eq]; exact hl
      have := h2.get hl hl'
      simp only [List.get_eq_getElem, ht] at this
      rw [List.getElem?_eq_getElem hl', ← this, h3]

section
variable {K : Type} [CommRing K]

/-- The affine map of the reference simplex with the given vertices. -/
theorem combine_R0 {P : List (Pt K)} (hP : P.length = 2) {p0 : Nat} {q0 : Pt K}
    (h0 : P[p0]? = some q0) :
    ∃ m, mapR0 (refVertices 1) [p0] [(1 : K)] = .ok m ∧ m.length = 1 ∧
      combine (linearShapes m) P = q0 := by
  obtain ⟨a, b, rfl⟩ := List.length_eq_two.1 hP
  have hp : p0 < 2 := (List.getElem?_eq_some_iff.1 h0).1
  interval_cases p0 <;> simp at h0 <;> subst h0 <;>
    refine ⟨_, rfl, rfl, ?_⟩ <;> funext i <;>
    simp [combine, linearShapes, scale]

theorem combine_R1 {P : List (Pt K)} (hP : P.length = 3) {p0 p1 : Nat} {q0 q1 : Pt K}
    (h0 : P[p0]? = some q0) (h1 : P[p1]? = some q1) (xi : K) :
    ∃ m, mapR1 (refVertices 2) [p0, p1] [xi] = .ok m ∧ m.length = 2 ∧
      combine (linearShapes m) P = combine (linearShapes [xi]) [q0, q1] := by
  obtain ⟨a, b, c, rfl⟩ := List.length_eq_three.1 hP
  have hp : p0 < 3 := (List.getElem?_eq_some_iff.1 h0).1
  have hp1 : p1 < 3 := (List.getElem?_eq_some_iff.1 h1).1
  interval_cases p0 <;> simp at h0 <;> subst h0 <;>
  interval_cases p1 <;> simp at h1 <;> subst h1 <;>
    refine ⟨_, rfl, rfl, ?_⟩ <;> funext i <;>
    simp [combine, linearShapes, scale, addL] <;> ring

theorem combine_R2 {P : List (Pt K)} (hP : P.length = 4) {p0 p1 p2 : Nat} {q0 q1 q2 : Pt K}
    (h0 : P[p0]? = some q0) (h1 : P[p1]? = some q1) (h2 : P[p2]? = some q2) (xi eta : K) :
    ∃ m, mapR2 (refVertices 3) [p0, p1, p2] [xi, eta] = .ok m ∧ m.length = 3 ∧
      combine (linearShapes m) P = combine (linearShapes [xi, eta]) [q0, q1, q2] := by
  match P, hP with
  | [a, b, c, e], _ =>
  have hp : p0 < 4 := (List.getElem?_eq_some_iff.1 h0).1
  have hp1 : p1 < 4 := (List.getElem?_eq_some_iff.1 h1).1
  have hp2 : p2 < 4 := (List.getElem?_eq_some_iff.1 h2).1
  interval_cases p0 <;> simp at h0 <;> subst h0 <;>
  interval_cases p1 <;> simp at h1 <;> subst h1 <;>
  interval_cases p2 <;> simp at h2 <;> subst h2 <;>
    refine ⟨_, rfl, rfl, ?_⟩ <;> funext i <;>
    simp [combine, linearShapes, scale, addL] <;> ring

end

end Verif.Trace
