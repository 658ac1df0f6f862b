/-
Lemmas for C28 and C29.
-/
import Verif.Lemmas.Trace
import Verif.Spec.Orientation
import Mathlib.Tactic.FinCases

namespace Verif.Orient
open MeshBuild MeshGraph Trace

section
variable {K V : Type} [CommRing K] [AddCommGroup V] [Module K V]

theorem act_one {n : Nat} (v : Fin n → V) : act (1 : Matrix (Fin n) (Fin n) K) v = v := by
  funext j
  simp only [act]
  rw [Finset.sum_eq_single j]
  · simp
  · intro k _ hk; simp [Matrix.one_apply_ne' hk]
  · simp

theorem act_mul {n : Nat} (s t : Matrix (Fin n) (Fin n) K) (v : Fin n → V) :
    act (s * t) v = act s (act t v) := by
  funext j
  simp only [act, Matrix.mul_apply, Finset.sum_smul, Finset.smul_sum, mul_smul]
  exact Finset.sum_comm

theorem foldl_set_spec (phi : List V) : ∀ (dofs : List Nat) (vals : List V),
    dofs.Nodup → (∀ a ∈ dofs, a < phi.length) → dofs.length = vals.length →
    let r := (dofs.zip vals).foldl (fun phi p => phi.set p.1 p.2) phi
    r.length = phi.length ∧ (∀ a, a ∉ dofs → r[a]? = phi[a]?) ∧
    ∀ j : Nat, j < dofs.length → r[dofs.getD j 0]? = vals[j]? := by
  intro dofs
  induction dofs generalizing phi with
  | nil => intro vals _ _ _; simp
  | cons a l ih =>
    intro vals hn hr hl
    cases vals with
    | nil => simp at hl
    | cons v vs =>
      simp only [List.zip_cons_cons, List.foldl_cons]
      have ha : a < phi.length := hr a (by simp)
      obtain ⟨h1, h2, h3⟩ := ih (phi.set a v) vs (List.nodup_cons.1 hn).2
        (fun b hb => by rw [List.length_set]; exact hr b (by simp [hb])) (by simpa using hl)
      refine ⟨by rw [h1, List.length_set], ?_, ?_⟩
      · intro b hb
        rw [h2 b (fun h => hb (by simp [h])), List.getElem?_set_ne]
        rintro rfl; simp at hb
      · intro j hj
        cases j with
        | zero =>
          have hna := (List.nodup_cons.1 hn).1
          have := h2 a hna
          simp only [List.getD_cons_zero, List.getElem?_cons_zero]
          rw [this, List.getElem?_set_self ha]
        | succ j =>
          simp only [List.getD_cons_succ, List.getElem?_cons_succ]
          exact h3 j (by simpa using hj)

theorem applyAt_ok {n : Nat} (phi : List V) (dofs : List Nat) (t : Matrix (Fin n) (Fin n) K)
    (hn : dofs.Nodup) (hr : ∀ a ∈ dofs, a < phi.length) (hl : dofs.length = n) :
    ∃ r, applyAt phi dofs t = .ok r ∧ r.length = phi.length ∧
      (∀ a, a ∉ dofs → r.getD a 0 = phi.getD a 0) ∧ block n r dofs = act t (block n phi dofs) := by
  obtain ⟨v, hv⟩ := fancy_total hr
  obtain ⟨h1, h2, h3⟩ := foldl_set_spec phi dofs
    (List.ofFn fun i : Fin n => ∑ j : Fin n, t i j • v.getD j 0) hn hr (by simp [hl])
  refine ⟨_, ?_, h1, ?_, ?_⟩
  · unfold applyAt
    rw [fancy_iff.2 hv, Res.bind_ok, if_neg (by simp [hl])]
    rfl
  · intro a ha
    rw [List.getD_eq_getElem?_getD, h2 a ha, List.getD_eq_getElem?_getD]
  · funext j
    simp only [block, act]
    have hj : (j : Nat) < dofs.length := by rw [hl]; exact j.2
    rw [List.getD_eq_getElem?_getD, h3 j hj, List.getElem?_eq_getElem (by simp)]
    simp only [List.getElem_ofFn, Option.getD_some]
    refine Finset.sum_congr rfl fun k _ => ?_
    have hk : (k : Nat) < dofs.length := by rw [hl]; exact k.2
    have hk' : (k : Nat) < v.length := by rw [← hv.length_eq]; exact hk
    have := hv.get hk hk'
    simp only [List.get_eq_getElem] at this
    congr 1
    rw [List.getD_eq_getElem?_getD, List.getD_eq_getElem?_getD, List.getD_eq_getElem?_getD,
      List.getElem?_eq_getElem hk, List.getElem?_eq_getElem hk']
    simp [this]

/-- The loop over the entities acts on every block separately. -/
theorem applyLoop_ok {n : Nat} (dofs : List (List Nat)) (hl : ∀ l ∈ dofs, l.length = n)
    (hn : dofs.flatten.Nodup) :
    ∀ (entries : List (Nat × Bool × Matrix (Fin n) (Fin n) K)) (phi : List V),
    (∀ a ∈ dofs.flatten, a < phi.length) → (entries.map Prod.fst).Nodup →
    (∀ e ∈ entries, e.1 < dofs.length) →
    ∃ r, applyLoop dofs phi entries = .ok r ∧ r.length = phi.length ∧
      (∀ a, a ∉ dofs.flatten → r.getD a 0 = phi.getD a 0) ∧
      (∀ (i : Nat) ds, dofs[i]? = some ds → i ∉ entries.map Prod.fst →
        block n r ds = block n phi ds) ∧
      ∀ e ∈ entries, ∀ ds, dofs[e.1]? = some ds →
        block n r ds = if e.2.1 then block n phi ds else act e.2.2 (block n phi ds) := by
  intro entries
  induction entries with
  | nil => intro phi _ _ _; exact ⟨phi, rfl, rfl, fun _ _ => rfl, fun _ _ _ _ => rfl, by simp⟩
  | cons e entries ih =>
    intro phi hr hd hlt
    obtain ⟨i, check, t⟩ := e
    have hi : i < dofs.length := hlt (i, check, t) (by simp)
    obtain ⟨hd1, hd2⟩ := List.nodup_cons.1 hd
    have hblock : ∀ (phi r : List V), (∀ a, a ∉ dofs[i] → r.getD a 0 = phi.getD a 0) →
        ∀ (j : Nat) ds, dofs[j]? = some ds → j ≠ i → block n r ds = block n phi ds := by
      intro phi r hag j ds hds hji
      funext k
      simp only [block]
      apply hag
      have hds' := List.getElem?_eq_some_iff.1 hds
      obtain ⟨hj, hdj⟩ := hds'
      have hlen := hl ds (List.mem_of_getElem? hds)
      have hk : (k : Nat) < ds.length := by rw [hlen]; exact k.2
      have hmem : ds.getD k 0 ∈ ds := by
        rw [List.getD_eq_getElem?_getD, List.getElem?_eq_getElem hk]
        exact List.getElem_mem hk
      intro hc
      have hp := (List.nodup_flatten.1 hn).2
      rw [List.pairwise_iff_getElem] at hp
      rcases lt_or_gt_of_ne hji with h | h
      · exact (hp j i hj hi h) (by rw [hdj]; exact hmem) hc
      · exact (hp i j hi hj h) hc (by rw [hdj]; exact hmem)
    cases check with
    | true =>
      obtain ⟨r, h1, h2, h3, h4, h5⟩ := ih phi hr hd2 (fun e he => hlt e (by simp [he]))
      refine ⟨r, by simp only [applyLoop, if_true, h1], h2, h3, ?_, ?_⟩
      · intro j ds hds hj
        exact h4 j ds hds (fun h => hj (by simp [h]))
      · intro e he ds hds
        rcases List.mem_cons.1 he with rfl | he
        · simp only [if_true]
          exact h4 i ds hds hd1
        · exact h5 e he ds hds
    | false =>
      have hsub : ∀ a ∈ dofs[i], a ∈ dofs.flatten := fun a ha =>
        List.mem_flatten.2 ⟨_, List.getElem_mem hi, ha⟩
      obtain ⟨r0, g1, g2, g3, g4⟩ := applyAt_ok phi dofs[i] t
        ((List.nodup_flatten.1 hn).1 _ (List.getElem_mem hi))
        (fun a ha => hr a (hsub a ha)) (hl _ (List.getElem_mem hi))
      obtain ⟨r, h1, h2, h3, h4, h5⟩ := ih r0 (fun a ha => by rw [g2]; exact hr a ha) hd2
        (fun e he => hlt e (by simp [he]))
      refine ⟨r, ?_, by rw [h2, g2], ?_, ?_, ?_⟩
      · simp only [applyLoop, Bool.false_eq_true, if_false,
          getIdx_of (List.getElem?_eq_getElem hi), Res.bind_ok, g1, h1]
      · intro a ha
        rw [h3 a ha, g3 a (fun h => ha (hsub a h))]
      · intro j ds hds hj
        rw [h4 j ds hds (fun h => hj (by simp [h]))]
        exact hblock phi r0 g3 j ds hds (fun h => hj (by simp [h]))
      · intro e he ds hds
        rcases List.mem_cons.1 he with rfl | he
        · simp only [Bool.false_eq_true, if_false]
          rw [h4 i ds hds hd1]
          rw [List.getElem?_eq_getElem hi] at hds
          obtain rfl : dofs[i] = ds := by simpa using hds
          exact g4
        · rw [h5 e he ds hds, hblock phi r0 g3 e.1 ds hds]
          intro h
          exact hd1 (List.mem_map.2 ⟨e, he, h⟩)

theorem faceTransformation_eq (data : DofData K) (rot ref : Nat) :
    faceTransformation data rot ref = data.reflectFace ^ ref * data.rotateFace ^ rot := by
  have key : ∀ (m s : Matrix (Fin data.nFace) (Fin data.nFace) K) (k : Nat),
      (List.range k).foldl (fun t _ => m * t) s = m ^ k * s := by
    intro m s k
    induction k with
    | zero => simp
    | succ k ih => rw [List.range_succ, List.foldl_append]; simp [ih, pow_succ', mul_assoc]
  unfold faceTransformation
  simp only [key, mul_one]

end

theorem perm3 {l m : List Nat} (h : ∀ x, l.count x = m.count x) : l.Perm m :=
  List.perm_iff_count.2 h

/-- A list of three different nodes is one of the six orders of its sorted nodes. -/
theorem sorted_face {face : List Nat} (hl : face.length = 3) (hn : face.Nodup) :
    ∃ x y z k, x < y ∧ y < z ∧ npSort face = [x, y, z] ∧ k < 6 ∧
      (permutations3 [x, y, z])[k]? = some face := by
  obtain ⟨a, b, c, rfl⟩ := List.length_eq_three.1 hl
  simp only [List.nodup_cons, List.mem_cons, List.not_mem_nil, or_false, not_or,
    List.nodup_nil, and_true, not_false_eq_true] at hn
  obtain ⟨⟨hab, hac⟩, hbc⟩ := hn
  have sortEq : ∀ {x y z : Nat}, x < y → y < z → [a, b, c].Perm [x, y, z] →
      npSort [a, b, c] = [x, y, z] := by
    intro x y z hxy hyz hp
    have : npSort [x, y, z] = [x, y, z] := by
      apply List.Pairwise.insertionSort_eq
      simp; omega
    rw [← this, npSort_eq_iff]; exact hp
  rcases Nat.lt_or_gt_of_ne hab with h1 | h1 <;> rcases Nat.lt_or_gt_of_ne hac with h2 | h2 <;>
    rcases Nat.lt_or_gt_of_ne hbc with h3 | h3 <;> try omega
  · exact ⟨a, b, c, 0, h1, h3, sortEq h1 h3 (List.Perm.refl _), by omega, rfl⟩
  · exact ⟨a, c, b, 1, h2, h3, sortEq h2 h3 (perm3 (by intro x; simp only [List.count_cons, List.count_nil]; omega)), by omega, rfl⟩
  · exact ⟨c, a, b, 3, h2, h1, sortEq h2 h1 (perm3 (by intro x; simp only [List.count_cons, List.count_nil]; omega)), by omega, rfl⟩
  · exact ⟨b, a, c, 2, h1, h2, sortEq h1 h2 (perm3 (by intro x; simp only [List.count_cons, List.count_nil]; omega)), by omega, rfl⟩
  · exact ⟨b, c, a, 4, h3, h2, sortEq h3 h2 (perm3 (by intro x; simp only [List.count_cons, List.count_nil]; omega)), by omega, rfl⟩
  · exact ⟨c, b, a, 5, h3, h1, sortEq h3 h1 (perm3 (by intro x; simp only [List.count_cons, List.count_nil]; omega)), by omega, rfl⟩

/-- What lines 72-100 compute for the `k`-th order of three sorted nodes. -/
theorem found_eq {x y z k : Nat} {face : List Nat} (hxy : x < y) (hyz : y < z) (hk : k < 6)
    (hface : (permutations3 [x, y, z])[k]? = some face) :
    ((List.range (permutations3 [x, y, z]).length).filter
      fun j => (permutations3 [x, y, z])[j]? = some face) = [k] ∧
    ([x, y, z] = face ↔ k = 0) := by
  have h1 : x ≠ y := by omega
  have h2 : y ≠ z := by omega
  have h3 : x ≠ z := by omega
  have hr : List.range (permutations3 [x, y, z]).length = [0, 1, 2, 3, 4, 5] := rfl
  rw [hr]
  interval_cases k <;> simp [permutations3] at hface <;> subst hface <;>
    simp [permutations3, h1, h2, h3, h1.symm, h2.symm, h3.symm]

/-- The code of a position stands for its permutation. -/
theorem faceCode_reads {x y z k : Nat} {face : List Nat} (hk : k < 6)
    (hface : (permutations3 [x, y, z])[k]? = some face) :
    ReadsAs face [x, y, z] (codePerm (faceCode k).1 (faceCode k).2) ∧
      (faceCode k).1 < 3 ∧ (faceCode k).2 < 2 := by
  interval_cases k <;> simp only [permutations3, List.getElem?_cons_zero, List.getElem?_cons_succ,
    Option.some.injEq] at hface <;> subst hface <;>
    refine ⟨⟨rfl, fun j => ?_⟩, by decide, by decide⟩ <;> fin_cases j <;> rfl

/-- Different codes stand for different permutations. -/
theorem codePerm_inj : ∀ (a a' : Fin 3) (b b' : Fin 2), codePerm a b = codePerm a' b' →
    a = a' ∧ b = b' := by
  decide

/-- A list of different nodes is read in one way only. -/
theorem readsAs_unique {face ref : List Nat} {g g' : Equiv.Perm (Fin 3)} (hr : ref.length = 3)
    (hn : ref.Nodup) (h : ReadsAs face ref g) (h' : ReadsAs face ref g') : g = g' := by
  ext j
  have := (h.2 j).symm.trans (h'.2 j)
  have h1 : (g j : Nat) < ref.length := by rw [hr]; exact (g j).2
  have h2 : (g' j : Nat) < ref.length := by rw [hr]; exact (g' j).2
  rw [List.getElem?_eq_getElem h1, List.getElem?_eq_getElem h2] at this
  exact (List.Nodup.getElem_inj_iff hn).1 (by simpa using this)

/-- The result for one face. -/
theorem validateFace_ok {tags con face : List Nat} {bc : List Bool} {i : Nat}
    (hf : fancy tags con = .ok face) (hl : face.length = 3) (hn : face.Nodup)
    (hb : i < bc.length) :
    ∃ o rot ref, validateFace tags bc i con = .ok (o, rot, ref) ∧ rot < 3 ∧ ref < 2 ∧
      (¬ Overridden bc i → (o = true ↔ npSort face = face) ∧
        ReadsAs face (npSort face) (codePerm rot ref)) ∧
      (Overridden bc i → o = false ∧ ref = 1) := by
  obtain ⟨x, y, z, k, hxy, hyz, hs, hk, hp⟩ := sorted_face hl hn
  obtain ⟨hfound, hz⟩ := found_eq hxy hyz hk hp
  obtain ⟨hreads, hc1, hc2⟩ := faceCode_reads hk hp
  have hst : searchFace face = .ok (decide (k = 0), faceCode k) := by
    unfold searchFace
    rw [hs]
    by_cases h0 : k = 0
    · subst h0
      rw [if_pos (hz.2 rfl)]; rfl
    · rw [if_neg (fun h => h0 (hz.1 h))]
      simp only [hfound]
      cases k with
      | zero => exact absurd rfl h0
      | succ k => rfl
  unfold validateFace
  rw [hf, Res.bind_ok]
  simp only [hst, Res.bind_ok, getIdx_of (List.getElem?_eq_getElem hb)]
  by_cases hov : bc[i] = true ∧ i ∈ [1, 3]
  · rw [if_pos hov]
    have hov' : Overridden bc i := ⟨by rw [List.getElem?_eq_getElem hb, hov.1],
      by simpa using hov.2⟩
    exact ⟨false, _, 1, rfl, hc1, by omega, fun h => absurd hov' h, fun _ => ⟨rfl, rfl⟩⟩
  · rw [if_neg hov]
    have hov' : ¬ Overridden bc i := by
      rintro ⟨h1, h2⟩
      rw [List.getElem?_eq_getElem hb] at h1
      exact hov ⟨by simpa using h1, by simpa using h2⟩
    refine ⟨_, _, _, rfl, hc1, hc2, fun _ => ⟨?_, ?_⟩, fun h => absurd h hov'⟩
    · rw [hs, hz]; simp
    · rw [hs]; exact hreads

end Verif.Orient
