/-
Lemmas on the transfer of a domain to gmsh by `DiscreteDomain`.
-/
import Verif.Spec.DiscreteDomain
import Verif.Lemmas.Mesher
import Verif.Lemmas.Shape
import Mathlib.Tactic.FinCases

namespace Verif.DiscreteDomain
open Topology Topology.Shape Mesher
variable {P : Type}

theorem mem_npUnique {l : List Int} {x : Int} : x ∈ npUnique l ↔ x ∈ l := by
  unfold npUnique
  rw [(List.perm_insertionSort _ _).mem_iff, mem_uniq]

theorem npUnique_pairwise (l : List Int) : (npUnique l).Pairwise (· < ·) := by
  have h1 : (npUnique l).Pairwise (· ≤ ·) := List.pairwise_insertionSort _ _
  have h2 : (npUnique l).Nodup := (List.perm_insertionSort _ _).nodup_iff.2 (nodup_uniq l)
  refine (h1.and h2).imp ?_
  rintro a b ⟨h3, h4⟩
  omega

/-! ### Strides -/

theorem computeStrides_ok {shapes : List (List (Shape P))} (h4 : shapes.length ≤ 4) :
    ∃ σ, computeStrides shapes = .ok σ ∧ ∀ k : Fin 4, (∀ j < k.val, noShapes shapes j = false) →
      ∀ t, σ.tag k t = occTag shapes k t := by
  match shapes, h4 with
  | [], _ =>
    refine ⟨_, rfl, fun k _ t => ?_⟩
    fin_cases k <;> simp [Strides.tag, occTag, stride]
  | [a], _ =>
    rcases a with _ | ⟨x, a⟩ <;>
    · refine ⟨_, rfl, fun k hk t => ?_⟩
      fin_cases k <;> simp [Strides.tag, occTag, stride]
  | [a, b], _ =>
    rcases a with _ | ⟨x, a⟩
    · refine ⟨_, rfl, fun k hk t => ?_⟩
      fin_cases k
      · simp [Strides.tag, occTag, stride]
      all_goals exact absurd (hk 0 (by simp)) (by simp [noShapes])
    rcases b with _ | ⟨y, b⟩ <;>
    · refine ⟨_, rfl, fun k hk t => ?_⟩
      fin_cases k <;> simp [Strides.tag, occTag, stride]
  | [a, b, c], _ =>
    rcases a with _ | ⟨x, a⟩
    · refine ⟨_, rfl, fun k hk t => ?_⟩
      fin_cases k
      · simp [Strides.tag, occTag, stride]
      all_goals exact absurd (hk 0 (by simp)) (by simp [noShapes])
    rcases b with _ | ⟨y, b⟩
    · refine ⟨_, rfl, fun k hk t => ?_⟩
      fin_cases k
      · simp [Strides.tag, occTag, stride]
      · simp [Strides.tag, occTag, stride]
      all_goals exact absurd (hk 1 (by simp)) (by simp [noShapes])
    rcases c with _ | ⟨z, c⟩ <;>
    · refine ⟨_, rfl, fun k hk t => ?_⟩
      fin_cases k <;> simp [Strides.tag, occTag, stride, add_assoc]
  | [a, b, c, d], _ =>
    rcases a with _ | ⟨x, a⟩
    · refine ⟨_, rfl, fun k hk t => ?_⟩
      fin_cases k
      · simp [Strides.tag, occTag, stride]
      all_goals exact absurd (hk 0 (by simp)) (by simp [noShapes])
    rcases b with _ | ⟨y, b⟩
    · refine ⟨_, rfl, fun k hk t => ?_⟩
      fin_cases k
      · simp [Strides.tag, occTag, stride]
      · simp [Strides.tag, occTag, stride]
      all_goals exact absurd (hk 1 (by simp)) (by simp [noShapes])
    rcases c with _ | ⟨z, c⟩
    · refine ⟨_, rfl, fun k hk t => ?_⟩
      fin_cases k
      · simp [Strides.tag, occTag, stride]
      · simp [Strides.tag, occTag, stride]
      · simp [Strides.tag, occTag, stride, add_assoc]
      exact absurd (hk 2 (by simp)) (by simp [noShapes])
    rcases d with _ | ⟨w, d⟩ <;>
    · refine ⟨_, rfl, fun k hk t => ?_⟩
      fin_cases k <;> simp [Strides.tag, occTag, stride, add_assoc]
  | _ :: _ :: _ :: _ :: _ :: _, h => simp at h; omega

theorem noShapes_of_lt_scan {shapes : List (List (Shape P))} {j : Nat}
    (h : j < scanDimension shapes) : noShapes shapes j = false := by
  obtain ⟨s, l, e⟩ := scan_spec h
  simp [noShapes, e]

theorem atDimension_of {shapes : List (List (Shape P))} {k : Nat} {f : List (Shape P) → Res (List (Call P))}
    {l : List (Shape P)} (hk : scanDimension shapes > k) (hl : shapes[k + 1]? = some l) :
    atDimension shapes k f = f l := by
  unfold atDimension
  rw [if_pos hk, getIdx_of hl, Res.bind_ok]

theorem next_exists {shapes : List (List (Shape P))} {k : Nat} (hk : scanDimension shapes > k) :
    ∃ l, shapes[k + 1]? = some l := by
  have hpos : 0 < shapes.length := by
    obtain ⟨s, l, e⟩ := scan_spec hk
    exact (Nat.zero_le k).trans_lt (List.getElem?_eq_some_iff.1 e).1
  have hlt := scan_lt hpos
  exact ⟨_, List.getElem?_eq_getElem (by omega)⟩

theorem atDimension_pure (shapes : List (List (Shape P))) (k : Nat)
    (f : List (Shape P) → List (Call P)) (h0 : f [] = []) :
    atDimension shapes k (fun l => pure (f l)) = .ok (f (seen shapes k)) := by
  by_cases hk : scanDimension shapes > k
  · obtain ⟨l, hl⟩ := next_exists hk
    rw [atDimension_of hk hl]
    unfold seen
    rw [if_pos hk, hl]; rfl
  · unfold atDimension seen
    rw [if_neg hk, if_neg hk, h0]; rfl

theorem atDimension_callsOf (shapes : List (List (Shape P))) (k : Nat)
    (f : Shape P → Res (List (Call P))) :
    atDimension shapes k (callsOf f) = callsOf f (seen shapes k) := by
  by_cases hk : scanDimension shapes > k
  · obtain ⟨l, hl⟩ := next_exists hk
    rw [atDimension_of hk hl]
    unfold seen
    rw [if_pos hk, hl]; rfl
  · unfold atDimension seen
    rw [if_neg hk, if_neg hk]; rfl

/-! ### Entities -/

def ent0 (σ : Strides) (s : Shape P) : List Ent := [.dim 0 (σ.tag 0 s.tag)]

def ent1 (σ : Strides) (s : Shape P) : List Ent :=
  if skipCurve s then [] else [.dim 1 (σ.tag 1 s.tag)]

def ent2 (σ : Strides) (s : Shape P) : List Ent :=
  if s.composite then [] else [.curveLoop (σ.tag 2 s.tag), .dim 2 (σ.tag 2 s.tag)]

/-- All entities. -/
def madeBy (σ : Strides) (shapes : List (List (Shape P))) : List Ent :=
  (shapes[0]?.getD []).flatMap (ent0 σ) ++ (seen shapes 0).flatMap (ent1 σ) ++
    (seen shapes 1).flatMap (ent2 σ)

theorem tag_inj {σ : Strides} {k : Fin 4} {t t' : Int} : σ.tag k t = σ.tag k t' ↔ t = t' := by
  fin_cases k <;> simp [Strides.tag]

theorem seen_known {v : Variant P} {shapes : List (List (Shape P))} {k : Nat} {t : Int}
    (hk : scanDimension shapes > k) (h : Known v shapes (k + 1) t) :
    ∃ s ∈ seen shapes k, Transferred v (k + 1) s ∧ s.tag = t := by
  obtain ⟨l, hl, s, hs, h1, h2⟩ := h
  exact ⟨s, seen_of hk hl hs, h1, h2⟩

theorem known0 {close : P → P → Bool} {σ : Strides} {shapes : List (List (Shape P))} {t : Int}
    (h : Known (variant close) shapes 0 t) :
    .dim 0 (σ.tag 0 t) ∈ (shapes[0]?.getD []).flatMap (ent0 σ) := by
  obtain ⟨l, hl, s, hs, -, rfl⟩ := h
  rw [hl]
  exact List.mem_flatMap.2 ⟨s, hs, by simp [ent0]⟩

theorem known1 {close : P → P → Bool} {σ : Strides} {shapes : List (List (Shape P))} {t : Int}
    (hk : scanDimension shapes > 0) (h : Known (variant close) shapes 1 t) :
    .dim 1 (σ.tag 1 t) ∈ (seen shapes 0).flatMap (ent1 σ) := by
  obtain ⟨s, hs, ht, rfl⟩ := seen_known hk h
  refine List.mem_flatMap.2 ⟨s, hs, ?_⟩
  have : skipCurve s = false := by simpa [Transferred, variant] using ht
  simp [ent1, this]

theorem created_append (l l' : List (Call P)) : created (l ++ l') = created l ++ created l' := by
  simp [created]

/-- The entities of a domain are made, each from parts made before. -/
theorem entities_ok {close : P → P → Bool} {shapes : List (List (Shape P))} {σ : Strides}
    (h : Whole (variant close) shapes) (hσ : computeStrides shapes = .ok σ) {l0 : List (Shape P)}
    (h0 : shapes[0]? = some l0) :
    ∃ points lines surfaces, callsOf (transferVertex σ) l0 = .ok points ∧
      callsOf (transferCurve σ) (seen shapes 0) = .ok lines ∧
      callsOf (transferSurface close σ) (seen shapes 1) = .ok surfaces ∧
      WellFormed [] (points ++ lines ++ surfaces) ∧
      created (points ++ lines ++ surfaces) = madeBy σ shapes := by
  obtain ⟨σ', e, hσ'⟩ := computeStrides_ok (shapes := shapes) (by have := h.small; omega)
  rw [hσ] at e; cases e
  obtain ⟨c0, a1, a2, a3⟩ := callsOf_wf (f := transferVertex σ) (g := ent0 σ) (made := []) l0 (by
    intro s hs
    obtain ⟨t, p, x, rfl⟩ := h.vertices l0 h0 s hs
    exact ⟨[.addPoint x (σ.tag 0 t)], rfl, ⟨by simp [Call.refs], trivial⟩, rfl⟩)
  have a3' : created c0 = (shapes[0]?.getD []).flatMap (ent0 σ) := by rw [a3, h0]; rfl
  obtain ⟨c1, b1, b2, b3⟩ := callsOf_wf (f := transferCurve σ) (g := ent1 σ)
    (made := created c0) (seen shapes 0) (by
    intro s hs
    obtain ⟨hk, l, hl, hs⟩ := mem_seen hs
    unfold transferCurve ent1
    by_cases hk : skipCurve s
    · rw [if_pos hk, if_pos hk]
      exact ⟨[], rfl, trivial, rfl⟩
    · obtain ⟨b, e, rest, e1, e2, e3⟩ := h.curves l hl s hs (by simpa [variant] using hk)
      rw [if_neg hk, if_neg hk, getIdx_some (x := b) (by rw [e1]; rfl), Res.bind_ok,
        getIdx_some (x := e) (by rw [e1]; rfl), Res.bind_ok]
      refine ⟨_, rfl, ⟨?_, trivial⟩, rfl⟩
      intro r hr
      rw [a3']
      simp only [Call.refs, List.mem_cons, List.not_mem_nil, or_false] at hr
      rcases hr with rfl | rfl
      · exact known0 e2
      · exact known0 e3)
  obtain ⟨c2, d1, d2, d3⟩ := callsOf_wf (f := transferSurface close σ) (g := ent2 σ)
    (made := created c0 ++ created c1) (seen shapes 1) (by
    intro s hs
    obtain ⟨hk1, l, hl, hs⟩ := mem_seen hs
    unfold transferSurface ent2
    by_cases hk : s.composite
    · rw [if_pos hk, if_pos hk]
      exact ⟨[], rfl, trivial, rfl⟩
    · obtain ⟨wire, rest, o, e1, e2, e3, e4, e5⟩ := h.surfaces l hl s hs (by simpa using hk)
      have hnn : ∀ t ∈ wire.immersed.map (fun c => σ.tag 1 c.tag), 0 ≤ t := by
        intro t ht
        obtain ⟨c, hc, rfl⟩ := List.mem_map.1 ht
        obtain ⟨l', hl', s', hs', -, hst⟩ := e5 c hc
        have h1 := h.nonneg 1 l' hl' s' hs'
        rw [hσ' 1 (by
          intro j hj
          exact noShapes_of_lt_scan (by have : (1 : Fin 4).val = 1 := rfl; omega))]
        have := stride_nonneg shapes (1 + 1)
        unfold occTag
        simp only [Fin.val_one]
        omega
      obtain ⟨r, r1, r2⟩ := signedTags_spec _ o (by simpa using e3) e4 hnn
      have e2' : wireOrientation close wire = .ok o := e2
      rw [if_neg hk, if_neg hk, getIdx_some (x := wire) (by rw [e1]; rfl), Res.bind_ok, e2',
        Res.bind_ok, r1, Res.bind_ok]
      refine ⟨_, rfl, ⟨?_, ?_, trivial⟩, rfl⟩
      · intro x hx
        simp only [Call.refs, List.mem_map] at hx
        obtain ⟨c, hc, rfl⟩ := hx
        obtain ⟨c', hc', hct⟩ := List.mem_map.1 (r2 c hc)
        rw [← hct]
        refine List.mem_append_right _ ?_
        rw [b3]
        exact known1 (by omega) (e5 c' hc')
      · intro x hx
        simp only [Call.refs, List.map_cons, List.map_nil, List.mem_singleton] at hx
        subst hx
        simp [Call.creates])
  refine ⟨c0, c1, c2, a1, b1, d1, ?_, ?_⟩
  · rw [wf_append, wf_append]
    refine ⟨⟨a2, by simpa using b2⟩, by simpa [created_append] using d2⟩
  · rw [created_append, created_append, a3', b3, d3]
    rfl

theorem nodup_made {v : Variant P} {shapes : List (List (Shape P))} (h : Whole v shapes) (σ : Strides) :
    (madeBy σ shapes).Nodup := by
  have uniq : ∀ (j : Nat) (k : Fin 4) (l : List (Shape P)), shapes[j]? = some l →
      (l.map fun s => σ.tag k s.tag).Nodup := by
    intro j k l hl
    have h2 : l.Pairwise fun s s' => s.tag ≠ s'.tag := List.pairwise_map.1 (h.unique j l hl)
    exact List.pairwise_map.2 (h2.imp fun hne e => hne (tag_inj.1 e))
  have useen : ∀ (j : Nat) (k : Fin 4), ((seen shapes j).map fun s => σ.tag k s.tag).Nodup := by
    intro j k
    unfold seen
    split
    · cases hl : shapes[j + 1]? with
      | none => simp
      | some l => exact uniq _ _ _ hl
    · simp
  have n0 : ((shapes[0]?.getD []).flatMap (ent0 σ)).Nodup := by
    refine nodup_flatMap_ents (fun s => σ.tag 0 s.tag) (fun s _ => by simp [ent0, Ent.tag]) ?_
    cases hl : shapes[0]? with
    | none => simp
    | some l => exact uniq _ _ _ hl
  have n1 : ((seen shapes 0).flatMap (ent1 σ)).Nodup :=
    nodup_flatMap_ents (fun s => σ.tag 1 s.tag)
      (fun s _ => by unfold ent1; split <;> simp [Ent.tag]) (useen 0 1)
  have n2 : ((seen shapes 1).flatMap (ent2 σ)).Nodup :=
    nodup_flatMap_ents (fun s => σ.tag 2 s.tag)
      (fun s _ => by unfold ent2; split <;> simp [Ent.tag]) (useen 1 2)
  unfold madeBy
  refine List.nodup_append.2 ⟨List.nodup_append.2 ⟨n0, n1, ?_⟩, n2, ?_⟩
  · intro a ha b hb
    obtain ⟨s, -, ha⟩ := List.mem_flatMap.1 ha
    obtain ⟨s', -, hb⟩ := List.mem_flatMap.1 hb
    unfold ent0 at ha; unfold ent1 at hb
    split at hb
    · cases hb
    · simp at ha hb; subst ha hb; simp
  · intro a ha b hb
    obtain ⟨s', -, hb⟩ := List.mem_flatMap.1 hb
    unfold ent2 at hb
    split at hb
    · cases hb
    · rcases List.mem_append.1 ha with ha | ha <;> obtain ⟨s, -, ha⟩ := List.mem_flatMap.1 ha
      · unfold ent0 at ha
        simp at ha hb; subst ha; rcases hb with rfl | rfl <;> simp
      · unfold ent1 at ha
        split at ha
        · cases ha
        · simp at ha hb; subst ha; rcases hb with rfl | rfl <;> simp

theorem mem_made {close : P → P → Bool} {σ : Strides} {shapes : List (List (Shape P))} {e : Ent}
    (he : e ∈ madeBy σ shapes) :
    ∃ k : Fin 4, e.phase = k ∧ k.val ≤ scanDimension shapes ∧ ∃ l, shapes[k.val]? = some l ∧
      ∃ s ∈ l, Transferred (variant close) k s ∧ e.tag = σ.tag k s.tag := by
  unfold madeBy at he
  rcases List.mem_append.1 he with he | he
  · rcases List.mem_append.1 he with he | he
    · obtain ⟨s, hs, he⟩ := List.mem_flatMap.1 he
      cases hl : shapes[0]? with
      | none => rw [hl] at hs; cases hs
      | some l =>
        rw [hl] at hs
        simp only [ent0, List.mem_singleton] at he
        subst he
        exact ⟨0, rfl, Nat.zero_le _, l, hl, s, hs, by simp [Transferred], rfl⟩
    · obtain ⟨s, hs, he⟩ := List.mem_flatMap.1 he
      obtain ⟨hk, l, hl, hs⟩ := mem_seen hs
      unfold ent1 at he
      split at he
      · cases he
      · rename_i hsk
        simp only [List.mem_singleton] at he
        subst he
        exact ⟨1, rfl, hk, l, hl, s, hs, by simpa [Transferred, variant] using hsk, rfl⟩
  · obtain ⟨s, hs, he⟩ := List.mem_flatMap.1 he
    obtain ⟨hk, l, hl, hs⟩ := mem_seen hs
    unfold ent2 at he
    split at he
    · cases he
    · rename_i hsk
      simp only [List.mem_cons, List.not_mem_nil, or_false] at he
      rcases he with rfl | rfl
      · exact ⟨2, rfl, hk, l, hl, s, hs, by simpa [Transferred] using hsk, rfl⟩
      · exact ⟨2, rfl, hk, l, hl, s, hs, by simpa [Transferred] using hsk, rfl⟩

theorem known_made {close : P → P → Bool} {σ : Strides} {shapes : List (List (Shape P))} {k : Fin 4}
    (hk : k.val ≤ scanDimension shapes) (h2 : k.val ≤ 2) {t : Int}
    (h : Known (variant close) shapes k t) : .dim k (σ.tag k t) ∈ madeBy σ shapes := by
  unfold madeBy
  match k, hk, h2, h with
  | 0, _, _, h => exact List.mem_append_left _ (List.mem_append_left _ (known0 h))
  | 1, hk, _, h => exact List.mem_append_left _ (List.mem_append_right _ (known1 hk h))
  | 2, hk, _, h =>
    obtain ⟨s, hs, ht, rfl⟩ := seen_known (k := 1) hk h
    refine List.mem_append_right _ (List.mem_flatMap.2 ⟨s, hs, ?_⟩)
    have : s.composite = false := by simpa [Transferred] using ht
    simp [ent2, this]
  | 3, _, h2, _ => exact absurd h2 (by decide)

theorem groups_nil (refined : Int → Bool) (σ : Strides) :
    curveGroups refined σ ([] : List (Shape P)) = [] ∧ surfaceGroups σ ([] : List (Shape P)) = [] := by
  simp [curveGroups, surfaceGroups, physicalTags, npUnique, uniq]

/-- The steps of a transfer that succeeds. -/
theorem convert_steps {close : P → P → Bool} {refined : Int → Bool} {d : Domain P}
    {calls : List (Call P)} (h : convert close refined d = .ok calls) :
    ∃ σ l0 points lines surfaces, computeStrides (d.shapes.map (List.map view)) = .ok σ ∧
      (d.shapes.map (List.map view))[0]? = some l0 ∧
      callsOf (transferVertex σ) l0 = .ok points ∧
      callsOf (transferCurve σ) (seen (d.shapes.map (List.map view)) 0) = .ok lines ∧
      callsOf (transferSurface close σ) (seen (d.shapes.map (List.map view)) 1) = .ok surfaces ∧
      scanDimension (d.shapes.map (List.map view)) ≤ 2 ∧
      calls = points ++ lines ++ surfaces ++ vertexGroups σ l0 ++
        curveGroups refined σ (seen (d.shapes.map (List.map view)) 0) ++
        surfaceGroups σ (seen (d.shapes.map (List.map view)) 1) ++
        (seen (d.shapes.map (List.map view)) 0).flatMap (embedInCurve σ) ++
        (seen (d.shapes.map (List.map view)) 1).flatMap (embedInSurface σ) := by
  unfold convert at h
  dsimp only at h
  obtain ⟨σ, hσ, h⟩ := Res.bind_eq_ok.1 h
  obtain ⟨l0, h0, h⟩ := Res.bind_eq_ok.1 h
  obtain ⟨points, e0, h⟩ := Res.bind_eq_ok.1 h
  obtain ⟨lines, e1, h⟩ := Res.bind_eq_ok.1 h
  obtain ⟨surfaces, e2, h⟩ := Res.bind_eq_ok.1 h
  rw [atDimension_callsOf] at e1 e2
  split at h
  · cases h
  · rename_i hs
    rw [atDimension_pure _ _ _ (groups_nil _ _).1, Res.bind_ok,
      atDimension_pure _ _ _ (groups_nil refined _).2, Res.bind_ok,
      atDimension_pure _ _ _ rfl, Res.bind_ok, atDimension_pure _ _ _ rfl, Res.bind_ok] at h
    cases h
    exact ⟨σ, l0, points, lines, surfaces, hσ, getIdx_eq_ok.1 h0, e0, e1, e2, by omega, rfl⟩

/-- The steps put together. -/
theorem convert_of {close : P → P → Bool} {refined : Int → Bool} {d : Domain P} {σ : Strides}
    {l0 : List (Shape P)} {points lines surfaces : List (Call P)}
    (hσ : computeStrides (d.shapes.map (List.map view)) = .ok σ)
    (h0 : (d.shapes.map (List.map view))[0]? = some l0)
    (e0 : callsOf (transferVertex σ) l0 = .ok points)
    (e1 : callsOf (transferCurve σ) (seen (d.shapes.map (List.map view)) 0) = .ok lines)
    (e2 : callsOf (transferSurface close σ) (seen (d.shapes.map (List.map view)) 1) = .ok surfaces) :
    convert close refined d =
      if scanDimension (d.shapes.map (List.map view)) > 2 then .error .nameError
      else .ok (points ++ lines ++ surfaces ++ vertexGroups σ l0 ++
        curveGroups refined σ (seen (d.shapes.map (List.map view)) 0) ++
        surfaceGroups σ (seen (d.shapes.map (List.map view)) 1) ++
        (seen (d.shapes.map (List.map view)) 0).flatMap (embedInCurve σ) ++
        (seen (d.shapes.map (List.map view)) 1).flatMap (embedInSurface σ)) := by
  unfold convert
  dsimp only
  rw [hσ, Res.bind_ok, getIdx_of h0, Res.bind_ok, e0, Res.bind_ok, atDimension_callsOf, e1,
    Res.bind_ok, atDimension_callsOf, e2, Res.bind_ok]
  split
  · rfl
  · rw [atDimension_pure _ _ _ (groups_nil _ _).1, Res.bind_ok,
      atDimension_pure _ _ _ (groups_nil refined _).2, Res.bind_ok,
      atDimension_pure _ _ _ rfl, Res.bind_ok, atDimension_pure _ _ _ rfl, Res.bind_ok]
    rfl

theorem computeStrides_small {shapes : List (List (Shape P))} {σ : Strides}
    (h : computeStrides shapes = .ok σ) (h4 : shapes.length ≤ 4) {k : Fin 4}
    (hk : k.val ≤ scanDimension shapes) (t : Int) : σ.tag k t = occTag shapes k t := by
  obtain ⟨σ', e, h'⟩ := computeStrides_ok h4
  rw [h] at e; cases e
  exact h' k (fun j hj => noShapes_of_lt_scan (by omega)) t

/-! ### Groups -/

theorem mem_physicalTags {l : List (Shape P)} {p : Int} :
    p ∈ physicalTags l ↔ ∃ s ∈ l, s.physicalTag = some p := by
  unfold physicalTags
  rw [mem_npUnique, List.mem_filterMap]

theorem physicalTags_nodup (l : List (Shape P)) : (physicalTags l).Nodup :=
  (npUnique_pairwise _).imp fun h e => by omega

theorem withTag_ne {l : List (Shape P)} {p : Int} (h : p ∈ physicalTags l) :
    (withTag l p).length > 0 := by
  obtain ⟨s, hs, hp⟩ := mem_physicalTags.1 h
  exact List.length_pos_of_mem (List.mem_filter.2 ⟨hs, by simpa using hp⟩)

theorem mem_vertexGroups {σ : Strides} {l : List (Shape P)} {c : Call P} :
    c ∈ vertexGroups σ l ↔ ∃ p ∈ physicalTags l,
      c = .addPhysicalGroup 0 ((withTag l p).map fun s => σ.tag 0 s.tag) p := by
  unfold vertexGroups
  rw [List.mem_flatMap]
  refine exists_congr fun p => and_congr_right fun hp => ?_
  rw [if_pos (withTag_ne hp), List.mem_singleton]

theorem mem_curveGroups {refined : Int → Bool} {σ : Strides} {l : List (Shape P)} {c : Call P} :
    c ∈ curveGroups refined σ l ↔ ∃ p ∈ physicalTags l,
      c = .addPhysicalGroup 1 (curveTags σ l p) p ∨
      refined p = true ∧ ∃ t ∈ curveTags σ l p, c = .setTransfiniteCurve t := by
  unfold curveGroups
  rw [List.mem_flatMap]
  refine exists_congr fun p => and_congr_right fun hp => ?_
  rw [List.mem_cons]
  refine or_congr Iff.rfl ?_
  cases refined p <;> simp [eq_comm]

theorem mem_surfaceGroups {σ : Strides} {l : List (Shape P)} {c : Call P} :
    c ∈ surfaceGroups σ l ↔ ∃ p ∈ physicalTags l,
      c = .addPhysicalGroup 2 ((withTag l p).map fun s => σ.tag 2 s.tag) p := by
  unfold surfaceGroups
  rw [List.mem_map]
  exact exists_congr fun p => and_congr_right fun hp => eq_comm

theorem mem_withTag {l : List (Shape P)} {p : Int} {s : Shape P} :
    s ∈ withTag l p ↔ s ∈ l ∧ s.physicalTag = some p := by
  unfold withTag
  rw [List.mem_filter]; simp

/-! ### Calls -/

theorem mem_points {σ : Strides} {l : List (Shape P)} {cs : List (Call P)}
    (h : callsOf (transferVertex σ) l = .ok cs) {c : Call P} :
    c ∈ cs ↔ ∃ s ∈ l, s.immersed = [] ∧ ∃ x, pointOf s = .ok x ∧ c = .addPoint x (σ.tag 0 s.tag) := by
  rw [callsOf_mem_iff h]
  refine exists_congr fun s => and_congr_right fun _ => ?_
  unfold transferVertex
  constructor
  · rintro ⟨cs, e, hc⟩
    split at e
    · cases e; cases hc
    · rename_i hi
      obtain ⟨x, hx, e⟩ := Res.bind_eq_ok.1 e
      cases e
      exact ⟨by simpa using hi, x, hx, by simpa using hc⟩
  · rintro ⟨hi, x, hx, rfl⟩
    exact ⟨_, by rw [if_neg (by simp [hi]), hx, Res.bind_ok]; rfl, by simp⟩

theorem mem_lines {σ : Strides} {l : List (Shape P)} {cs : List (Call P)}
    (h : callsOf (transferCurve σ) l = .ok cs) {c : Call P} :
    c ∈ cs ↔ ∃ s ∈ l, skipCurve s = false ∧ ∃ p q, s.boundary[0]? = some p ∧
      s.boundary[1]? = some q ∧ c = .addLine (σ.tag 0 p.tag) (σ.tag 0 q.tag) (σ.tag 1 s.tag) := by
  rw [callsOf_mem_iff h]
  refine exists_congr fun s => and_congr_right fun _ => ?_
  unfold transferCurve
  constructor
  · rintro ⟨cs, e, hc⟩
    split at e
    · cases e; cases hc
    · rename_i hk
      obtain ⟨p, hp, e⟩ := Res.bind_eq_ok.1 e
      obtain ⟨q, hq, e⟩ := Res.bind_eq_ok.1 e
      cases e
      exact ⟨by simpa using hk, p, q, getIdx_eq_ok.1 hp, getIdx_eq_ok.1 hq, by simpa using hc⟩
  · rintro ⟨hk, p, q, hp, hq, rfl⟩
    refine ⟨_, ?_, List.mem_singleton.2 rfl⟩
    rw [if_neg (by simpa using hk), getIdx_some hp, Res.bind_ok, getIdx_some hq, Res.bind_ok]
    rfl

theorem mem_surfaces {close : P → P → Bool} {σ : Strides} {l : List (Shape P)} {cs : List (Call P)}
    (h : callsOf (transferSurface close σ) l = .ok cs) {c : Call P} :
    c ∈ cs ↔ ∃ s ∈ l, s.composite = false ∧ ∃ w o, s.boundary[0]? = some w ∧
      wireOrientation close w = .ok o ∧ o.length ≤ w.immersed.length ∧
        (c = .addCurveLoop (List.zipWith (fun e x => σ.tag 1 e.tag * x) w.immersed o)
          (σ.tag 2 s.tag) ∨ c = .addPlaneSurface [σ.tag 2 s.tag] (σ.tag 2 s.tag)) := by
  rw [callsOf_mem_iff h]
  refine exists_congr fun s => and_congr_right fun _ => ?_
  have hz : ∀ (w : Shape P) (o : List Int),
      List.zipWith (· * ·) (w.immersed.map fun c => σ.tag 1 c.tag) o =
      List.zipWith (fun e x => σ.tag 1 e.tag * x) w.immersed o := by
    intro w o
    rw [List.zipWith_map_left]
  unfold transferSurface
  constructor
  · rintro ⟨cs, e, hc⟩
    split at e
    · cases e; cases hc
    · rename_i hk
      obtain ⟨w, hw, e⟩ := Res.bind_eq_ok.1 e
      obtain ⟨o, ho, e⟩ := Res.bind_eq_ok.1 e
      obtain ⟨z, hz', e⟩ := Res.bind_eq_ok.1 e
      cases e
      obtain ⟨rfl, hlen⟩ := signedTags_zip hz'
      refine ⟨by simpa using hk, w, o, getIdx_eq_ok.1 hw, ho, by simpa using hlen, ?_⟩
      rw [hz] at hc
      simpa using hc
  · rintro ⟨hk, w, o, hw, ho, hlen, hc⟩
    rw [if_neg (by simpa using hk), getIdx_some hw, Res.bind_ok, ho, Res.bind_ok]
    obtain ⟨r, hr⟩ : ∃ r, signedTags (w.immersed.map fun c => σ.tag 1 c.tag) o = .ok r :=
      signedTags_ok (by simpa using hlen)
    obtain ⟨rfl, -⟩ := signedTags_zip hr
    rw [hr, Res.bind_ok]
    refine ⟨_, rfl, ?_⟩
    rw [hz]
    simpa using hc

end Verif.DiscreteDomain
