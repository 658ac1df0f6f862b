/-
Helper lemmas for C115.
-/
import Verif.Spec.FractureOpening
import Verif.Lemmas.Prelude
import Verif.Lemmas.Trace
import Mathlib.Tactic.Ring
import Mathlib.Tactic.FieldSimp
import Mathlib.Tactic.Positivity

namespace Verif.FracOpen
open MeshBuild MeshGraph MeshStore Trace MeshMetrics MeshOps EmbedCut Builder Skin

theorem zRotation_quarter (v : Pt ℝ) : zRotation v (Real.pi / 2) = ![-v 1, v 0, v 2] := by
  unfold zRotation
  rw [Real.cos_pi_div_two, Real.sin_pi_div_two]
  simp only [zero_mul, one_mul, zero_sub, add_zero]

theorem getIdx_some {α : Type} {l : List α} {i : Nat} {a : α} (h : l[i]? = some a) :
    getIdx l i = .ok a := by
  unfold getIdx
  rw [h]

theorem getIdx_none {α : Type} {l : List α} {i : Nat} (h : l[i]? = none) :
    getIdx l i = .error .indexError := by
  unfold getIdx
  rw [h]

/-- The normal of an edge whose ends are known. -/
theorem fractureNormal_eq {net : Network (Pt ℝ)} {c vi vj : GCell} {i j pi pj : Nat} {l : List Nat}
    {a b : Pt ℝ} (hb : c.boundary = i :: j :: l) (hi : net.cells[i]? = some vi)
    (hj : net.cells[j]? = some vj) (hpi : vi.pointId = some pi) (hpj : vj.pointId = some pj)
    (ha : net.points[pi]? = some a) (hb' : net.points[pj]? = some b) :
    fractureNormal net c = .ok (normalDir a b, midpoint a b) := by
  unfold fractureNormal
  rw [hb, getIdx_some (a := i) (by rfl), getIdx_some (a := j) (by rfl), Res.bind_ok, Res.bind_ok,
    getIdx_some hi, getIdx_some hj, Res.bind_ok, Res.bind_ok]
  unfold pointOf
  rw [hpi, hpj]
  dsimp only
  rw [getIdx_some ha, getIdx_some hb', Res.bind_ok, Res.bind_ok, zRotation_quarter]
  rfl

theorem norm3_sub_self (x : Pt ℝ) : norm3 (x - x) = 0 := by
  unfold norm3
  simp

theorem bump_left (b e : Pt ℝ) : bump b e b = 0 := by
  unfold bump
  rw [norm3_sub_self, zero_mul, zero_div]

theorem bump_right (b e : Pt ℝ) : bump b e e = 0 := by
  unfold bump
  rw [norm3_sub_self, mul_zero, zero_div]

/-! ### The opening -/

theorem openPair_ok {factor : ℝ} {n b e x y : Pt ℝ} {points : Points ℝ} {i j : Nat}
    (hx : points[i]? = some x) (hy : points[j]? = some y) (h : i = j → x = b ∨ x = e) :
    ∃ points', openPair factor n b e points (i, j) = .ok points' ∧
      Opened factor n b e [i] [j] points points' := by
  have hi := (List.getElem?_eq_some_iff.1 hx).1
  have hj := (List.getElem?_eq_some_iff.1 hy).1
  unfold openPair
  dsimp only
  rw [getIdx_some hx, getIdx_some hy, Res.bind_ok, Res.bind_ok]
  by_cases hij : i = j
  · subst hij
    have hxy : x = y := Option.some.inj (hx.symm.trans hy)
    subst hxy
    have h0 : bump b e x = 0 := by
      rcases h rfl with rfl | rfl
      · exact bump_left _ _
      · exact bump_right _ _
    rw [getIdx_some (a := fun k => x k + factor * n k * bump b e x) (by rw [List.getElem?_set_self hi])]
    refine ⟨_, rfl, by simp, fun m z hz => ?_⟩
    rw [List.set_set, List.getElem?_set]
    by_cases hm : i = m
    · subst hm
      rw [if_pos rfl, if_pos hi]
      have : z = x := Option.some.inj (hz.symm.trans hx)
      subst this
      simp [h0]
    · rw [if_neg hm, hz]
      simp [Ne.symm hm]
  · rw [getIdx_some (a := y) (by rw [List.getElem?_set_ne hij, hy])]
    refine ⟨_, rfl, by simp, fun m z hz => ?_⟩
    rw [List.getElem?_set, List.getElem?_set, List.length_set]
    by_cases hm : j = m
    · subst hm
      rw [if_pos rfl, if_pos hj]
      have : z = y := Option.some.inj (hz.symm.trans hy)
      subst this
      simp [Ne.symm hij]
    · rw [if_neg hm]
      by_cases hm' : i = m
      · subst hm'
        rw [if_pos rfl, if_pos hi]
        have : z = x := Option.some.inj (hz.symm.trans hx)
        subst this
        simp [Ne.symm hm]
      · rw [if_neg hm', hz]
        simp [Ne.symm hm, Ne.symm hm']

theorem openPairs_ok {factor : ℝ} {n b e : Pt ℝ} : ∀ (pairs : List (Nat × Nat)) (points : Points ℝ),
    (pairs.map Prod.fst).Nodup → (pairs.map Prod.snd).Nodup →
    (∀ p ∈ pairs, p.1 < points.length ∧ p.2 < points.length) →
    (∀ i ∈ pairs.map Prod.fst, i ∈ pairs.map Prod.snd → ∀ x, points[i]? = some x → x = b ∨ x = e) →
    ∃ points', pairs.foldlM (openPair factor n b e) points = .ok points' ∧
      Opened factor n b e (pairs.map Prod.fst) (pairs.map Prod.snd) points points'
  | [], points, _, _, _, _ => ⟨points, rfl, rfl, fun i x hx => by simpa using hx⟩
  | (i, j) :: rest, points, h1, h2, h3, h4 => by
    simp only [List.map_cons, List.nodup_cons] at h1 h2
    obtain ⟨hi, hj⟩ := h3 _ List.mem_cons_self
    dsimp only at hi hj
    obtain ⟨q, hq, hlen, hmv⟩ := openPair_ok (factor := factor) (n := n) (b := b) (e := e)
      (List.getElem?_eq_getElem hi) (List.getElem?_eq_getElem hj) (fun hij => by
        subst hij
        exact h4 i (by simp) (by simp) _ (List.getElem?_eq_getElem hi))
    obtain ⟨r, hr, hlen', hmv'⟩ := openPairs_ok (factor := factor) (n := n) (b := b) (e := e) rest q
      h1.2 h2.2 (fun p hp => by
        rw [hlen]
        exact h3 p (List.mem_cons_of_mem _ hp)) (fun m hm hm' x hx => by
        have hmq : m < points.length := by
          rw [← hlen]
          exact (List.getElem?_eq_some_iff.1 hx).1
        have := hmv m _ (List.getElem?_eq_getElem hmq)
        rw [hx] at this
        have e1 : m ≠ i := by
          rintro rfl
          exact h1.1 hm
        have e2 : m ≠ j := by
          rintro rfl
          exact h2.1 hm'
        simp only [List.mem_singleton, e1, e2, if_false, add_zero, sub_zero] at this
        rw [Option.some.inj this]
        exact h4 m (List.mem_cons_of_mem _ hm) (List.mem_cons_of_mem _ hm') _
          (List.getElem?_eq_getElem hmq))
    refine ⟨r, ?_, hlen'.trans hlen, fun m x hx => ?_⟩
    · rw [List.foldlM_cons, hq, Res.bind_ok]
      exact hr
    · have hm := hmv m x hx
      have hm' := hmv' m _ hm
      rw [hm']
      refine congrArg some (funext fun k => ?_)
      simp only [List.map_cons, List.mem_cons, List.not_mem_nil, or_false]
      have hz : (m = i ∨ m ∈ rest.map Prod.fst) → (m = j ∨ m ∈ rest.map Prod.snd) →
          bump b e x = 0 := by
        intro c1 c2
        rcases h4 m (by simpa using c1) (by simpa using c2) x hx with rfl | rfl
        · exact bump_left _ _
        · exact bump_right _ _
      by_cases a1 : m = i
      · have a2 : m ∉ rest.map Prod.fst := a1 ▸ h1.1
        by_cases b1 : m = j ∨ m ∈ rest.map Prod.snd
        · have h0 := hz (Or.inl a1) b1
          have hx' : (fun k => x k + (if m = i then factor * n k * bump b e x else 0) -
              if m = j then factor * n k * bump b e x else 0) = x := by
            funext k
            simp [h0]
          rw [hx', h0]
          simp
        · rw [not_or] at b1
          simp only [a1, a1 ▸ a2, a1 ▸ b1.1, a1 ▸ b1.2, if_true, if_false, sub_zero, or_false, add_zero,
            or_self]
      · by_cases b1 : m = j
        · have b2 : m ∉ rest.map Prod.snd := b1 ▸ h2.1
          by_cases a2 : m ∈ rest.map Prod.fst
          · have h0 := hz (Or.inr a2) (Or.inl b1)
            have hx' : (fun k => x k + (if m = i then factor * n k * bump b e x else 0) -
                if m = j then factor * n k * bump b e x else 0) = x := by
              funext k
              simp [h0]
            rw [hx', h0]
            simp
          · simp only [a1, a2, b2, if_pos b1, if_false, sub_zero, or_false, add_zero, or_self]
        · simp only [a1, b1, if_false, false_or, add_zero, sub_zero]

/-! ### Numbers of cells -/

theorem mapRes_comp {α β γ : Type} (f : α → β) (g : β → Res γ) : ∀ l : List α,
    mapRes g (l.map f) = mapRes (fun a => g (f a)) l
  | [] => rfl
  | a :: l => by
    simp only [List.map_cons, mapRes]
    rw [mapRes_comp f g l]

theorem getIdx_map {α β : Type} (f : α → β) (l : List α) (i : Nat) :
    getIdx (l.map f) i = (getIdx l i).map f := by
  unfold getIdx
  rw [List.getElem?_map]
  cases l[i]? <;> rfl

theorem mapRes_map {α β γ : Type} (f : β → γ) (g : α → Res β) : ∀ l : List α,
    mapRes (fun a => (g a).map f) l = (mapRes g l).map (List.map f)
  | [] => rfl
  | a :: l => by
    simp only [mapRes]
    rw [mapRes_map f g l]
    cases g a with
    | error => rfl
    | ok b => cases mapRes g l <;> rfl

theorem fancy_map' {α β : Type} (f : α → β) (l : List α) (idx : List Nat) :
    fancy (l.map f) idx = (fancy l idx).map (List.map f) := by
  unfold fancy
  rw [← mapRes_map]
  congr 1
  funext i
  exact getIdx_map f l i

/-! ### The dictionary -/

theorem collectNormals_spec {net : Network (Pt ℝ)} : ∀ {main : List GCell}
    {d d' : Dict (Option Int) (Pt ℝ × Pt ℝ)}, collectNormals net main d = .ok d' →
    (∀ t, (∀ c ∈ main, c.physical ≠ t) → d'.get? t = d.get? t) ∧
    ∀ pre c post, main = pre ++ c :: post → (∀ x ∈ post, x.physical ≠ c.physical) →
      ∃ r, fractureNormal net c = .ok r ∧ d'.get? c.physical = some r
  | [], d, d', h => by
    cases h
    exact ⟨fun _ _ => rfl, fun pre c post h => by simp at h⟩
  | a :: main, d, d', h => by
    rw [collectNormals, Res.bind_eq_ok] at h
    obtain ⟨r, hr, h⟩ := h
    obtain ⟨i1, i2⟩ := collectNormals_spec h
    refine ⟨fun t ht => ?_, fun pre c post hm hp => ?_⟩
    · rw [i1 t fun c hc => ht c (List.mem_cons_of_mem _ hc),
        Dict.get?_set_ne d r (Ne.symm (ht a List.mem_cons_self))]
    · cases pre with
      | nil =>
        simp only [List.nil_append, List.cons.injEq] at hm
        obtain ⟨rfl, rfl⟩ := hm
        exact ⟨r, hr, (i1 _ hp).trans (Dict.get?_set_self _ _ _)⟩
      | cons b pre =>
        simp only [List.cons_append, List.cons.injEq] at hm
        exact i2 pre c post hm.2 hp

/-! ### The copies -/

theorem insertCellData_keeps {s s' : Store} {c : Cell} {r : Option Cell} {ty : Nat} {tags : List Nat}
    {sign : Int} (h : insertCellData s c ty tags sign = .ok (s', r)) {i : Nat} {e : Option Cell}
    (hi : s.cells[i]? = some e) : s'.cells[i]? = some e := by
  unfold insertCellData at h
  rw [Res.bind_eq_ok] at h
  obtain ⟨ch, -, h⟩ := h
  dsimp only at h
  split at h
  · cases h
    show (s.cells ++ _)[i]? = _
    rw [List.getElem?_append_left (List.getElem?_eq_some_iff.1 hi).1, hi]
  · rw [Res.bind_eq_ok] at h
    obtain ⟨x, -, h⟩ := h
    cases h
    exact hi

theorem duplicateEntity_keeps {s s' : Store} {name : String} {c r : Cell} {tags : List Nat}
    {phys : Option Int} {sign : Int} {dup dup' : Dict Nat Nat}
    (h : duplicateEntity s name c tags phys sign dup = .ok (s', r, dup')) {i : Nat} {e : Option Cell}
    (hi : s.cells[i]? = some e) : s'.cells[i]? = some e := by
  unfold duplicateEntity at h
  rw [Res.bind_eq_ok] at h
  obtain ⟨ty, -, h⟩ := h
  dsimp only at h
  rw [Res.bind_eq_ok] at h
  obtain ⟨⟨s1, r1⟩, h1, h⟩ := h
  dsimp only at h
  split at h
  · cases h
  · cases h
    exact insertCellData_keeps h1 hi

end Verif.FracOpen
