/-
Property theorems C141: the torsion test.
-/
import Verif.Spec.Torsion
import Verif.Props.Dual
import Verif.Props.Cosserat
import Verif.Props.DriverSpaces
import Verif.Lemmas.Trace

namespace Verif.Torsion
open MeshGraph Space Dual DriverSpaces Laplace L2Form Trace

/-! ### Spaces -/

/-- The mixed method has two stable pairs, with three rows each, and all sides of the cylinder. -/
theorem C141_dual_spaces (k : Int) (mesh : Mesh) :
    Pair (dualPlan k mesh) "s" "u" ∧ Pair (dualPlan k mesh) "m" "t" ∧
      (∀ n ∈ ["s", "m", "u", "t"], HasComponents (dualPlan k mesh) n 3) ∧
      ∀ n ∈ ["s", "m"], (dualPlan k mesh).bTags.get? n = some (tagsOf ((boxTags 3).values.drop 1)) := by
  refine ⟨⟨⟨_, _, _, rfl, rfl, rfl, rfl, rfl, rfl, rfl, rfl⟩, rfl, rfl, ⟨_, rfl, rfl⟩, ⟨_, rfl, List.cons_ne_nil _ _⟩, rfl⟩,
    ⟨⟨_, _, _, rfl, rfl, rfl, rfl, rfl, rfl, rfl, rfl⟩, rfl, rfl, ⟨_, rfl, rfl⟩, ⟨_, rfl, List.cons_ne_nil _ _⟩, rfl⟩, ?_, ?_⟩
  · intro n hn
    simp only [List.mem_cons, List.not_mem_nil, or_false] at hn
    rcases hn with rfl | rfl | rfl | rfl <;> exact ⟨_, rfl, rfl⟩
  · intro n hn
    simp only [List.mem_cons, List.not_mem_nil, or_false] at hn
    rcases hn with rfl | rfl <;> rfl

/-- The primal method is conforming; displacements have one order more than rotations. -/
theorem C141_primal_spaces (k : Int) (mesh : Mesh) :
    ∃ u t, (primalPlan k mesh).data = [("u", u), ("t", t)] ∧ u.nComp = 3 ∧ t.nComp = 3 ∧ u.kOrder = t.kOrder + 1 ∧
      t.kOrder = k ∧ ∀ n ∈ ["u", "t"], (primalPlan k mesh).disc.get? n = some false ∧
        (primalPlan k mesh).tags.get? n = some (tagsOf ((boxTags 3).values.take 1)) ∧
        (primalPlan k mesh).bTags.get? n = some (tagsOf ((boxTags 3).values.drop 1)) := by
  refine ⟨_, _, rfl, rfl, rfl, rfl, rfl, ?_⟩
  intro n hn
  simp only [List.mem_cons, List.not_mem_nil, or_false] at hn
  rcases hn with rfl | rfl <;> exact ⟨rfl, rfl, rfl⟩

/-! ### Faces -/

theorem mem_facesWith {keep : List Int} {ids : List (Option Int)} {i : Nat} :
    i ∈ facesWith keep ids ↔ ∃ m ∈ keep, ids[i]? = some (some m) := by
  simp only [facesWith, List.mem_filterMap, Prod.exists]
  constructor
  · rintro ⟨m, j, hm, h⟩
    split at h
    · rename_i hk
      obtain rfl := Option.some.inj h
      obtain ⟨v, hv, rfl⟩ := List.mem_map.1 hk
      exact ⟨v, hv, List.mem_zipIdx_iff_getElem?.1 hm⟩
    · cases h
  · rintro ⟨m, hm, h⟩
    exact ⟨some m, i, List.mem_zipIdx_iff_getElem?.2 h, by rw [if_pos (List.mem_map_of_mem hm)]⟩

theorem nodup_facesWith {keep : List Int} (ids : List (Option Int)) : (facesWith keep ids).Nodup := by
  have h : ((facesWith keep ids)).Sublist (List.range ids.length) := by
    have e : ids.zipIdx.map Prod.snd = List.range ids.length := by
      rw [List.zipIdx_map_snd, List.range_eq_range']
    rw [← e]
    unfold facesWith
    induction ids.zipIdx with
    | nil => exact List.Sublist.slnil
    | cons p l ih =>
      rw [List.filterMap_cons]
      split
      · exact ih.cons _
      · rename_i b hb
        split at hb
        · obtain rfl := Option.some.inj hb
          exact ih.cons₂ _
        · cases hb
  exact h.nodup List.nodup_range

/-- The mixed method: every face gets the form of its part of the surface, once, and faces with other tags get none. -/
theorem C141_dual_faces (ids : List (Option Int)) :
    (∀ p i, (p, i) ∈ dualCalls ids ↔ ∃ m, ids[i]? = some m ∧ partOf m = some p) ∧
      ((dualCalls ids).map Prod.snd).Nodup := by
  constructor
  · intro p i
    simp only [dualCalls, List.mem_append, List.mem_map, Prod.mk.injEq, mem_facesWith]
    constructor
    · rintro ((⟨j, ⟨m, hm, h⟩, rfl, rfl⟩ | ⟨j, ⟨m, hm, h⟩, rfl, rfl⟩) | ⟨j, ⟨m, hm, h⟩, rfl, rfl⟩)
      · obtain rfl := List.mem_singleton.1 hm
        exact ⟨_, h, rfl⟩
      · obtain rfl := List.mem_singleton.1 hm
        exact ⟨_, h, rfl⟩
      · refine ⟨_, h, ?_⟩
        simp only [List.mem_cons, List.not_mem_nil, or_false] at hm
        rcases hm with rfl | rfl | rfl | rfl <;> rfl
    · rintro ⟨m, h, hp⟩
      unfold partOf at hp
      split at hp
      · rename_i e; subst e
        obtain rfl := Option.some.inj hp
        exact .inl (.inl ⟨i, ⟨7, by simp, h⟩, rfl, rfl⟩)
      · split at hp
        · rename_i e; subst e
          obtain rfl := Option.some.inj hp
          exact .inl (.inr ⟨i, ⟨6, by simp, h⟩, rfl, rfl⟩)
        · split at hp
          · rename_i e
            obtain rfl := Option.some.inj hp
            rcases e with rfl | rfl | rfl | rfl
            · exact .inr ⟨i, ⟨2, by simp, h⟩, rfl, rfl⟩
            · exact .inr ⟨i, ⟨3, by simp, h⟩, rfl, rfl⟩
            · exact .inr ⟨i, ⟨4, by simp, h⟩, rfl, rfl⟩
            · exact .inr ⟨i, ⟨5, by simp, h⟩, rfl, rfl⟩
          · cases hp
  · simp only [dualCalls, List.map_append, List.map_map]
    show ((facesWith [7] ids).map id ++ (facesWith [6] ids).map id ++ (facesWith [2, 3, 4, 5] ids).map id).Nodup
    simp only [List.map_id]
    refine List.nodup_append.2 ⟨List.nodup_append.2 ⟨nodup_facesWith ids, nodup_facesWith ids, ?_⟩, nodup_facesWith ids, ?_⟩
    · rintro a ha b hb rfl
      obtain ⟨m, hm, h⟩ := mem_facesWith.1 ha
      obtain ⟨n, hn, h'⟩ := mem_facesWith.1 hb
      rw [h] at h'
      simp only [Option.some.injEq] at h'
      simp only [List.mem_cons, List.not_mem_nil, or_false] at hm hn
      omega
    · rintro a ha b hb rfl
      obtain ⟨n, hn, h'⟩ := mem_facesWith.1 hb
      rcases List.mem_append.1 ha with ha | ha <;>
      · obtain ⟨m, hm, h⟩ := mem_facesWith.1 ha
        rw [h] at h'
        simp only [Option.some.injEq] at h'
        simp only [List.mem_cons, List.not_mem_nil, or_false] at hm hn
        omega

/-- When all faces have tags of the surface, no face is left out. -/
theorem C141_all_faces {ids : List (Option Int)} (h : ∀ m ∈ ids, ∃ p, partOf m = some p) :
    ((dualCalls ids).map Prod.snd).Perm (List.range ids.length) := by
  obtain ⟨h1, h2⟩ := C141_dual_faces ids
  rw [List.perm_ext_iff_of_nodup h2 List.nodup_range]
  intro i
  rw [List.mem_range]
  constructor
  · intro hi
    obtain ⟨⟨p, j⟩, hp, rfl⟩ := List.mem_map.1 hi
    obtain ⟨m, hm, -⟩ := (h1 p j).1 hp
    exact (List.getElem?_eq_some_iff.1 hm).1
  · intro hi
    obtain ⟨p, hp⟩ := h _ (List.getElem_mem hi)
    exact List.mem_map.2 ⟨(p, i), (h1 p i).2 ⟨_, List.getElem?_eq_getElem hi, hp⟩, rfl⟩

/-- The primal method: the three calls are made with the form of the turned end, on the held end and on the side too. -/
theorem C141_primal_faces_violated (ids : List (Option Int)) :
    ∀ p i, (p, i) ∈ primalCalls ids ↔ p = .top ∧ ∃ m q, ids[i]? = some m ∧ partOf m = some q := by
  intro p i
  have key : (p, i) ∈ primalCalls ids ↔ p = .top ∧ ∃ q, (q, i) ∈ dualCalls ids := by
    simp only [primalCalls, dualCalls, List.mem_append, List.mem_map, Prod.mk.injEq]
    constructor
    · rintro ((⟨j, hj, rfl, rfl⟩ | ⟨j, hj, rfl, rfl⟩) | ⟨j, hj, rfl, rfl⟩)
      · exact ⟨rfl, .top, .inl (.inl ⟨_, hj, rfl, rfl⟩)⟩
      · exact ⟨rfl, .bottom, .inl (.inr ⟨_, hj, rfl, rfl⟩)⟩
      · exact ⟨rfl, .lateral, .inr ⟨_, hj, rfl, rfl⟩⟩
    · rintro ⟨rfl, q, (⟨j, hj, -, rfl⟩ | ⟨j, hj, -, rfl⟩) | ⟨j, hj, -, rfl⟩⟩
      · exact .inl (.inl ⟨_, hj, rfl, rfl⟩)
      · exact .inl (.inr ⟨_, hj, rfl, rfl⟩)
      · exact .inr ⟨_, hj, rfl, rfl⟩
  rw [key]
  constructor
  · rintro ⟨rfl, q, hq⟩
    obtain ⟨m, hm, hp⟩ := ((C141_dual_faces ids).1 q i).1 hq
    exact ⟨rfl, m, q, hm, hp⟩
  · rintro ⟨rfl, m, q, hm, hp⟩
    exact ⟨rfl, q, ((C141_dual_faces ids).1 q i).2 ⟨m, hm, hp⟩⟩

/-! ### Data -/

/-- On the held end (at height zero) the data of the turned end are those of the held one. -/
theorem C141_held_end (x y : ℝ) :
    rotationU x y 0 = nullData x y 0 ∧ rotationT x y 0 = nullData x y 0 := by
  simp [rotationU, rotationT, nullData]

/-- At height ten the displacement is a rotation about the axis by thirteen degrees: it keeps the height and the
distance from the axis, and the points turn by the angle. -/
theorem C141_turned_end (x y : ℝ) :
    let u := rotationU x y 10
    u.2.2 = 0 ∧ (x + u.1) ^ 2 + (y + u.2.1) ^ 2 = x ^ 2 + y ^ 2 ∧
      x * (x + u.1) + y * (y + u.2.1) = Real.cos (13 / 180 * Real.pi) * (x ^ 2 + y ^ 2) := by
  have e : (13 / 180 * Real.pi : ℝ) = angle := by unfold angle; ring
  have h := Real.sin_sq_add_cos_sq angle
  have h1 : x + (rotationU x y 10).1 = Real.cos angle * x + Real.sin angle * y := by
    simp only [rotationU]; ring
  have h2 : y + (rotationU x y 10).2.1 = -Real.sin angle * x + Real.cos angle * y := by
    simp only [rotationU]; ring
  refine ⟨by simp [rotationU], ?_, ?_⟩
  · rw [h1, h2]
    linear_combination (x ^ 2 + y ^ 2) * h
  · rw [h1, h2, e]
    ring

/-- On the side, which should be free, the primal method prescribes a rotation that is not zero at any height but
zero. -/
theorem C141_side_violated {ids : List (Option Int)} {i : Nat} (hi : ∃ m, ids[i]? = some m ∧ partOf m = some .lateral) :
    ∃ p d, (p, i) ∈ primalCalls ids ∧ p.data = some d ∧ ∀ x y z : ℝ, z ≠ 0 → (d.2 x y z).2.2 ≠ 0 := by
  obtain ⟨m, hm, hp⟩ := hi
  refine ⟨.top, _, (C141_primal_faces_violated ids .top i).2 ⟨rfl, m, _, hm, hp⟩, rfl, fun x y z hz => ?_⟩
  show angle * (z / 10) ≠ 0
  have := Real.pi_pos
  unfold angle
  positivity

/-- The mixed form reads coefficients that are not among its functions: no element can be evaluated. -/
theorem C141_dual_data_violated {K X : Type} [Field K] {spaces : Dict String (Laplace.FSpace (Elem K X))} {iel : Nat}
    {sp : Spaces K X} (h : readSpaces spaces iel = .ok sp) (alpha : Nat → K) :
    evaluateVectorized false (some spaces) (some dualData) iel alpha = .error .keyError :=
  ((C78_unset_refused false (some spaces) (some dualData) iel alpha).2.2.1 spaces dualData sp rfl rfl h (.inl rfl)).2.1

/-- The primal form finds its functions. -/
theorem C141_primal_data {K X : Type} [Field K] {spaces : Dict String (FSpace (PElem K X))} {iel : Nat}
    {us ts : FSpace (PElem K X)} {u t : PElem K X} (hu : spaces.getItem "u" = .ok us)
    (ht : spaces.getItem "t" = .ok ts) (eu : getIdx us.elements iel = .ok u) (et : getIdx ts.elements iel = .ok t)
    (lam mu lc : K) (alpha : Nat → K) :
    Cosserat.evaluateForm (some spaces) (some (primalData lam mu lc)) iel alpha =
      (Cosserat.form u t.tab us.nComp ts.nComp (fun _ _ _ => 0)
        (fun _ _ => ⟨mu, mu, lam, mu * lc * lc⟩) (adVar alpha)).map valDer := by
  simp only [Cosserat.evaluateForm, hu, ht, Res.bind_ok, primalData, Laplace.entry, eu, et]
  cases Cosserat.form u t.tab us.nComp ts.nComp (fun _ _ _ => 0)
        (fun _ _ => (⟨mu, mu, lam, mu * lc * lc⟩ : Cosserat.Coeffs K)) (adVar alpha) <;> rfl

/-! ### Moments -/

section
variable {K : Type} [Field K]

theorem splitRows_top {f : Face K} (h : OnTop f) :
    splitRows f.alpha f.tr.dofs.length = .ok (3, fun a d => f.alpha.getD (a * 3 + d) 0) := by
  have h0 : f.tr.dofs.length ≠ 0 := fun e => h.some (List.length_eq_zero_iff.1 e)
  have h1 : f.alpha.length / f.tr.dofs.length = 3 := by
    rw [h.alpha]; exact Nat.mul_div_cancel_left 3 (Nat.pos_of_ne_zero h0)
  rw [splitRows, if_neg h0, if_neg (by rw [h.alpha]; simp), h1]

theorem fieldAt_top {f : Face K} (h : OnTop f) (i : Nat) :
    fieldAt f 3 (fun a d => f.alpha.getD (a * 3 + d) 0) i = .ok ⟨3, 3, tensor f i⟩ := by
  have h1 : ¬(f.tr.dofs.any fun d => decide (f.tr.tab.nPhi ≤ d)) = true := by
    simp only [List.any_eq_true, decide_eq_true_eq, not_exists, not_and, not_le]
    exact h.dofs
  rw [fieldAt, if_neg h1, h.dim, if_neg (by decide), if_neg (by decide)]
  have h2 : min 3 f.tr.tab.nVal = 3 := by have := h.val; omega
  rw [h2]
  congr 2
  funext c e
  exact Finset.sum_congr rfl fun a _ => mul_comm _ _

theorem fold_integral (g : Nat → K) (n : Nat) (step : K → Nat → Res K)
    (hs : ∀ acc i, i < n → step acc i = .ok (acc + g i)) :
    (List.range n).foldlM step 0 = .ok (∑ i ∈ Finset.range n, g i) := by
  induction n with
  | zero => rfl
  | succ n ih =>
    rw [List.range_succ, List.foldlM_append, ih fun acc i hi => hs acc i (by omega), Res.bind_ok,
      Finset.sum_range_succ]
    show (step _ n >>= fun x => pure x) = _
    rw [hs _ n (by omega)]
    rfl

/-- The strain moment is the moment of the entries of the third row. -/
theorem C141_strain_partial {f : Face K} (h : OnTop f) :
    integrateStrain f = .ok (integral f fun i => f.x i 0 * tensor f i 2 1 - f.x i 1 * tensor f i 2 0) := by
  rw [integrateStrain, if_neg (by rw [h.neighbour]; decide), if_neg (by rw [h.tag]; decide), splitRows_top h, Res.bind_ok]
  refine fold_integral _ _ _ fun acc i _ => ?_
  simp only [fieldAt_top h]
  rfl

/-- The curvature moment is the couple. -/
theorem C141_curvature {f : Face K} (h : OnTop f) (hn : Upwards f) : integrateCurvature f = .ok (couple f) := by
  rw [integrateCurvature, if_neg (by rw [h.neighbour]; decide), if_neg (by rw [h.tag]; decide), splitRows_top h,
    Res.bind_ok]
  refine (fold_integral (fun i => f.side.det i * f.side.weights i * tensor f i 2 2) _ _ fun acc i _ => ?_).trans ?_
  · simp only [fieldAt_top h]
    rfl
  · obtain ⟨h0, h1, h2⟩ := hn
    refine congrArg _ (Finset.sum_congr rfl fun i _ => ?_)
    simp [tractionAt, Finset.sum_range_succ, h0, h1, h2]

/-- For stresses that are symmetric in the points of the face, the strain moment is the moment of the traction. -/
theorem C141_strain_symmetric {f : Face K} (h : OnTop f) (hn : Upwards f)
    (hs : ∀ i < f.side.nPts, tensor f i 2 1 = tensor f i 1 2 ∧ tensor f i 2 0 = tensor f i 0 2) :
    integrateStrain f = .ok (torque f) := by
  rw [C141_strain_partial h]
  obtain ⟨h0, h1, h2⟩ := hn
  refine congrArg _ (Finset.sum_congr rfl fun i hi => ?_)
  obtain ⟨e1, e2⟩ := hs i (Finset.mem_range.1 hi)
  simp [tractionAt, Finset.sum_range_succ, h0, h1, h2, e1, e2]

/-- When the functions of the face point along its normal, the strain moment vanishes, whatever the traction. -/
theorem C141_strain_normal {f : Face K} (h : OnTop f)
    (hphi : ∀ i < f.side.nPts, ∀ d ∈ f.tr.dofs, f.tr.tab.val 0 i d 0 = 0 ∧ f.tr.tab.val 0 i d 1 = 0) :
    integrateStrain f = .ok 0 := by
  rw [C141_strain_partial h]
  refine congrArg _ (Finset.sum_eq_zero fun i hi => ?_)
  have key : ∀ c e, e = 0 ∨ e = 1 → tensor f i c e = 0 := by
    intro c e he
    refine Finset.sum_eq_zero fun a ha => ?_
    have hm : f.tr.dofs.getD a 0 ∈ f.tr.dofs := by
      rw [List.getD_eq_getElem?_getD, List.getElem?_eq_getElem (Finset.mem_range.1 ha)]
      exact List.getElem_mem _
    obtain ⟨z0, z1⟩ := hphi i (Finset.mem_range.1 hi) _ hm
    rcases he with rfl | rfl
    · rw [z0, mul_zero]
    · rw [z1, mul_zero]
  simp [key]

/-- Other faces do not contribute. -/
theorem C141_other_faces {f : Face K} (hn : f.hasNeighbour = true) (h : f.materialId ≠ some 7) :
    integrateStrain f = .ok 0 ∧ integrateCurvature f = .ok 0 := by
  constructor
  · rw [integrateStrain, if_neg (by rw [hn]; decide), if_pos h]
  · rw [integrateCurvature, if_neg (by rw [hn]; decide), if_pos h]

/-- What is refused: a face without neighbour; coefficients that cannot be divided among the functions; a plane
domain. -/
theorem C141_refused (f : Face K) :
    (f.hasNeighbour = false →
      integrateStrain f = .error .assertionError ∧ integrateCurvature f = .error .assertionError) ∧
    (f.hasNeighbour = true → f.materialId = some 7 → f.tr.dofs ≠ [] → f.alpha.length % f.tr.dofs.length ≠ 0 →
      integrateStrain f = .error .valueError ∧ integrateCurvature f = .error .valueError) ∧
    (f.hasNeighbour = true → f.materialId = some 7 → f.tr.dofs ≠ [] → f.alpha.length = f.tr.dofs.length * 2 →
      (∀ d ∈ f.tr.dofs, d < f.tr.tab.nPhi) → f.side.dim = 2 → f.side.nPts ≠ 0 →
      integrateStrain f = .error .indexError ∧ integrateCurvature f = .error .indexError) := by
  refine ⟨fun h => ?_, fun h h7 hd ha => ?_, fun h h7 hd ha hdofs h2 hp => ?_⟩
  · exact ⟨by rw [integrateStrain, if_pos h], by rw [integrateCurvature, if_pos h]⟩
  · have h0 : f.tr.dofs.length ≠ 0 := fun e => hd (List.length_eq_zero_iff.1 e)
    have e : splitRows f.alpha f.tr.dofs.length = .error .valueError := by
      rw [splitRows, if_neg h0, if_pos ha]
    constructor
    · rw [integrateStrain, if_neg (by rw [h]; decide), if_neg (by rw [h7]; decide), e]; rfl
    · rw [integrateCurvature, if_neg (by rw [h]; decide), if_neg (by rw [h7]; decide), e]; rfl
  · have h0 : f.tr.dofs.length ≠ 0 := fun e => hd (List.length_eq_zero_iff.1 e)
    have hq : f.alpha.length / f.tr.dofs.length = 2 := by
      rw [ha]; exact Nat.mul_div_cancel_left 2 (Nat.pos_of_ne_zero h0)
    have e : splitRows f.alpha f.tr.dofs.length = .ok (2, fun a d => f.alpha.getD (a * 2 + d) 0) := by
      rw [splitRows, if_neg h0, if_neg (by rw [ha]; simp), hq]
    have h1 : ¬(f.tr.dofs.any fun d => decide (f.tr.tab.nPhi ≤ d)) = true := by
      simp only [List.any_eq_true, decide_eq_true_eq, not_exists, not_and, not_le]
      exact hdofs
    have hf : ∀ i, ∃ s : Arr K, s.rows = 2 ∧
        fieldAt f 2 (fun a d => f.alpha.getD (a * 2 + d) 0) i = .ok s := by
      intro i
      rw [fieldAt, if_neg h1, h2, if_neg (by decide), if_neg (by decide)]
      exact ⟨_, rfl, rfl⟩
    obtain ⟨n, hn⟩ := Nat.exists_eq_succ_of_ne_zero hp
    obtain ⟨s, hs, h3⟩ := hf 0
    have hr : ∀ l, entryAt s 2 l = .error .indexError := by
      intro l
      rw [entryAt, if_neg (by rw [hs]; omega)]
    constructor
    · rw [integrateStrain, if_neg (by rw [h]; decide), if_neg (by rw [h7]; decide), e, Res.bind_ok, hn,
        List.range_succ_eq_map, List.foldlM_cons, h3, Res.bind_ok, hr]
      rfl
    · rw [integrateCurvature, if_neg (by rw [h]; decide), if_neg (by rw [h7]; decide), e, Res.bind_ok, hn,
        List.range_succ_eq_map, List.foldlM_cons, h3, Res.bind_ok, hr]
      rfl

theorem reduceSum_eq {l : List K} (h : l ≠ []) : reduceSum l = .ok l.sum := by
  cases l with
  | nil => exact absurd rfl h
  | cons v rest =>
    show Except.ok (rest.foldl (· + ·) v) = _
    have : ∀ (l : List K) (v : K), l.foldl (· + ·) v = v + l.sum := by
      intro l
      induction l with
      | nil => intro v; simp
      | cons w l ih => intro v; rw [List.foldl_cons, ih, List.sum_cons, add_assoc]
    rw [this, List.sum_cons]

/-- The moments are the sums over the faces; without faces there is nothing to reduce. -/
theorem C141_sum {s m : List (Face K)} {g h : Face K → K} (hs : ∀ f ∈ s, integrateStrain f = .ok (g f))
    (hm : ∀ f ∈ m, integrateCurvature f = .ok (h f)) :
    (s ≠ [] → m ≠ [] → moments s m = .ok ((s.map g).sum, (m.map h).sum)) ∧
      (s = [] ∨ m = [] → moments s m = .error .typeError) := by
  have mapok : ∀ {F : Face K → Res K} {g : Face K → K} {l : List (Face K)}, (∀ f ∈ l, F f = .ok (g f)) →
      mapRes F l = .ok (l.map g) := by
    intro F g l hl
    induction l with
    | nil => rfl
    | cons a l ih =>
      rw [mapRes, hl a (by simp), Res.bind_ok, ih fun f hf => hl f (by simp [hf]), Res.bind_ok]
      rfl
  unfold moments
  rw [mapok hs, Res.bind_ok, mapok hm, Res.bind_ok]
  constructor
  · intro h1 h2
    rw [reduceSum_eq (by simpa using h1), Res.bind_ok, reduceSum_eq (by simpa using h2), Res.bind_ok]
    rfl
  · rintro (rfl | rfl)
    · rfl
    · cases s with
      | nil => rfl
      | cons a s => rfl

omit [Field K] in
/-- The file has a row for every length, with the length and both moments. -/
theorem C141_diagram {values : List K} {run : K → Res (K × K)} {g : K → K × K} (h : ∀ v ∈ values, run v = .ok (g v)) :
    diagram values run = .ok (values.map fun v => [v, (g v).1, (g v).2]) := by
  have mapok : ∀ l : List K, (∀ v ∈ l, run v = .ok (g v)) → mapRes run l = .ok (l.map g) := by
    intro l hl
    induction l with
    | nil => rfl
    | cons a l ih =>
      rw [mapRes, hl a (by simp), Res.bind_ok, ih fun f hf => hl f (by simp [hf]), Res.bind_ok]
      rfl
  rw [diagram, mapok values h, Res.bind_ok]
  refine congrArg _ ?_
  clear h mapok
  induction values with
  | nil => rfl
  | cons a l ih => simp only [List.map_cons, List.zip_cons_cons, ih]

end

/-! ### Examples -/

/-- A face of the turned end with one function, the third unit vector, in the point `(1, 0, 10)`, where the traction is
`(0, 1, 0)`. -/
def exampleFace : Face ℚ :=
  ⟨true, some 7, ⟨2, 3, 1, fun _ => 1, fun _ => 1, fun d => if d = 2 then 1 else 0⟩,
    ⟨1, ⟨1, 1, 3, fun _ _ _ e => if e = 2 then 1 else 0⟩, [0]⟩, fun _ d => if d = 0 then 1 else if d = 1 then 0 else 10,
    [0, 1, 0]⟩

theorem exampleFace_top : OnTop exampleFace ∧ Upwards exampleFace :=
  ⟨⟨rfl, rfl, rfl, List.cons_ne_nil _ _, by decide, by decide, rfl⟩, rfl, rfl, rfl⟩

/-- The strain moment is not the moment of the traction. -/
theorem C141_strain_violated :
    ∃ f : Face ℚ, OnTop f ∧ Upwards f ∧ torque f = 1 ∧ integrateStrain f = .ok 0 := by
  refine ⟨exampleFace, exampleFace_top.1, exampleFace_top.2, ?_, ?_⟩
  · simp [torque, integral, tractionAt, tensor, exampleFace]
  · exact C141_strain_normal exampleFace_top.1 fun i _ d _ => ⟨rfl, rfl⟩

/-- Three faces of three parts. -/
example : dualCalls [some 3, some 7, some 6] = [(.top, 1), (.bottom, 2), (.lateral, 0)] ∧
    primalCalls [some 3, some 7, some 6] = [(.top, 1), (.top, 2), (.top, 0)] := ⟨rfl, rfl⟩

example : ∀ m ∈ [some 3, some 7, some 6], ∃ p, partOf m = some p := by
  intro m hm
  simp only [List.mem_cons, List.not_mem_nil, or_false] at hm
  rcases hm with rfl | rfl | rfl
  · exact ⟨.lateral, rfl⟩
  · exact ⟨.top, rfl⟩
  · exact ⟨.bottom, rfl⟩

/-- The bottom is held: no displacement and no rotation. -/
theorem C141_bottom (x y z : ℝ) : nullData x y z = (0, 0, 0) := by simp [nullData]

/-- When the stress in a point is not computed: a shape function that the table does not have, a cell without
dimensions, fewer components than dimensions; otherwise it is. -/
theorem C141_field {K : Type} [Field K] (f : Face K) (cols : Nat) (star : Nat → Nat → K) (i : Nat) :
    ((∃ d ∈ f.tr.dofs, f.tr.tab.nPhi ≤ d) → fieldAt f cols star i = .error .indexError) ∧
    ((∀ d ∈ f.tr.dofs, d < f.tr.tab.nPhi) →
      (f.side.dim = 0 → fieldAt f cols star i = .error .valueError) ∧
      (0 < f.side.dim → cols < f.side.dim → fieldAt f cols star i = .error .indexError) ∧
      (0 < f.side.dim → f.side.dim ≤ cols → ∃ s, fieldAt f cols star i = .ok s ∧ s.rows = f.side.dim ∧
        s.cols = min f.side.dim f.tr.tab.nVal)) := by
  constructor
  · rintro ⟨d, hd, hn⟩
    rw [fieldAt, if_pos (List.any_eq_true.2 ⟨d, hd, by simpa using hn⟩)]
  · intro hd
    have hn : ¬ (f.tr.dofs.any fun d => f.tr.tab.nPhi ≤ d) = true := by
      intro h
      obtain ⟨d, h1, h2⟩ := List.any_eq_true.1 h
      have := hd d h1
      simp at h2
      omega
    refine ⟨fun h => ?_, fun h hc => ?_, fun h hc => ?_⟩
    · rw [fieldAt, if_neg hn, if_pos h]
    · rw [fieldAt, if_neg hn, if_neg (by omega), if_pos hc]
    · exact ⟨_, by rw [fieldAt, if_neg hn, if_neg (by omega), if_neg (by omega)], rfl, rfl⟩

/-- An entry of the stress exists within its rows and columns. -/
theorem C141_entry {K : Type} [Field K] (s : Arr K) (k l : Nat) :
    (k < s.rows → l < s.cols → entryAt s k l = .ok (s.val k l)) ∧
    (s.rows ≤ k ∨ s.cols ≤ l → entryAt s k l = .error .indexError) := by
  refine ⟨fun h1 h2 => if_pos ⟨h1, h2⟩, fun h => if_neg ?_⟩
  omega

#print axioms C141_dual_spaces
#print axioms C141_primal_spaces
#print axioms C141_dual_faces
#print axioms C141_all_faces
#print axioms C141_primal_faces_violated
#print axioms C141_held_end
#print axioms C141_turned_end
#print axioms C141_side_violated
#print axioms C141_dual_data_violated
#print axioms C141_primal_data
#print axioms C141_strain_partial
#print axioms C141_curvature
#print axioms C141_strain_symmetric
#print axioms C141_strain_normal
#print axioms C141_other_faces
#print axioms C141_refused
#print axioms C141_sum
#print axioms C141_diagram
#print axioms C141_strain_violated

#print axioms C141_bottom
#print axioms C141_field
#print axioms C141_entry

end Verif.Torsion
