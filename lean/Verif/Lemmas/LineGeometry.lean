/-
Lemmas for C52 and for the masks of C51.
-/
import Verif.Lemmas.PointGeometry

namespace Verif.Geometry
open MeshBuild MeshGraph Trace MeshMetrics
open scoped Classical

/-- No end point of the first segment is on the second one: the least squares problem is solved. -/
theorem lineLine_interior {tol : Tol} {lstsq : Pt ℝ → Pt ℝ → Pt ℝ → ℝ × ℝ} {a b c d : Pt ℝ}
    {eps : ℝ} (h1 : pointLineIntersection tol.collapse a c d tol.pointLine = none)
    (h2 : pointLineIntersection tol.collapse b c d tol.pointLine = none) :
    lineLineIntersection tol lstsq a b c d eps =
      let x := lstsq (b - a) (d - c) (c - a)
      if Close eps eps (a + x.1 • (b - a)) (c + x.2 • (d - c)) ∧
        ((0 < x.1 ∨ IsClose eps eps x.1 0) ∧ (x.1 < 1 ∨ IsClose eps eps x.1 1)) ∧
        ((0 < x.2 ∨ IsClose eps eps x.2 0) ∧ (x.2 < 1 ∨ IsClose eps eps x.2 1)) then
        .ok (.points [a + x.1 • (b - a)]) else .ok .none := by
  unfold lineLineIntersection
  simp [pointsLineIntersection, withMask, h1, h2, Out.ofOption, Out.isNotNone]

/-- The first end point is on the second segment, the other one is not. -/
theorem lineLine_first {tol : Tol} {lstsq : Pt ℝ → Pt ℝ → Pt ℝ → ℝ × ℝ} {a b c d x : Pt ℝ}
    {eps : ℝ} (h1 : pointLineIntersection tol.collapse a c d tol.pointLine = some x)
    (h2 : pointLineIntersection tol.collapse b c d tol.pointLine = none) :
    lineLineIntersection tol lstsq a b c d eps =
      if Close (1 / 10 ^ 5) (1 / 10 ^ 8) x a then .ok (.points [x])
      else .error .assertionError := by
  have e : pointsLineIntersection tol.collapse [a, b] c d tol.pointLine = ([.array x], [true, false]) := by
    unfold pointsLineIntersection
    simp only [List.map_cons, List.map_nil, h1, h2]
    rfl
  have e2 : ([.array x] : List (Out (Pt ℝ))).filterMap Out.toOption = [x] := rfl
  unfold lineLineIntersection
  simp only [e, e2]
  simp [maskFilter]

theorem lineLine_second {tol : Tol} {lstsq : Pt ℝ → Pt ℝ → Pt ℝ → ℝ × ℝ} {a b c d x : Pt ℝ}
    {eps : ℝ} (h1 : pointLineIntersection tol.collapse a c d tol.pointLine = none)
    (h2 : pointLineIntersection tol.collapse b c d tol.pointLine = some x) :
    lineLineIntersection tol lstsq a b c d eps =
      if Close (1 / 10 ^ 5) (1 / 10 ^ 8) x b then .ok (.points [x])
      else .error .assertionError := by
  have e : pointsLineIntersection tol.collapse [a, b] c d tol.pointLine = ([.array x], [false, true]) := by
    unfold pointsLineIntersection
    simp only [List.map_cons, List.map_nil, h1, h2]
    rfl
  have e2 : ([.array x] : List (Out (Pt ℝ))).filterMap Out.toOption = [x] := rfl
  unfold lineLineIntersection
  simp only [e, e2]
  simp [maskFilter]

theorem lineLine_both {tol : Tol} {lstsq : Pt ℝ → Pt ℝ → Pt ℝ → ℝ × ℝ} {a b c d x y : Pt ℝ}
    {eps : ℝ} (h1 : pointLineIntersection tol.collapse a c d tol.pointLine = some x)
    (h2 : pointLineIntersection tol.collapse b c d tol.pointLine = some y) :
    lineLineIntersection tol lstsq a b c d eps = .ok (.both [x, y] [true, true]) := by
  have e : pointsLineIntersection tol.collapse [a, b] c d tol.pointLine = ([.array x, .array y], [true, true]) := by
    unfold pointsLineIntersection
    simp only [List.map_cons, List.map_nil, h1, h2]
    rfl
  have e2 : ([.array x, .array y] : List (Out (Pt ℝ))).filterMap Out.toOption = [x, y] := rfl
  unfold lineLineIntersection
  simp only [e, e2]
  simp

/-- The parameters of a common point of lines that are not parallel are unique. -/
theorem params_unique {d1 d2 : Pt ℝ} (h : NotParallel d1 d2) {t s t' s' : ℝ}
    (he : t • d1 - s • d2 = t' • d1 - s' • d2) : t = t' ∧ s = s' := by
  have h0 : (t - t') • d1 = (s - s') • d2 := by
    rw [sub_smul, sub_smul]
    have := sub_eq_sub_iff_add_eq_add.1 he
    rw [sub_eq_sub_iff_add_eq_add]
    rw [this]; abel
  constructor
  · by_contra hn
    refine h ?_
    have hne : t - t' ≠ 0 := sub_ne_zero.2 hn
    have : d1 = ((t - t')⁻¹ * (s - s')) • d2 := by
      rw [mul_smul, ← h0, smul_smul, inv_mul_cancel₀ hne, one_smul]
    rw [this]
    refine pt_ext ?_ ?_ ?_ <;> simp <;> ring
  · by_contra hn
    refine h ?_
    have hne : s - s' ≠ 0 := sub_ne_zero.2 hn
    have : d2 = ((s - s')⁻¹ * (t - t')) • d1 := by
      rw [mul_smul, h0, smul_smul, inv_mul_cancel₀ hne, one_smul]
    rw [this]
    refine pt_ext ?_ ?_ ?_ <;> simp <;> ring

theorem residual_eq_zero {d1 d2 r : Pt ℝ} {x : ℝ × ℝ} :
    residual d1 d2 r x = 0 ↔ x.1 • d1 - x.2 • d2 = r := by
  unfold residual
  rw [dot_self_eq_zero, sub_eq_zero]

/-- If the lines meet, the least squares solution gives the parameters of the common point. -/
theorem lstsq_solves {f : Pt ℝ → Pt ℝ → Pt ℝ → ℝ × ℝ} (hf : IsLstsq f) {d1 d2 r : Pt ℝ} {t s : ℝ}
    (h : t • d1 - s • d2 = r) : (f d1 d2 r).1 • d1 - (f d1 d2 r).2 • d2 = r := by
  rw [← residual_eq_zero]
  refine le_antisymm ?_ (dot_self_nonneg _)
  rw [← (residual_eq_zero (x := (t, s))).2 h]
  exact hf.residual d1 d2 r (t, s)

/-- Two segments that are not parallel have at most one common point. -/
theorem common_unique {a b c d x y : Pt ℝ} (h : NotParallel (b - a) (d - c))
    (h1 : x ∈ segment ℝ a b) (h2 : x ∈ segment ℝ c d) (h3 : y ∈ segment ℝ a b)
    (h4 : y ∈ segment ℝ c d) : x = y := by
  obtain ⟨t, -, -, ht⟩ := mem_segment_iff.1 h1
  obtain ⟨s, -, -, hs⟩ := mem_segment_iff.1 h2
  obtain ⟨t', -, -, ht'⟩ := mem_segment_iff.1 h3
  obtain ⟨s', -, -, hs'⟩ := mem_segment_iff.1 h4
  have e : t • (b - a) - s • (d - c) = t' • (b - a) - s' • (d - c) := by
    have h5 : a + t • (b - a) = c + s • (d - c) := by rw [← ht, ← hs]
    have h6 : a + t' • (b - a) = c + s' • (d - c) := by rw [← ht', ← hs']
    have h7 : t • (b - a) - s • (d - c) = c - a := by
      rw [sub_eq_sub_iff_add_eq_add, add_comm, h5]
    have h8 : t' • (b - a) - s' • (d - c) = c - a := by
      rw [sub_eq_sub_iff_add_eq_add, add_comm, h6]
    rw [h7, h8]
  rw [ht, ht', (params_unique h e).1]

/-- Least squares solutions of least norm exist: `IsLstsq` can be satisfied. -/
theorem exists_lstsq : ∃ f, IsLstsq f := by
  have key : ∀ d1 d2 r : Pt ℝ, ∃ y : ℝ × ℝ, (∀ x, residual d1 d2 r y ≤ residual d1 d2 r x) ∧
      ∀ x, residual d1 d2 r x = residual d1 d2 r y → y.1 ^ 2 + y.2 ^ 2 ≤ x.1 ^ 2 + x.2 ^ 2 := by
    intro d1 d2 r
    -- at a solution of the normal equations the residual splits
    have split : ∀ y : ℝ × ℝ, dot (y.1 • d1 - y.2 • d2 - r) d1 = 0 →
        dot (y.1 • d1 - y.2 • d2 - r) d2 = 0 → ∀ x : ℝ × ℝ,
        residual d1 d2 r x = residual d1 d2 r y +
          dot ((x.1 - y.1) • d1 - (x.2 - y.2) • d2) ((x.1 - y.1) • d1 - (x.2 - y.2) • d2) := by
      intro y h1 h2 x
      simp only [residual, dot, Pi.sub_apply, Pi.smul_apply, smul_eq_mul] at *
      linear_combination 2 * (x.1 - y.1) * h1 - 2 * (x.2 - y.2) * h2
    -- the parallel case
    have par : ∀ (w : Pt ℝ) (α β : ℝ), d1 = α • w → d2 = β • w → w ≠ 0 → α ^ 2 + β ^ 2 ≠ 0 →
        ∃ y : ℝ × ℝ, (∀ x, residual d1 d2 r y ≤ residual d1 d2 r x) ∧
          ∀ x, residual d1 d2 r x = residual d1 d2 r y →
            y.1 ^ 2 + y.2 ^ 2 ≤ x.1 ^ 2 + x.2 ^ 2 := by
      intro w α β h1 h2 hw hq
      have hw' : dot w w ≠ 0 := fun h => hw (dot_self_eq_zero.1 h)
      set k := dot r w / dot w w with hk
      have hkw : k * dot w w = dot r w := by rw [hk]; field_simp
      set y : ℝ × ℝ := (k * α / (α ^ 2 + β ^ 2), -(k * β) / (α ^ 2 + β ^ 2)) with hy
      have hyk : y.1 * α - y.2 * β = k := by
        rw [hy]; field_simp; ring
      have g : dot (y.1 • d1 - y.2 • d2 - r) w = 0 := by
        rw [h1, h2]
        simp only [dot, Pi.sub_apply, Pi.smul_apply, smul_eq_mul] at *
        linear_combination (w 0 * w 0 + w 1 * w 1 + w 2 * w 2) * hyk + hkw
      have g1 : dot (y.1 • d1 - y.2 • d2 - r) d1 = 0 := by
        rw [h1] at *
        simp only [dot, Pi.sub_apply, Pi.smul_apply, smul_eq_mul] at *
        linear_combination α * g
      have g2 : dot (y.1 • d1 - y.2 • d2 - r) d2 = 0 := by
        rw [h2] at *
        simp only [dot, Pi.sub_apply, Pi.smul_apply, smul_eq_mul] at *
        linear_combination β * g
      refine ⟨y, fun x => ?_, fun x hx => ?_⟩
      · rw [split y g1 g2 x]
        linarith [dot_self_nonneg ((x.1 - y.1) • d1 - (x.2 - y.2) • d2)]
      · rw [split y g1 g2 x] at hx
        have h0 : dot ((x.1 - y.1) • d1 - (x.2 - y.2) • d2)
            ((x.1 - y.1) • d1 - (x.2 - y.2) • d2) = 0 := by linarith
        have h0 : ((x.1 - y.1) * α - (x.2 - y.2) * β) ^ 2 * dot w w = 0 := by
          rw [h1, h2] at h0
          simp only [dot, Pi.sub_apply, Pi.smul_apply, smul_eq_mul] at h0 ⊢
          linear_combination h0
        have h0 : (x.1 - y.1) * α - (x.2 - y.2) * β = 0 := by
          simpa [hw'] using h0
        have hxk : x.1 * α - x.2 * β = k := by linarith
        have e1 : y.1 * (α ^ 2 + β ^ 2) = k * α := by rw [hy]; field_simp
        have e2 : y.2 * (α ^ 2 + β ^ 2) = -(k * β) := by rw [hy]; field_simp
        have hpos : 0 < α ^ 2 + β ^ 2 := lt_of_le_of_ne (by positivity) (Ne.symm hq)
        have e3 : (y.1 ^ 2 + y.2 ^ 2) * (α ^ 2 + β ^ 2) = k ^ 2 := by
          linear_combination y.1 * e1 + y.2 * e2 + k * hyk
        have e4 : k ^ 2 ≤ (x.1 ^ 2 + x.2 ^ 2) * (α ^ 2 + β ^ 2) := by
          rw [← hxk]; nlinarith [sq_nonneg (x.1 * β + x.2 * α)]
        rw [← e3] at e4
        exact le_of_mul_le_mul_right e4 hpos
    by_cases hc : cross d1 d2 = 0
    · by_cases h2 : d2 = 0
      · by_cases h1 : d1 = 0
        · refine ⟨(0, 0), fun x => ?_, fun x _ => ?_⟩
          · simp [residual, h1, h2]
          · simp only; nlinarith [sq_nonneg x.1, sq_nonneg x.2]
        · exact par d1 1 0 (by simp) (by simp [h2]) h1 (by norm_num)
      · obtain ⟨s, hs⟩ := eq_smul_of_cross hc h2
        exact par d2 s 1 hs (by simp) h2 (by positivity)
    · set D := dot d1 d1 * dot d2 d2 - dot d1 d2 ^ 2 with hD
      have hDc : D = dot (cross d1 d2) (cross d1 d2) := by
        simp only [hD, dot, cross_0, cross_1, cross_2]; ring
      have hD0 : D ≠ 0 := fun h => hc (dot_self_eq_zero.1 (hDc ▸ h))
      set y : ℝ × ℝ := ((dot r d1 * dot d2 d2 - dot r d2 * dot d1 d2) / D,
        (dot r d1 * dot d1 d2 - dot r d2 * dot d1 d1) / D) with hy
      have e1 : y.1 * D = dot r d1 * dot d2 d2 - dot r d2 * dot d1 d2 := by rw [hy]; field_simp
      have e2 : y.2 * D = dot r d1 * dot d1 d2 - dot r d2 * dot d1 d1 := by rw [hy]; field_simp
      have l1 : dot (y.1 • d1 - y.2 • d2 - r) d1 =
          y.1 * dot d1 d1 - y.2 * dot d1 d2 - dot r d1 := by
        simp only [dot, Pi.sub_apply, Pi.smul_apply, smul_eq_mul]; ring
      have l2 : dot (y.1 • d1 - y.2 • d2 - r) d2 =
          y.1 * dot d1 d2 - y.2 * dot d2 d2 - dot r d2 := by
        simp only [dot, Pi.sub_apply, Pi.smul_apply, smul_eq_mul]; ring
      have g1 : dot (y.1 • d1 - y.2 • d2 - r) d1 = 0 := by
        rw [l1]
        refine mul_left_cancel₀ hD0 ?_
        rw [mul_zero]
        linear_combination dot d1 d1 * e1 - dot d1 d2 * e2 - dot r d1 * hD
      have g2 : dot (y.1 • d1 - y.2 • d2 - r) d2 = 0 := by
        rw [l2]
        refine mul_left_cancel₀ hD0 ?_
        rw [mul_zero]
        linear_combination dot d1 d2 * e1 - dot d2 d2 * e2 - dot r d2 * hD
      refine ⟨y, fun x => ?_, fun x hx => ?_⟩
      · rw [split y g1 g2 x]
        linarith [dot_self_nonneg ((x.1 - y.1) • d1 - (x.2 - y.2) • d2)]
      · rw [split y g1 g2 x] at hx
        have h0 : dot ((x.1 - y.1) • d1 - (x.2 - y.2) • d2)
            ((x.1 - y.1) • d1 - (x.2 - y.2) • d2) = 0 := by linarith
        have h0 := dot_self_eq_zero.1 h0
        have := params_unique hc (t := x.1 - y.1) (s := x.2 - y.2) (t' := 0) (s' := 0)
          (by rw [h0]; simp)
        have h1 : x.1 = y.1 := by linarith [this.1]
        have h2 : x.2 = y.2 := by linarith [this.2]
        rw [h1, h2]
  choose f hf using key
  exact ⟨f, ⟨fun d1 d2 r x => (hf d1 d2 r).1 x, fun d1 d2 r x => (hf d1 d2 r).2 x⟩⟩

end Verif.Geometry
