/-
Lemmas for C50, C51 and C60.
-/
import Verif.Lemmas.Vec
import Verif.Lemmas.Trace

namespace Verif.Geometry
open MeshBuild MeshGraph Trace MeshMetrics
open scoped Classical

/-- The collinearity test measures the distance to the line through `a` and `b`. -/
theorem incidence_of_mem {p a b : Pt ℝ} (h : p ∈ segment ℝ a b) {eps : ℝ} (he : 0 ≤ eps) :
    PointLineIncidence a b p eps := by
  obtain ⟨t, -, -, rfl⟩ := mem_segment_iff.1 h
  unfold PointLineIncidence colinearMeasurement
  have : cross (a + t • (b - a) - b) (a - b) = 0 := by
    refine pt_ext ?_ ?_ ?_ <;>
      simp only [cross_0, cross_1, cross_2, Pi.add_apply, Pi.sub_apply, Pi.smul_apply,
        smul_eq_mul, Pi.zero_apply] <;> ring
  rw [this, norm3_zero, mul_zero]
  exact isClose_self he he

theorem closer_of_mem {p a b : Pt ℝ} (h : p ∈ segment ℝ a b) :
    norm3 (p - a) ≤ norm3 (b - a) ∧ norm3 (p - b) ≤ norm3 (a - b) := by
  obtain ⟨t, h0, h1, rfl⟩ := mem_segment_iff.1 h
  have e1 : a + t • (b - a) - a = t • (b - a) := by
    funext k; simp
  have e2 : a + t • (b - a) - b = (1 - t) • (a - b) := by
    funext k; simp; ring
  rw [e1, e2, norm3_smul, norm3_smul, abs_of_nonneg h0, abs_of_nonneg (by linarith)]
  have n1 := norm3_nonneg (b - a)
  have n2 := norm3_nonneg (a - b)
  constructor <;> nlinarith

/-- A collinear point in both spheres is on the segment. -/
theorem mem_of_closer {p a b : Pt ℝ} (hc : cross (p - b) (a - b) = 0)
    (h1 : norm3 (p - a) ≤ norm3 (b - a)) (h2 : norm3 (p - b) ≤ norm3 (a - b)) :
    p ∈ segment ℝ a b := by
  by_cases hab : a - b = 0
  · have hab' : a = b := sub_eq_zero.1 hab
    subst hab'
    rw [sub_self, norm3_zero] at h1
    have : p - a = 0 := norm3_eq_zero.1 (le_antisymm h1 (norm3_nonneg _))
    rw [sub_eq_zero] at this
    subst this
    exact left_mem_segment ℝ p p
  · obtain ⟨s, hs⟩ := eq_smul_of_cross hc hab
    have hpos : 0 < norm3 (a - b) :=
      lt_of_le_of_ne (norm3_nonneg _) (fun h => hab (norm3_eq_zero.1 h.symm))
    have e1 : p - a = (1 - s) • (b - a) := by
      have : p = b + s • (a - b) := by rw [← hs]; abel
      rw [this]; funext k; simp; ring
    rw [e1, norm3_smul, norm3_sub_comm b a] at h1
    rw [hs, norm3_smul] at h2
    have s1 : |1 - s| ≤ 1 := by
      by_contra h; push Not at h; nlinarith
    have s2 : |s| ≤ 1 := by
      by_contra h; push Not at h; nlinarith
    rw [abs_le] at s1 s2
    rw [mem_segment_iff]
    exact ⟨1 - s, by linarith, by linarith, by rw [← e1]; abel⟩

/-- Points of the segment are accepted, whatever the tolerances. -/
theorem pointLine_complete {p a b : Pt ℝ} (h : p ∈ segment ℝ a b) {ctol eps : ℝ} (he : 0 ≤ eps) :
    ∃ x, pointLineIntersection ctol p a b eps = some x ∧ (x = p ∨ Close ctol ctol x p) := by
  unfold pointLineIntersection
  split
  · rename_i hc; exact ⟨a, rfl, Or.inr hc⟩
  · split
    · rename_i hc; exact ⟨b, rfl, Or.inr hc⟩
    · rw [if_pos (incidence_of_mem h he)]
      obtain ⟨h1, h2⟩ := closer_of_mem h
      have key : ∀ {x y : ℝ}, x ≤ y → (y > x ∨ IsClose eps eps y x) := by
        intro x y hxy
        rcases lt_or_eq_of_le hxy with h | h
        · exact Or.inl h
        · subst h; exact Or.inr (isClose_self he he)
      simp only [key h1, key h2, and_self, if_true]
      exact ⟨p, rfl, Or.inl rfl⟩

/-- What is returned is the point itself or close to it. -/
theorem pointLine_close {p a b x : Pt ℝ} {ctol eps : ℝ}
    (h : pointLineIntersection ctol p a b eps = some x) : x = p ∨ Close ctol ctol x p := by
  unfold pointLineIntersection at h
  split at h
  · rename_i hc; cases h; exact Or.inr hc
  · split at h
    · rename_i hc; cases h; exact Or.inr hc
    · split at h
      · dsimp only at h
        split at h
        · cases h; exact Or.inl rfl
        · exact absurd h (by simp)
      · exact absurd h (by simp)

/-- Points off the segment are rejected for small tolerances. -/
theorem pointLine_sound {p a b : Pt ℝ} (h : p ∉ segment ℝ a b) :
    ∃ δ > 0, ∀ ctol < δ, ∀ eps < δ, pointLineIntersection ctol p a b eps = none := by
  have ha : a ≠ p := by rintro rfl; exact h (left_mem_segment ℝ _ _)
  have hb : b ≠ p := by rintro rfl; exact h (right_mem_segment ℝ _ _)
  obtain ⟨δa, ha0, hac⟩ := not_close_of_ne ha
  obtain ⟨δb, hb0, hbc⟩ := not_close_of_ne hb
  by_cases hcr : cross (p - b) (a - b) = 0
  · -- collinear: outside one of the spheres
    have hout : norm3 (b - a) < norm3 (p - a) ∨ norm3 (a - b) < norm3 (p - b) := by
      by_contra hn
      push Not at hn
      exact h (mem_of_closer hcr hn.1 hn.2)
    have fails : ∀ {x y : ℝ}, y < x → ∃ δ > 0, ∀ e < δ, ¬ (y > x ∨ IsClose e e y x) := by
      intro x y hxy
      obtain ⟨δ, h0, hc⟩ := not_isClose_of_ne (ne_of_lt hxy)
      exact ⟨δ, h0, fun e he hor => hor.elim (fun h => absurd h (by simp; linarith)) (hc e he)⟩
    rcases hout with hout | hout
    · obtain ⟨δ, h0, hc⟩ := fails hout
      refine ⟨min δ (min δa δb), by simp [h0, ha0, hb0], fun ctol hct eps hep => ?_⟩
      simp only [lt_min_iff] at hct hep
      unfold pointLineIntersection
      rw [if_neg (hac _ hct.2.1), if_neg (hbc _ hct.2.2)]
      simp only [hc eps hep.1, false_and, if_false, ite_self]
    · obtain ⟨δ, h0, hc⟩ := fails hout
      refine ⟨min δ (min δa δb), by simp [h0, ha0, hb0], fun ctol hct eps hep => ?_⟩
      simp only [lt_min_iff] at hct hep
      unfold pointLineIntersection
      rw [if_neg (hac _ hct.2.1), if_neg (hbc _ hct.2.2)]
      simp only [hc eps hep.1, and_false, if_false, ite_self]
  · have hm : colinearMeasurement b p a ≠ 0 := by
      unfold colinearMeasurement
      intro h0
      rcases mul_eq_zero.1 h0 with h0 | h0
      · norm_num at h0
      · exact hcr (norm3_eq_zero.1 h0)
    obtain ⟨δ, h0, hc⟩ := not_isClose_of_ne hm
    refine ⟨min δ (min δa δb), by simp [h0, ha0, hb0], fun ctol hct eps hep => ?_⟩
    simp only [lt_min_iff] at hct hep
    have hinc : ¬ PointLineIncidence a b p eps := hc eps hep.1
    unfold pointLineIntersection
    rw [if_neg (hac _ hct.2.1), if_neg (hbc _ hct.2.2), if_neg hinc]

/-- With the tolerances 0 the test is exact. -/
theorem pointLine_exact {p a b x : Pt ℝ} :
    pointLineIntersection 0 p a b 0 = some x ↔ x = p ∧ p ∈ segment ℝ a b := by
  constructor
  · intro h
    by_cases hm : p ∈ segment ℝ a b
    · refine ⟨?_, hm⟩
      rcases pointLine_close h with h | h
      · exact h
      · exact close_zero.1 h
    · obtain ⟨δ, h0, hc⟩ := pointLine_sound hm
      rw [hc 0 h0 0 h0] at h
      exact absurd h (by simp)
  · rintro ⟨rfl, hm⟩
    obtain ⟨y, hy, h⟩ := pointLine_complete hm (ctol := 0) (eps := 0) (le_refl 0)
    rw [hy]
    rcases h with h | h
    · rw [h]
    · rw [close_zero.1 h]

/-! ### Masks -/

theorem withMask_matches {α : Type} {l : List (Out α)}
    (h : ∀ o ∈ l, o.isNotNone = o.isArray) : MatchesMask l (withMask l) := by
  unfold MatchesMask withMask maskFilter
  refine ⟨by simp, ?_, ?_⟩
  · induction l with
    | nil => rfl
    | cons o l ih =>
      have ho := h o (by simp)
      have ih := ih (fun o ho => h o (by simp [ho]))
      simp only [List.map_cons, List.zip_cons_cons, List.filter_cons, ho]
      cases o.isArray <;> simp_all
  · induction l with
    | nil => rfl
    | cons o l ih =>
      have ho := h o (by simp)
      have ih := ih (fun o ho => h o (by simp [ho]))
      simp only [List.map_cons, List.filter_cons, ho] at ih ⊢
      cases o.isArray <;> simp_all

theorem isNotNone_ofOption {α : Type} (x : Option α) :
    (Out.ofOption x).isNotNone = (Out.ofOption x).isArray := by
  cases x <;> rfl

/-! ### Triangles -/

/-- The volume in terms of the normal. -/
theorem coplanarMeasurement_eq (p a b c : Pt ℝ) :
    coplanarMeasurement p a b c = -dot (p - a) (cross (b - a) (c - a)) / 6 := by
  unfold coplanarMeasurement
  congr 1
  rw [Matrix.det_succ_row_zero]
  simp [Fin.sum_univ_succ, Matrix.det_fin_three, Fin.succAbove, dot, Matrix.submatrix]
  ring

/-- Barycentric coordinates of a point. -/
theorem barycentric (u v w : Pt ℝ) :
    (dot u u * dot v v - dot u v * dot u v) • w =
      (dot v v * dot w u - dot u v * dot w v) • u + (dot u u * dot w v - dot u v * dot w u) • v +
        dot w (cross u v) • cross u v := by
  refine pt_ext ?_ ?_ ?_ <;>
    simp only [dot, cross_0, cross_1, cross_2, Pi.add_apply, Pi.smul_apply, smul_eq_mul] <;> ring

theorem inTriangle_ab {p a b c : Pt ℝ} (h : p ∈ segment ℝ a b) : InTriangle p a b c := by
  obtain ⟨t, h0, h1, rfl⟩ := mem_segment_iff.1 h
  exact ⟨t, 0, h0, le_refl _, by linarith, by simp⟩

theorem inTriangle_rotate {p a b c : Pt ℝ} (h : InTriangle p b c a) : InTriangle p a b c := by
  obtain ⟨u, v, hu, hv, huv, rfl⟩ := h
  refine ⟨1 - u - v, u, by linarith, hu, by linarith, ?_⟩
  funext k
  simp only [Pi.add_apply, Pi.smul_apply, Pi.sub_apply, smul_eq_mul]
  ring

theorem inTriangle_bc {p a b c : Pt ℝ} (h : p ∈ segment ℝ b c) : InTriangle p a b c :=
  inTriangle_rotate (inTriangle_ab h)

theorem inTriangle_ca {p a b c : Pt ℝ} (h : p ∈ segment ℝ c a) : InTriangle p a b c :=
  inTriangle_rotate (inTriangle_rotate (inTriangle_ab h))

/-- A degenerate triangle is the union of its sides. -/
theorem degenerate {p a b c : Pt ℝ} (h : InTriangle p a b c) (hn : ¬ NotParallel (b - a) (c - a)) :
    p ∈ segment ℝ a b ∨ p ∈ segment ℝ c a := by
  simp only [NotParallel, ne_eq, not_not] at hn
  obtain ⟨u, v, hu, hv, huv, hp⟩ := h
  by_cases hba : b - a = 0
  · right
    rw [mem_segment_iff]
    refine ⟨1 - v, by linarith, by linarith, ?_⟩
    rw [hp, hba]
    funext k; simp; ring
  · have hn' : cross (c - a) (b - a) = 0 := by
      have h0 := congrFun hn 0
      have h1 := congrFun hn 1
      have h2 := congrFun hn 2
      simp only [cross_0, cross_1, cross_2, Pi.zero_apply] at h0 h1 h2
      refine pt_ext ?_ ?_ ?_ <;> simp only [cross_0, cross_1, cross_2, Pi.zero_apply] <;> linarith
    obtain ⟨s, hs⟩ := eq_smul_of_cross hn' hba
    have hp' : p = a + (u + v * s) • (b - a) := by
      rw [hp, hs, smul_smul, add_assoc, ← add_smul]
    have hc : c = a + s • (b - a) := by rw [← hs]; abel
    have left : 0 ≤ u + v * s → u + v * s ≤ 1 → p ∈ segment ℝ a b := fun h0 h1 =>
      mem_segment_iff.2 ⟨_, h0, h1, hp'⟩
    have right : s ≠ 0 → 0 ≤ (u + v * s) / s → (u + v * s) / s ≤ 1 → p ∈ segment ℝ c a := by
      intro hs0 h0 h1
      refine mem_segment_iff.2 ⟨1 - (u + v * s) / s, by linarith, by linarith, ?_⟩
      rw [hp', hc]
      funext k
      simp only [Pi.add_apply, Pi.smul_apply, Pi.sub_apply, smul_eq_mul]
      field_simp
      ring
    rcases lt_trichotomy s 0 with hs0 | hs0 | hs0
    · by_cases hw : 0 ≤ u + v * s
      · exact Or.inl (left hw (by nlinarith))
      · push Not at hw
        refine Or.inr (right hs0.ne (div_nonneg_of_nonpos hw.le hs0.le) ?_)
        rw [div_le_one_of_neg hs0]
        nlinarith
    · subst hs0
      exact Or.inl (left (by linarith) (by linarith))
    · by_cases hs1 : s ≤ 1
      · exact Or.inl (left (by positivity) (by nlinarith))
      · push Not at hs1
        refine Or.inr (right hs0.ne' (by positivity) ?_)
        rw [div_le_one hs0]
        nlinarith

/-- Points of a triangle are accepted, whatever the tolerances. -/
theorem pointTriangle_complete {p a b c : Pt ℝ} (h : InTriangle p a b c) {ctol eps : ℝ}
    (he : 0 ≤ eps) : (pointTriangleIntersection ctol p a b c eps).isSome := by
  have hside := fun hn => degenerate (c := c) h hn
  unfold pointTriangleIntersection
  split
  · rfl
  split
  · rfl
  split
  · rfl
  obtain ⟨u, v, hu, hv, huv, hp⟩ := h
  have hcop : dot (p - a) (cross (b - a) (c - a)) = 0 := by
    rw [hp]
    simp only [dot, cross_0, cross_1, cross_2, Pi.add_apply, Pi.sub_apply, Pi.smul_apply,
      smul_eq_mul]
    ring
  have hinc : PointTriangleIncidence p a b c eps := by
    unfold PointTriangleIncidence
    rw [coplanarMeasurement_eq, hcop, neg_zero, zero_div]
    exact isClose_self he he
  rw [if_neg (not_not.2 hinc)]
  split
  · rfl
  rename_i hab
  split
  · rfl
  split
  · rfl
  rename_i hca
  have hden : dot (b - a) (b - a) * dot (c - a) (c - a) - dot (b - a) (c - a) * dot (b - a) (c - a)
      ≠ 0 := by
    rw [← dot_cross_self]
    intro h
    have hn : ¬ NotParallel (b - a) (c - a) := not_not.2 (dot_self_eq_zero.1 h)
    rcases hside hn with hm | hm
    · obtain ⟨x, hx, -⟩ := pointLine_complete hm (ctol := ctol) he
      rw [hab] at hx
      exact absurd hx (by simp)
    · obtain ⟨x, hx, -⟩ := pointLine_complete hm (ctol := ctol) he
      rw [hca] at hx
      exact absurd hx (by simp)
  have hpa : p - a = u • (b - a) + v • (c - a) := by rw [hp]; abel
  have e1 : dot (c - a) (c - a) * dot (p - a) (b - a) - dot (b - a) (c - a) * dot (p - a) (c - a) =
      u * (dot (b - a) (b - a) * dot (c - a) (c - a) -
        dot (b - a) (c - a) * dot (b - a) (c - a)) := by
    rw [hpa]; simp only [dot, Pi.add_apply, Pi.smul_apply, smul_eq_mul]; ring
  have e2 : dot (b - a) (b - a) * dot (p - a) (c - a) - dot (b - a) (c - a) * dot (p - a) (b - a) =
      v * (dot (b - a) (b - a) * dot (c - a) (c - a) -
        dot (b - a) (c - a) * dot (b - a) (c - a)) := by
    rw [hpa]; simp only [dot, Pi.add_apply, Pi.smul_apply, smul_eq_mul]; ring
  simp only [e1, e2, mul_div_assoc, div_self hden, mul_one]
  rw [if_pos ⟨hden, hu, hv, huv⟩]
  rfl

/-- Points outside a triangle are rejected for small tolerances. -/
theorem pointTriangle_sound {p a b c : Pt ℝ} (h : ¬ InTriangle p a b c) :
    ∃ δ > 0, ∀ ctol < δ, ∀ eps < δ, pointTriangleIntersection ctol p a b c eps = none := by
  obtain ⟨δ1, h1, k1⟩ := pointLine_sound (fun hm => h (inTriangle_ab hm))
  obtain ⟨δ2, h2, k2⟩ := pointLine_sound (fun hm => h (inTriangle_bc hm))
  obtain ⟨δ3, h3, k3⟩ := pointLine_sound (fun hm => h (inTriangle_ca hm))
  have ha : a ≠ p := by rintro rfl; exact h (inTriangle_ab (left_mem_segment ℝ _ _))
  have hb : b ≠ p := by rintro rfl; exact h (inTriangle_ab (right_mem_segment ℝ _ _))
  have hc : c ≠ p := by rintro rfl; exact h (inTriangle_bc (right_mem_segment ℝ _ _))
  obtain ⟨δa, ha0, hac⟩ := not_close_of_ne ha
  obtain ⟨δb, hb0, hbc⟩ := not_close_of_ne hb
  obtain ⟨δc, hc0, hcc⟩ := not_close_of_ne hc
  by_cases hm : coplanarMeasurement p a b c = 0
  · refine ⟨min (min δ1 (min δ2 δ3)) (min δa (min δb δc)), by simp [*], fun ctol hct eps hep => ?_⟩
    simp only [lt_min_iff] at hct hep
    unfold pointTriangleIntersection
    rw [if_neg (hac _ hct.2.1), if_neg (hbc _ hct.2.2.1), if_neg (hcc _ hct.2.2.2)]
    split
    · rfl
    rw [k1 _ hct.1.1 _ hep.1.1, k2 _ hct.1.2.1 _ hep.1.2.1, k3 _ hct.1.2.2 _ hep.1.2.2]
    dsimp only
    rw [if_neg]
    rintro ⟨hden, hu, hv, huv⟩
    refine h ⟨_, _, hu, hv, huv, ?_⟩
    rw [coplanarMeasurement_eq] at hm
    have hcop : dot (p - a) (cross (b - a) (c - a)) = 0 := by linarith
    have hb := barycentric (b - a) (c - a) (p - a)
    rw [hcop, zero_smul, add_zero] at hb
    have : p - a = (((dot (b - a) (b - a) * dot (c - a) (c - a) -
        dot (b - a) (c - a) * dot (b - a) (c - a)))⁻¹) •
        ((dot (b - a) (b - a) * dot (c - a) (c - a) -
          dot (b - a) (c - a) * dot (b - a) (c - a)) • (p - a)) := by
      rw [smul_smul, inv_mul_cancel₀ hden, one_smul]
    rw [hb, smul_add, smul_smul, smul_smul] at this
    rw [div_eq_inv_mul, div_eq_inv_mul, add_assoc, ← this]
    abel
  · obtain ⟨δ, h0, hcl⟩ := not_isClose_of_ne hm
    refine ⟨min δ (min δa (min δb δc)), by simp [*], fun ctol hct eps hep => ?_⟩
    simp only [lt_min_iff] at hct hep
    have hinc : ¬ PointTriangleIncidence p a b c eps := hcl eps hep.1
    unfold pointTriangleIntersection
    rw [if_neg (hac _ hct.2.1), if_neg (hbc _ hct.2.2.1), if_neg (hcc _ hct.2.2.2), if_pos hinc]

/-- What is returned is the point itself or close to it. -/
theorem pointTriangle_close {p a b c x : Pt ℝ} {ctol eps : ℝ}
    (h : pointTriangleIntersection ctol p a b c eps = some x) : x = p ∨ Close ctol ctol x p := by
  unfold pointTriangleIntersection at h
  split at h
  · rename_i hc; cases h; exact Or.inr hc
  split at h
  · rename_i hc; cases h; exact Or.inr hc
  split at h
  · rename_i hc; cases h; exact Or.inr hc
  split at h
  · exact absurd h (by simp)
  split at h
  · rename_i hx; cases h; exact pointLine_close hx
  split at h
  · rename_i hx; cases h; exact pointLine_close hx
  split at h
  · rename_i hx; cases h; exact pointLine_close hx
  dsimp only at h
  split at h
  · cases h; exact Or.inl rfl
  · exact absurd h (by simp)

/-! ### Polygons -/

theorem mapRes_pure {α β : Type} {f : α → Res β} {g : α → β} {l : List α}
    (h : ∀ a ∈ l, f a = .ok (g a)) : mapRes f l = .ok (l.map g) := by
  rw [mapRes_iff]
  induction l with
  | nil => exact .nil
  | cons a l ih => exact .cons (h a (by simp)) (ih fun b hb => h b (by simp [hb]))

theorem triangulate_eq {points : List (Pt ℝ)} (h : 3 ≤ points.length) :
    triangulateConvexPolygon points = .ok ((sides points).map fun s =>
      ((fun k => (points.map (· k)).sum / points.length : Pt ℝ), s.1, s.2)) := by
  unfold triangulateConvexPolygon
  rw [if_neg (by omega)]
  dsimp only
  have hget : ∀ {i : Nat}, i < points.length → getIdx points i = .ok (points.getD i 0) := by
    intro i hi
    rw [getIdx_eq_ok, List.getD_eq_getElem?_getD, List.getElem?_eq_getElem hi, Option.getD_some]
  rw [mapRes_pure (g := fun i => ((fun k => (points.map (· k)).sum / points.length : Pt ℝ),
    points.getD i 0, points.getD (i + 1) 0))]
  · simp only [Res.bind_ok, hget (show points.length - 1 < points.length by omega),
      hget (show 0 < points.length by omega), Res.pure_eq, Except.ok.injEq]
    refine List.ext_getElem (by simp [sides]; omega) ?_
    intro i h1 h2
    simp only [sides, List.getElem_map, List.getElem_zip, List.getElem_rotate]
    have hi : i < points.length := by
      simp only [List.length_append, List.length_map, List.length_range, List.length_singleton]
        at h1
      omega
    have gd : ∀ {j : Nat} (hj : j < points.length), points.getD j 0 = points[j] := by
      intro j hj
      rw [List.getD_eq_getElem?_getD, List.getElem?_eq_getElem hj, Option.getD_some]
    by_cases hl : i < points.length - 1
    · rw [List.getElem_append_left (by simpa using hl)]
      simp only [List.getElem_map, List.getElem_range]
      rw [gd hi, gd (show i + 1 < points.length by omega)]
      simp only [Nat.mod_eq_of_lt (show i + 1 < points.length by omega)]
    · have hil : i = points.length - 1 := by omega
      rw [List.getElem_append_right (by simp; omega)]
      simp only [List.getElem_singleton]
      rw [gd (show points.length - 1 < points.length by omega),
        gd (show 0 < points.length by omega)]
      have : (i + 1) % points.length = 0 := by
        rw [hil, Nat.sub_add_cancel (by omega), Nat.mod_self]
      simp only [this]
      simp only [hil]
  · intro i hi
    have hi := List.mem_range.1 hi
    simp only [hget (show i < points.length by omega), hget (show i + 1 < points.length by omega),
      Res.bind_ok, Res.pure_eq]

theorem sum_sub_cross (x : Pt ℝ) (l : List (Pt ℝ × Pt ℝ)) :
    (l.map fun s => cross (s.1 - x) (s.2 - x)).sum =
      (l.map fun s => cross s.1 s.2).sum - ((l.map Prod.snd).map fun v => cross x v).sum +
        ((l.map Prod.fst).map fun v => cross x v).sum := by
  induction l with
  | nil => simp
  | cons s l ih =>
    simp only [List.map_cons, List.sum_cons, ih]
    have : cross (s.1 - x) (s.2 - x) = cross s.1 s.2 - cross x s.2 + cross x s.1 := by
      refine pt_ext ?_ ?_ ?_ <;> simp <;> ring
    rw [this]
    abel

theorem area_sum (x : Pt ℝ) (points : List (Pt ℝ)) :
    ((sides points).map fun s => cross (s.1 - x) (s.2 - x)).sum =
      ((sides points).map fun s => cross s.1 s.2).sum := by
  rw [sum_sub_cross]
  have h1 : (sides points).map Prod.fst = points := List.map_fst_zip (by simp)
  have h2 : (sides points).map Prod.snd = points.rotate 1 := List.map_snd_zip (by simp)
  rw [h1, h2, (((List.rotate_perm points 1).map fun v => cross x v)).sum_eq]
  abel

end Verif.Geometry
