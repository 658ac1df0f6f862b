/-
Lemmas on the part of a triangle in a plane.
-/
import Verif.Lemmas.TriangleSegment

namespace Verif.Geometry
open Trace MeshMetrics
open scoped Classical

/-- The volume, up to a factor -/
theorem coplanarTest_eq (a b c p : Pt ℝ) :
    coplanarTest a b c p = -dot (p - a) (cross (b - a) (c - a)) / 6 := by
  unfold coplanarTest
  congr 1
  rw [Matrix.det_succ_row_zero]
  simp [Fin.sum_univ_succ, Matrix.det_fin_three, Fin.succAbove, dot, cross, Matrix.submatrix]
  ring

theorem dot_affine (w a x y : Pt ℝ) (t : ℝ) :
    dot (x + t • (y - x) - a) w = (1 - t) * dot (x - a) w + t * dot (y - a) w := by
  simp only [dot, Pi.add_apply, Pi.smul_apply, Pi.sub_apply, smul_eq_mul]
  ring

/-- The part of a triangle in a plane that separates `m` from `k` and `l` -/
theorem triangle_plane {w a k m l u v : Pt ℝ} (hk : dot (k - a) w * dot (m - a) w < 0)
    (hl : dot (l - a) w * dot (m - a) w < 0)
    (hu : u ∈ segment ℝ k m) (hu0 : dot (u - a) w = 0) (hv : v ∈ segment ℝ m l) (hv0 : dot (v - a) w = 0) :
    {x | InTriangle x k m l ∧ dot (x - a) w = 0} = segment ℝ u v := by
  obtain ⟨s, s0, s1, rfl⟩ := mem_segment_iff.1 hu
  obtain ⟨t, t0, t1, rfl⟩ := mem_segment_iff.1 hv
  rw [dot_affine] at hu0 hv0
  generalize hK : dot (k - a) w = K at *
  generalize hM : dot (m - a) w = M at *
  generalize hL : dot (l - a) w = L at *
  have hM0 : M ≠ 0 := by rintro rfl; simp at hk
  have hsK : K - M ≠ 0 := by
    intro h0
    have : K = M := by linarith
    rw [this] at hk
    nlinarith [mul_self_nonneg M]
  have hsL : L - M ≠ 0 := by
    intro h0
    have : L = M := by linarith
    rw [this] at hl
    nlinarith [mul_self_nonneg M]
  have es : s = K / (K - M) := by rw [eq_div_iff hsK]; linarith
  have et : t = -M / (L - M) := by rw [eq_div_iff hsL]; linarith
  ext x
  rw [Set.mem_ofPred_eq, mem_segment_iff]
  constructor
  · rintro ⟨⟨β, γ, hβ, hγ, hsum, rfl⟩, h0⟩
    have h0' : (1 - β - γ) * K + β * M + γ * L = 0 := by
      rw [← h0, ← hK, ← hM, ← hL]
      simp only [dot, Pi.add_apply, Pi.smul_apply, Pi.sub_apply, smul_eq_mul]
      ring
    have q1 : 0 ≤ (L - M) / (-M) := by
      rw [show (L - M) / (-M) = 1 + -(L * M) / (M * M) by field_simp; ring]
      have : 0 ≤ -(L * M) / (M * M) := div_nonneg (by linarith) (mul_self_nonneg M)
      linarith
    have q2 : 0 ≤ (K - M) / (-M) := by
      rw [show (K - M) / (-M) = 1 + -(K * M) / (M * M) by field_simp; ring]
      have : 0 ≤ -(K * M) / (M * M) := div_nonneg (by linarith) (mul_self_nonneg M)
      linarith
    have hγ1 : γ * ((L - M) / (-M)) = 1 - (1 - β - γ) * ((K - M) / (-M)) := by
      rw [← sub_eq_zero]
      have : γ * ((L - M) / (-M)) - (1 - (1 - β - γ) * ((K - M) / (-M))) = -((1 - β - γ) * K + β * M + γ * L) / M := by
        field_simp
        ring
      rw [this, h0']
      simp
    refine ⟨γ * ((L - M) / (-M)), mul_nonneg hγ q1, ?_, ?_⟩
    · rw [hγ1]
      have := mul_nonneg (show 0 ≤ 1 - β - γ by linarith) q2
      linarith
    · have hβ' : β = -((1 - β - γ) * K + γ * L) / M := by rw [eq_div_iff hM0]; linarith
      -- coefficients of k, m and l
      have c1 : (1 - γ * ((L - M) / (-M))) * (1 - s) = 1 - β - γ := by
        rw [hγ1, es]
        field_simp
        ring
      have c3 : γ * ((L - M) / (-M)) * t = γ := by
        rw [et]
        field_simp
      have e : ∀ w : ℝ, k + s • (m - k) + w • (m + t • (l - m) - (k + s • (m - k))) =
          ((1 - w) * (1 - s)) • k + (1 - (1 - w) * (1 - s) - w * t) • m + (w * t) • l := by
        intro w
        module
      rw [e, c1, c3]
      module
  · rintro ⟨z, z0, z1, rfl⟩
    refine ⟨⟨(1 - z) * s + z * (1 - t), z * t, ?_, mul_nonneg z0 t0, ?_, ?_⟩, ?_⟩
    · exact add_nonneg (mul_nonneg (by linarith) s0) (mul_nonneg z0 (by linarith))
    · have : (1 - z) * s + z * (1 - t) + z * t = 1 - (1 - z) * (1 - s) := by ring
      rw [this]
      have := mul_nonneg (sub_nonneg.2 z1) (sub_nonneg.2 s1)
      linarith
    · module
    · rw [dot_affine, dot_affine, dot_affine, hK, hM, hL, hu0, hv0]
      ring

/-- A line through points on different sides meets the plane between them. -/
theorem linePlane_segment {a b c x y : Pt ℝ}
    (h : dot (x - a) (cross (b - a) (c - a)) * dot (y - a) (cross (b - a) (c - a)) < 0) :
    ∃ u, linePlaneIntersection (a, b, c) x y = some u ∧ u ∈ segment ℝ x y ∧
      dot (u - a) (cross (b - a) (c - a)) = 0 := by
  set w := cross (b - a) (c - a) with hw
  have hd : dot (y - x) w = dot (y - a) w - dot (x - a) w := by
    simp only [dot, Pi.sub_apply]; ring
  have hne : dot (y - x) w ≠ 0 := by
    rw [hd]
    intro h0
    have : dot (y - a) w = dot (x - a) w := by linarith
    rw [this] at h
    nlinarith [mul_self_nonneg (dot (x - a) w)]
  cases hu : linePlaneIntersection (a, b, c) x y with
  | none => exact absurd ((C63_line_plane a b c x y).1.1 hu) hne
  | some u =>
    obtain ⟨h0, ⟨t, rfl⟩, -⟩ := (C63_line_plane a b c x y).2 u hu
    refine ⟨_, rfl, mem_segment_iff.2 ⟨t, ?_, ?_, rfl⟩, h0⟩
    all_goals
      rw [dot_affine] at h0
      generalize dot (x - a) (cross (b - a) (c - a)) = X at *
      generalize dot (y - a) (cross (b - a) (c - a)) = Y at *
    · by_contra ht
      push Not at ht
      have : (1 - t) * (X * X) + t * (X * Y) = 0 := by linear_combination X * h0
      have h1 := mul_pos_of_neg_of_neg ht h
      have := mul_nonneg (show 0 ≤ 1 - t by linarith) (mul_self_nonneg X)
      linarith
    · by_contra ht
      push Not at ht
      have : (1 - t) * (X * Y) + t * (Y * Y) = 0 := by linear_combination Y * h0
      have h1 := mul_pos_of_neg_of_neg (show 1 - t < 0 by linarith) h
      have := mul_nonneg (show 0 ≤ t by linarith) (mul_self_nonneg Y)
      linarith

/-! ### The coordinates kept -/

theorem keptAxes_keeps {v : Pt ℝ} (hv : v ≠ 0) : Keeps (keptAxes v) v := by
  have h0 : ∀ k : Fin 3, (∀ j, |v j| ≤ |v k|) → v k ≠ 0 := by
    intro k hk h0
    refine hv (funext fun j => ?_)
    have := hk j
    rw [h0, abs_zero] at this
    exact abs_nonpos_iff.1 this
  unfold keptAxes
  split_ifs with h1 h2
  · refine ⟨by decide, fun k hk1 hk2 => ?_⟩
    have : k = 0 := by revert k; decide
    subst this
    exact h0 0 fun j => by fin_cases j <;> simp [h1.1, h1.2]
  · refine ⟨by decide, fun k hk1 hk2 => ?_⟩
    have : k = 1 := by revert k; decide
    subst this
    refine h0 1 fun j => ?_
    fin_cases j
    · show |v 0| ≤ |v 1|
      by_contra hc
      push Not at hc
      exact h1 ⟨hc.le, h2.trans hc.le⟩
    · exact le_rfl
    · exact h2
  · refine ⟨by decide, fun k hk1 hk2 => ?_⟩
    have : k = 2 := by revert k; decide
    subst this
    push Not at h2
    refine h0 2 fun j => ?_
    fin_cases j
    · show |v 0| ≤ |v 2|
      by_contra hc
      push Not at hc
      exact h1 ⟨(h2.trans hc).le, hc.le⟩
    · exact h2.le
    · exact le_rfl

theorem keptAxes_cases (v : Pt ℝ) : keptAxes v = (1, 2) ∨ keptAxes v = (0, 2) ∨ keptAxes v = (0, 1) := by
  unfold keptAxes
  split_ifs <;> simp

/-- Of vectors in the plane of `w` the projection keeps whether they are parallel. -/
theorem det2_ne {v w x y : Pt ℝ} (hk : Keeps (keptAxes v) w) (hx : dot w x = 0) (hy : dot w y = 0)
    (hc : cross x y ≠ 0) : det2 (proj (keptAxes v) x) (proj (keptAxes v) y) ≠ 0 := by
  intro h0
  apply hc
  have e0 : cross x y 0 = x 1 * y 2 - x 2 * y 1 := rfl
  have e1 : cross x y 1 = x 2 * y 0 - x 0 * y 2 := rfl
  have e2 : cross x y 2 = x 0 * y 1 - x 1 * y 0 := rfl
  have f01 : w 0 * cross x y 1 = w 1 * cross x y 0 := by
    rw [e0, e1]; simp only [dot] at hx hy; linear_combination y 2 * (-1 : ℝ) * hx + x 2 * hy
  have f02 : w 0 * cross x y 2 = w 2 * cross x y 0 := by
    rw [e0, e2]; simp only [dot] at hx hy; linear_combination y 1 * hx - x 1 * hy
  have f12 : w 1 * cross x y 2 = w 2 * cross x y 1 := by
    rw [e1, e2]; simp only [dot] at hx hy; linear_combination (-1 : ℝ) * y 0 * hx + x 0 * hy
  have zero : ∀ {k j : ℝ} {c d : ℝ}, k ≠ 0 → k * c = j * d → d = 0 → c = 0 := by
    intro k j c d hk h1 h2
    rw [h2, mul_zero] at h1
    exact (mul_eq_zero.1 h1).resolve_left hk
  rcases keptAxes_cases v with h | h | h <;> rw [h] at hk h0 <;> simp only [det2, proj] at h0
  · have hw : w 0 ≠ 0 := hk.2 0 (by decide) (by decide)
    have z : cross x y 0 = 0 := by rw [e0]; linarith
    exact pt_ext z (zero hw f01 z) (zero hw f02 z)
  · have hw : w 1 ≠ 0 := hk.2 1 (by decide) (by decide)
    have z : cross x y 1 = 0 := by rw [e1]; linarith
    exact pt_ext (zero hw f01.symm z) z (zero hw f12 z)
  · have hw : w 2 ≠ 0 := hk.2 2 (by decide) (by decide)
    have z : cross x y 2 = 0 := by rw [e2]; linarith
    exact pt_ext (zero hw f02.symm z) (zero hw f12.symm z) z

theorem signOf_ne {x y : ℝ} (hx : x ≠ 0) (hy : y ≠ 0) (h : signOf x ≠ signOf y) : x * y < 0 := by
  unfold signOf at h
  split_ifs at h with h1 h2 h2
  · exact absurd rfl h
  · exact mul_neg_of_neg_of_pos h1 (lt_of_le_of_ne (not_lt.1 h2) hy.symm)
  · exact mul_neg_of_pos_of_neg (lt_of_le_of_ne (not_lt.1 h1) hx.symm) h2
  · exact absurd rfl h

theorem signOf_eq {x y : ℝ} (hx : x ≠ 0) (hy : y ≠ 0) (h : signOf x = signOf y) : 0 < x * y := by
  unfold signOf at h
  split_ifs at h with h1 h2 h2
  · exact mul_pos_of_neg_of_neg h1 h2
  · exact mul_pos (lt_of_le_of_ne (not_lt.1 h1) hx.symm) (lt_of_le_of_ne (not_lt.1 h2) hy.symm)

theorem signOf_cases (x : ℝ) : signOf x = -1 ∨ signOf x = 1 := by
  unfold signOf
  split_ifs <;> simp

end Verif.Geometry
