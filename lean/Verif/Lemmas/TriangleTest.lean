/-
Lemmas on the tests of Model/TriangleTest.lean.
-/
import Verif.Lemmas.PointGeometry

namespace Verif.Geometry
open Trace MeshMetrics
open scoped Classical

/-- Points of a plane with the same projection are equal. -/
theorem keeps_inj {pos : Fin 3 × Fin 3} {n : Pt ℝ} (h : Keeps pos n) {x y : Pt ℝ}
    (hp : dot n x = dot n y) (h1 : x pos.1 = y pos.1) (h2 : x pos.2 = y pos.2) : x = y := by
  obtain ⟨hne, hk⟩ := h
  obtain ⟨i, j⟩ := pos
  simp only [dot] at *
  have cancel : ∀ k, n k * x k = n k * y k → n k ≠ 0 → x k = y k := fun k h h0 =>
    mul_left_cancel₀ h0 h
  fin_cases i <;> fin_cases j <;> simp at hne h1 h2
  · have h3 : x 2 = y 2 := cancel 2 (by rw [h1, h2] at hp; linarith) (hk 2 (by simp) (by simp))
    exact pt_ext h1 h2 h3
  · have h3 : x 1 = y 1 := cancel 1 (by rw [h1, h2] at hp; linarith) (hk 1 (by simp) (by simp))
    exact pt_ext h1 h3 h2
  · have h3 : x 2 = y 2 := cancel 2 (by rw [h1, h2] at hp; linarith) (hk 2 (by simp) (by simp))
    exact pt_ext h2 h1 h3
  · have h3 : x 0 = y 0 := cancel 0 (by rw [h1, h2] at hp; linarith) (hk 0 (by simp) (by simp))
    exact pt_ext h3 h1 h2
  · have h3 : x 1 = y 1 := cancel 1 (by rw [h1, h2] at hp; linarith) (hk 1 (by simp) (by simp))
    exact pt_ext h2 h3 h1
  · have h3 : x 0 = y 0 := cancel 0 (by rw [h1, h2] at hp; linarith) (hk 0 (by simp) (by simp))
    exact pt_ext h3 h2 h1

theorem dot_line {n a b : Pt ℝ} {h : ℝ} (ha : dot n a = h) (hb : dot n b = h) (t : ℝ) :
    dot n (a + t • (b - a)) = h := by
  simp only [dot, Pi.add_apply, Pi.smul_apply, Pi.sub_apply, smul_eq_mul] at *
  linear_combination (1 - t) * ha + t * hb

/-- The test for lines that are not parallel. -/
theorem lineLineTest_cross {eps : ℝ} {pos : Fin 3 × Fin 3} {a b p q : Pt ℝ}
    (hd : ¬ |det2 (proj pos a - proj pos b) (proj pos p - proj pos q)| < eps) :
    lineLineTest eps pos a b p q =
      if (0 ≤ det2 (proj pos a - proj pos p) (proj pos p - proj pos q) /
          det2 (proj pos a - proj pos b) (proj pos p - proj pos q) ∧
        det2 (proj pos a - proj pos p) (proj pos p - proj pos q) /
          det2 (proj pos a - proj pos b) (proj pos p - proj pos q) ≤ 1) ∧
        (0 ≤ det2 (proj pos a - proj pos p) (proj pos a - proj pos b) /
          det2 (proj pos a - proj pos b) (proj pos p - proj pos q) ∧
        det2 (proj pos a - proj pos p) (proj pos a - proj pos b) /
          det2 (proj pos a - proj pos b) (proj pos p - proj pos q) ≤ 1) then
        some (a + (det2 (proj pos a - proj pos p) (proj pos p - proj pos q) /
          det2 (proj pos a - proj pos b) (proj pos p - proj pos q)) • (b - a), none) else none := by
  unfold lineLineTest
  rw [if_neg hd]

/-- Common points of the lines have the parameters computed by Cramer's rule. -/
theorem params_cramer {pos : Fin 3 × Fin 3} {a b p q : Pt ℝ} {t s : ℝ}
    (hd : det2 (proj pos a - proj pos b) (proj pos p - proj pos q) ≠ 0) :
    ((a + t • (b - a)) pos.1 = (p + s • (q - p)) pos.1 ∧
      (a + t • (b - a)) pos.2 = (p + s • (q - p)) pos.2) ↔
    (t = det2 (proj pos a - proj pos p) (proj pos p - proj pos q) /
      det2 (proj pos a - proj pos b) (proj pos p - proj pos q) ∧
    s = det2 (proj pos a - proj pos p) (proj pos a - proj pos b) /
      det2 (proj pos a - proj pos b) (proj pos p - proj pos q)) := by
  rw [eq_div_iff hd, eq_div_iff hd]
  simp only [det2, proj, Prod.fst_sub, Prod.snd_sub, Pi.add_apply, Pi.smul_apply, Pi.sub_apply,
    smul_eq_mul] at *
  generalize a pos.1 = a1, a pos.2 = a2, b pos.1 = b1, b pos.2 = b2, p pos.1 = p1,
    p pos.2 = p2, q pos.1 = q1, q pos.2 = q2 at *
  constructor
  · rintro ⟨h1, h2⟩
    constructor
    · linear_combination (-(p2 - q2)) * h1 + (p1 - q1) * h2
    · linear_combination (-(a2 - b2)) * h1 + (a1 - b1) * h2
  · rintro ⟨h1, h2⟩
    constructor
    · refine mul_left_cancel₀ hd ?_
      linear_combination (-(a1 - b1)) * h1 + (p1 - q1) * h2
    · refine mul_left_cancel₀ hd ?_
      linear_combination (-(a2 - b2)) * h1 + (p2 - q2) * h2

end Verif.Geometry
