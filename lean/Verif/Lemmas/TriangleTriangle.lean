/-
Lemmas on a segment and a triangle: the barycentric coordinates along a segment are affine functions of
the parameter.
-/
import Verif.Model.TriangleTriangle
import Verif.Lemmas.TriangleTest
import Mathlib.Data.Finset.Max
import Mathlib.Tactic.LinearCombination

namespace Verif.Geometry
open Trace MeshMetrics
open scoped Classical

/-! ### Affine functions on an interval -/

/-- An affine function with its values at 0 and 1 -/
def aff (x y t : ℝ) : ℝ := x + t * (y - x)

section
variable (f0 f1 : Fin 3 → ℝ)

/-- The parameters where all functions are nonnegative -/
def Inside (t : ℝ) : Prop := ∀ i, 0 ≤ aff (f0 i) (f1 i) t

variable {f0 f1}

theorem Inside.between {s t u : ℝ} (hs : Inside f0 f1 s) (hu : Inside f0 f1 u) (h1 : s ≤ t) (h2 : t ≤ u) :
    Inside f0 f1 t := by
  intro i
  have a := hs i
  have b := hu i
  unfold aff at *
  rcases (h1.trans h2).eq_or_lt with h | h
  · have : t = s := le_antisymm (h2.trans h.ge) h1
    rw [this]; exact a
  · have : (u - s) * (f0 i + t * (f1 i - f0 i)) =
        (u - t) * (f0 i + s * (f1 i - f0 i)) + (t - s) * (f0 i + u * (f1 i - f0 i)) := by ring
    have h3 : 0 ≤ (u - s) * (f0 i + t * (f1 i - f0 i)) := by
      rw [this]
      exact add_nonneg (mul_nonneg (by linarith) a) (mul_nonneg (by linarith) b)
    exact nonneg_of_mul_nonneg_right h3 (by linarith)

/-- Going on from a parameter inside to one outside, the first function to vanish -/
theorem exists_exit {z : ℝ} (hz : Inside f0 f1 z) (hz1 : z ≤ 1) (ho : ¬ Inside f0 f1 1) :
    ∃ i t, z ≤ t ∧ t ≤ 1 ∧ aff (f0 i) (f1 i) t = 0 ∧ Inside f0 f1 t ∧ f1 i < 0 := by
  have hF : ∀ i, aff (f0 i) (f1 i) 1 = f1 i := fun i => by unfold aff; ring
  obtain ⟨j, hj⟩ : ∃ j, f1 j < 0 := by
    unfold Inside at ho
    push Not at ho
    obtain ⟨j, hj⟩ := ho
    exact ⟨j, by rw [← hF]; exact hj⟩
  have hlt : ∀ i, f1 i < 0 → z < 1 := fun i hi => by
    refine lt_of_le_of_ne hz1 fun h => ?_
    have := hz i
    rw [h, hF] at this
    linarith
  have hpos : ∀ i, f1 i < 0 → 0 < f0 i - f1 i := fun i hi => by
    have h1 := hz i
    have h2 := hlt i hi
    unfold aff at h1
    have : 0 < (1 - z) * (f0 i - f1 i) := by
      have : (1 - z) * (f0 i - f1 i) = (f0 i + z * (f1 i - f0 i)) - f1 i := by ring
      rw [this]; linarith
    exact pos_of_mul_pos_right this (by linarith)
  let S := Finset.univ.filter fun i => f1 i < 0
  obtain ⟨i, hi, hmin⟩ := S.exists_min_image (fun i => f0 i / (f0 i - f1 i)) ⟨j, by simp [S, hj]⟩
  have hi' : f1 i < 0 := by simpa [S] using hi
  have hd := hpos i hi'
  refine ⟨i, f0 i / (f0 i - f1 i), ?_, ?_, ?_, ?_, hi'⟩
  · rw [le_div_iff₀ hd]
    have := hz i
    unfold aff at this
    linarith
  · rw [div_le_one hd]; linarith
  · unfold aff; field_simp; ring
  · intro k
    by_cases hk : f1 k < 0
    · have h1 := hmin k (by simp [S, hk])
      have hd' := hpos k hk
      rw [div_le_div_iff₀ hd hd'] at h1
      unfold aff
      have : f0 k + f0 i / (f0 i - f1 i) * (f1 k - f0 k) =
          (f0 k * (f0 i - f1 i) - f0 i * (f0 k - f1 k)) / (f0 i - f1 i) := by field_simp; ring
      rw [this]
      exact div_nonneg (by linarith) hd.le
    · have h1 : Inside (fun _ => f0 k) (fun _ => f1 k) z := fun _ => hz k
      have h2 : Inside (fun _ => f0 k) (fun _ => f1 k) 1 := fun _ => by
        unfold aff; push Not at hk; linarith
      refine h1.between h2 ?_ ?_ 0
      · rw [le_div_iff₀ hd]
        have := hz i
        unfold aff at this
        linarith
      · rw [div_le_one hd]; linarith

theorem aff_swap (x y t : ℝ) : aff y x (1 - t) = aff x y t := by unfold aff; ring

theorem inside_swap {t : ℝ} : Inside f1 f0 (1 - t) ↔ Inside f0 f1 t := by
  unfold Inside; simp only [aff_swap]

/-- The same backwards -/
theorem exists_entry {z : ℝ} (hz : Inside f0 f1 z) (hz0 : 0 ≤ z) (ho : ¬ Inside f0 f1 0) :
    ∃ i t, 0 ≤ t ∧ t ≤ z ∧ aff (f0 i) (f1 i) t = 0 ∧ Inside f0 f1 t ∧ f0 i < 0 := by
  obtain ⟨i, t, h1, h2, h3, h4, h5⟩ := exists_exit (f0 := f1) (f1 := f0) (z := 1 - z) (inside_swap.2 hz)
    (by linarith) (fun h => ho (by rw [← inside_swap]; simpa using h))
  refine ⟨i, 1 - t, by linarith, by linarith, ?_, ?_, h5⟩
  · rw [← aff_swap]; simpa using h3
  · rw [← inside_swap]; simpa using h4

/-- From inside, whichever function vanishes bounds the parameters inside. -/
theorem inside_iff_le (h0 : ∀ i, 0 < f0 i) {i : Fin 3} {t : ℝ} (ht0 : 0 ≤ t)
    (hz : aff (f0 i) (f1 i) t = 0) (ht : Inside f0 f1 t) {s : ℝ} (hs0 : 0 ≤ s) :
    Inside f0 f1 s ↔ s ≤ t := by
  constructor
  · intro hs
    by_contra hlt
    push Not at hlt
    have h1 := hs i
    have h2 := h0 i
    unfold aff at *
    have ht1 : 0 < t := lt_of_le_of_ne ht0 fun h => by rw [← h] at hz; linarith
    have : t * (f0 i + s * (f1 i - f0 i)) = (t - s) * f0 i := by linear_combination s * hz
    have h3 : t * (f0 i + s * (f1 i - f0 i)) < 0 := by
      rw [this]; exact mul_neg_of_neg_of_pos (by linarith) h2
    exact absurd (mul_nonneg ht0 h1) (by linarith)
  · intro hle
    refine Inside.between (s := 0) ?_ ht hs0 hle
    intro k
    have := h0 k
    unfold aff
    linarith

/-- Two functions that vanish in different parameters inside bound the parameters inside. -/
theorem inside_iff_between {i j : Fin 3} {t u : ℝ} (hi : aff (f0 i) (f1 i) t = 0)
    (hj : aff (f0 j) (f1 j) u = 0) (ht : Inside f0 f1 t) (hu : Inside f0 f1 u)
    (hi' : aff (f0 i) (f1 i) u ≠ 0) (hj' : aff (f0 j) (f1 j) t ≠ 0) {s : ℝ} :
    Inside f0 f1 s ↔ min t u ≤ s ∧ s ≤ max t u := by
  constructor
  · intro hs
    have a := hs i
    have b := hs j
    have hu' := lt_of_le_of_ne (hu i) hi'.symm
    have ht' := lt_of_le_of_ne (ht j) hj'.symm
    unfold aff at *
    have e1 : (u - t) * (f0 i + s * (f1 i - f0 i)) = (s - t) * (f0 i + u * (f1 i - f0 i)) := by
      linear_combination (u - s) * hi
    have e2 : (t - u) * (f0 j + s * (f1 j - f0 j)) = (s - u) * (f0 j + t * (f1 j - f0 j)) := by
      linear_combination (t - s) * hj
    rcases lt_trichotomy t u with h | h | h
    · rw [min_eq_left h.le, max_eq_right h.le]
      constructor
      · by_contra hc
        push Not at hc
        have := mul_nonneg (sub_pos.2 h).le a
        rw [e1] at this
        linarith [mul_neg_of_neg_of_pos (sub_neg.2 hc) hu']
      · by_contra hc
        push Not at hc
        have := mul_nonpos_of_nonpos_of_nonneg (sub_neg.2 h).le b
        rw [e2] at this
        linarith [mul_pos (sub_pos.2 hc) ht']
    · rw [h] at hi; exact absurd hi hi'
    · rw [min_eq_right h.le, max_eq_left h.le]
      constructor
      · by_contra hc
        push Not at hc
        have := mul_nonneg (sub_pos.2 h).le b
        rw [e2] at this
        linarith [mul_neg_of_neg_of_pos (sub_neg.2 hc) ht']
      · by_contra hc
        push Not at hc
        have := mul_nonpos_of_nonpos_of_nonneg (sub_neg.2 h).le a
        rw [e1] at this
        linarith [mul_pos (sub_pos.2 hc) hu']
  · rintro ⟨h1, h2⟩
    rcases le_total t u with h | h
    · rw [min_eq_left h] at h1
      rw [max_eq_right h] at h2
      exact ht.between hu h1 h2
    · rw [min_eq_right h] at h1
      rw [max_eq_left h] at h2
      exact hu.between ht h1 h2

/-- Entering and leaving are through different sides. -/
theorem exists_two {z : ℝ} (hz : Inside f0 f1 z) (hz0 : 0 ≤ z) (hz1 : z ≤ 1) (ho0 : ¬ Inside f0 f1 0)
    (ho1 : ¬ Inside f0 f1 1) :
    ∃ i j t u, i ≠ j ∧ 0 ≤ t ∧ t ≤ z ∧ z ≤ u ∧ u ≤ 1 ∧ aff (f0 i) (f1 i) t = 0 ∧ aff (f0 j) (f1 j) u = 0 ∧
      Inside f0 f1 t ∧ Inside f0 f1 u := by
  obtain ⟨i, t, h1, h2, h3, h4, h5⟩ := exists_entry hz hz0 ho0
  obtain ⟨j, u, g1, g2, g3, g4, g5⟩ := exists_exit hz hz1 ho1
  refine ⟨i, j, t, u, fun h => ?_, h1, h2, g1, g2, h3, g3, h4, g4⟩
  subst h
  have := hz i
  unfold aff at this
  have : z * f1 i + (1 - z) * f0 i < 0 := by
    rcases hz0.eq_or_lt with h | h
    · rw [← h]; linarith
    · have := mul_neg_of_pos_of_neg h g5
      have := mul_nonpos_of_nonneg_of_nonpos (sub_nonneg.2 hz1) h5.le
      linarith
  linarith

/-- Not all three sides are crossed, unless in a corner. -/
theorem not_three (hv : ∀ t, 0 ≤ t → t ≤ 1 → Inside f0 f1 t → ∀ i j, i ≠ j → aff (f0 i) (f1 i) t = 0 →
      aff (f0 j) (f1 j) t ≠ 0) (t : Fin 3 → ℝ) (h0 : ∀ i, 0 ≤ t i) (h1 : ∀ i, t i ≤ 1)
    (hz : ∀ i, aff (f0 i) (f1 i) (t i) = 0) (hi : ∀ i, Inside f0 f1 (t i)) : False := by
  have hne : ∀ i j, i ≠ j → t i ≠ t j := fun i j hij h =>
    hv (t i) (h0 i) (h1 i) (hi i) i j hij (hz i) (by rw [h]; exact hz j)
  have hbet : ∀ i j, i ≠ j → ∀ k, min (t i) (t j) ≤ t k ∧ t k ≤ max (t i) (t j) := fun i j hij k =>
    (inside_iff_between (hz i) (hz j) (hi i) (hi j)
      (hv (t j) (h0 j) (h1 j) (hi j) j i hij.symm (hz j))
      (hv (t i) (h0 i) (h1 i) (hi i) i j hij (hz i))).1 (hi k)
  have a := hbet 0 1 (by decide) 2
  have b := hbet 1 2 (by decide) 0
  have c := hbet 2 0 (by decide) 1
  have n1 := hne 0 1 (by decide)
  have n2 := hne 1 2 (by decide)
  have n3 := hne 2 0 (by decide)
  rcases lt_or_gt_of_ne n1 with x | x <;> rcases lt_or_gt_of_ne n2 with y | y <;>
    rcases lt_or_gt_of_ne n3 with w | w <;>
    simp only [min_eq_left x.le, min_eq_right x.le, max_eq_left x.le, max_eq_right x.le,
      min_eq_left y.le, min_eq_right y.le, max_eq_left y.le, max_eq_right y.le,
      min_eq_left w.le, min_eq_right w.le, max_eq_left w.le, max_eq_right w.le] at a b c <;> linarith

end

/-! ### Coordinates in a triangle -/

/-- The coordinates of a point of the plane of a triangle, from the projection -/
noncomputable def bary (pos : Fin 3 × Fin 3) (a b c x : Pt ℝ) (i : Fin 3) : ℝ :=
  ![det2 (proj pos (b - x)) (proj pos (c - x)), det2 (proj pos (c - x)) (proj pos (a - x)),
    det2 (proj pos (a - x)) (proj pos (b - x))] i / det2 (proj pos (b - a)) (proj pos (c - a))

theorem bary_aff (pos : Fin 3 × Fin 3) (a b c p q : Pt ℝ) (t : ℝ) (i : Fin 3) :
    bary pos a b c (p + t • (q - p)) i = aff (bary pos a b c p i) (bary pos a b c q i) t := by
  unfold bary aff
  rw [← sub_div, ← mul_div_assoc, ← add_div]
  congr 1
  fin_cases i <;>
    · simp only [Fin.zero_eta, Fin.mk_one, Fin.reduceFinMk, Matrix.cons_val, det2, proj, Pi.add_apply, Pi.smul_apply, Pi.sub_apply, smul_eq_mul]
      ring

theorem bary_eq {pos : Fin 3 × Fin 3} {a b c : Pt ℝ} (hD : det2 (proj pos (b - a)) (proj pos (c - a)) ≠ 0)
    (u v : ℝ) (i : Fin 3) : bary pos a b c (a + u • (b - a) + v • (c - a)) i = ![1 - u - v, u, v] i := by
  unfold bary
  rw [div_eq_iff hD]
  fin_cases i <;>
    · simp only [Fin.zero_eta, Fin.mk_one, Fin.reduceFinMk, Matrix.cons_val, det2, proj, Pi.add_apply, Pi.smul_apply, Pi.sub_apply, smul_eq_mul]
      ring

/-- The point with given coordinates -/
theorem eq_of_bary {pos : Fin 3 × Fin 3} {n : Pt ℝ} (hn : Keeps pos n) {h : ℝ} {a b c x : Pt ℝ}
    (ha : dot n a = h) (hb : dot n b = h) (hc : dot n c = h) (hx : dot n x = h)
    (hD : det2 (proj pos (b - a)) (proj pos (c - a)) ≠ 0) :
    x = a + bary pos a b c x 1 • (b - a) + bary pos a b c x 2 • (c - a) := by
  refine keeps_inj hn ?_ ?_ ?_
  · simp only [dot, Pi.add_apply, Pi.smul_apply, Pi.sub_apply, smul_eq_mul] at *
    linear_combination hx - (1 - bary pos a b c x 1 - bary pos a b c x 2) * ha - bary pos a b c x 1 * hb -
      bary pos a b c x 2 * hc
  all_goals
    unfold bary
    simp only [Matrix.cons_val, Pi.add_apply, Pi.smul_apply, Pi.sub_apply, smul_eq_mul]
    refine mul_left_cancel₀ hD ?_
    rw [mul_add, mul_add, ← mul_assoc, ← mul_assoc, mul_div_cancel₀ _ hD, mul_div_cancel₀ _ hD]
    simp only [det2, proj, Pi.sub_apply]
    ring

theorem bary_sum {pos : Fin 3 × Fin 3} {a b c : Pt ℝ}
    (hD : det2 (proj pos (b - a)) (proj pos (c - a)) ≠ 0) (x : Pt ℝ) :
    bary pos a b c x 0 = 1 - bary pos a b c x 1 - bary pos a b c x 2 := by
  unfold bary
  rw [div_eq_iff hD, sub_mul, sub_mul, div_mul_cancel₀ _ hD, div_mul_cancel₀ _ hD]
  simp only [Matrix.cons_val, det2, proj, Pi.sub_apply]
  ring

section
variable {pos : Fin 3 × Fin 3} {n : Pt ℝ} (hn : Keeps pos n) {h : ℝ} {a b c x : Pt ℝ}
  (ha : dot n a = h) (hb : dot n b = h) (hc : dot n c = h) (hx : dot n x = h)
  (hD : det2 (proj pos (b - a)) (proj pos (c - a)) ≠ 0)
include hn ha hb hc hx hD

theorem inTriangle_iff : InTriangle x a b c ↔ ∀ i, 0 ≤ bary pos a b c x i := by
  constructor
  · rintro ⟨u, v, hu, hv, huv, rfl⟩ i
    rw [bary_eq hD]
    fin_cases i
    · simp; linarith
    · simpa using hu
    · simpa using hv
  · intro hi
    have h0 := hi 0
    rw [bary_sum hD] at h0
    exact ⟨_, _, hi 1, hi 2, by linarith, eq_of_bary hn ha hb hc hx hD⟩

theorem mem_ab : x ∈ segment ℝ a b ↔ bary pos a b c x 2 = 0 ∧ ∀ i, 0 ≤ bary pos a b c x i := by
  rw [mem_segment_iff]
  constructor
  · rintro ⟨t, t0, t1, rfl⟩
    have : a + t • (b - a) = a + t • (b - a) + (0 : ℝ) • (c - a) := by simp
    rw [this]
    refine ⟨by rw [bary_eq hD]; rfl, fun i => ?_⟩
    rw [bary_eq hD]
    fin_cases i
    · simp; linarith
    · simpa using t0
    · simp
  · rintro ⟨h2, hi⟩
    have h0 := hi 0
    rw [bary_sum hD] at h0
    refine ⟨_, hi 1, by linarith, ?_⟩
    have := eq_of_bary hn ha hb hc hx hD
    rw [h2] at this
    rw [zero_smul, add_zero] at this
    exact this

theorem mem_ca : x ∈ segment ℝ c a ↔ bary pos a b c x 1 = 0 ∧ ∀ i, 0 ≤ bary pos a b c x i := by
  rw [segment_symm, mem_segment_iff]
  constructor
  · rintro ⟨t, t0, t1, rfl⟩
    have : a + t • (c - a) = a + (0 : ℝ) • (b - a) + t • (c - a) := by simp
    rw [this]
    refine ⟨by rw [bary_eq hD]; rfl, fun i => ?_⟩
    rw [bary_eq hD]
    fin_cases i
    · simp; linarith
    · simp
    · simpa using t0
  · rintro ⟨h2, hi⟩
    have h0 := hi 0
    rw [bary_sum hD] at h0
    refine ⟨_, hi 2, by linarith, ?_⟩
    have := eq_of_bary hn ha hb hc hx hD
    rw [h2] at this
    rw [zero_smul, add_zero] at this
    exact this

theorem mem_bc : x ∈ segment ℝ b c ↔ bary pos a b c x 0 = 0 ∧ ∀ i, 0 ≤ bary pos a b c x i := by
  rw [mem_segment_iff]
  constructor
  · rintro ⟨t, t0, t1, rfl⟩
    have : b + t • (c - b) = a + (1 - t) • (b - a) + t • (c - a) := by module
    rw [this]
    refine ⟨by rw [bary_eq hD]; simp, fun i => ?_⟩
    rw [bary_eq hD]
    fin_cases i
    · simp
    · simpa using t1
    · simpa using t0
  · rintro ⟨h2, hi⟩
    have h0 := bary_sum hD x
    rw [h2] at h0
    refine ⟨_, hi 2, by linarith [hi 1], ?_⟩
    have h1 := eq_of_bary hn ha hb hc hx hD
    have h3 : bary pos a b c x 1 = 1 - bary pos a b c x 2 := by linarith
    rw [h3] at h1
    exact h1.trans (by module)

end

/-- A part of a segment -/
theorem segment_part (p q : Pt ℝ) {t u : ℝ} :
    segment ℝ (p + t • (q - p)) (p + u • (q - p)) = {x | ∃ s, min t u ≤ s ∧ s ≤ max t u ∧ p + s • (q - p) = x} := by
  have key : ∀ {t u : ℝ}, t ≤ u → segment ℝ (p + t • (q - p)) (p + u • (q - p)) =
      {x | ∃ s, t ≤ s ∧ s ≤ u ∧ p + s • (q - p) = x} := by
    intro t u htu
    ext x
    rw [mem_segment_iff, Set.mem_setOf_eq]
    constructor
    · rintro ⟨w, w0, w1, rfl⟩
      refine ⟨t + w * (u - t), by nlinarith, by nlinarith, ?_⟩
      module
    · rintro ⟨s, s0, s1, rfl⟩
      rcases htu.eq_or_lt with h | h
      · refine ⟨0, le_rfl, zero_le_one, ?_⟩
        rw [show s = t by linarith]
        simp
      · refine ⟨(s - t) / (u - t), div_nonneg (by linarith) (by linarith), ?_, ?_⟩
        · rw [div_le_one (by linarith)]; linarith
        · have : s = t + (s - t) / (u - t) * (u - t) := by
            rw [div_mul_cancel₀ _ (by linarith)]; ring
          generalize (s - t) / (u - t) = w at *
          rw [this]
          module
  rcases le_total t u with h | h
  · rw [key h, min_eq_left h, max_eq_right h]
  · rw [segment_symm, key h, min_eq_right h, max_eq_left h]

end Verif.Geometry
