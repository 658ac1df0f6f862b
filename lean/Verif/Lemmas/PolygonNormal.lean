/-
Helper lemmas for C94: the normal of a polygon.
-/
import Verif.Model.Polygon
import Verif.Lemmas.Vec
import Verif.Lemmas.Prelude
import Mathlib.Tactic.IntervalCases
import Mathlib.Tactic.Linarith
import Mathlib.Tactic.LinearCombination
import Mathlib.Tactic.FieldSimp
import Mathlib.Tactic.Ring

namespace Verif.Polygon
open MeshBuild MeshGraph Trace MeshMetrics Geometry
open scoped Classical

theorem argmax_eq {l : List ℝ} {i : Nat} (hi : i < l.length) (hm : ∀ y ∈ l, y ≤ l[i])
    (hf : ∀ j (h : j < i), l[j] < l[i]) : argmax l = i := by
  unfold argmax
  rw [List.findIdx_eq hi]
  refine ⟨by simpa using hm, fun j hj => ?_⟩
  simp only [decide_eq_false_iff_not, not_forall, not_le]
  exact ⟨l[i], List.getElem_mem hi, hf j hj⟩

theorem argmin_eq {l : List ℝ} {i : Nat} (hi : i < l.length) (hm : ∀ y ∈ l, l[i] ≤ y)
    (hf : ∀ j (h : j < i), l[i] < l[j]) : argmin l = i := by
  unfold argmin
  rw [List.findIdx_eq hi]
  refine ⟨by simpa using hm, fun j hj => ?_⟩
  simp only [decide_eq_false_iff_not, not_forall, not_le]
  exact ⟨l[i], List.getElem_mem hi, hf j hj⟩

theorem exists_max : ∀ {l : List ℝ}, l ≠ [] → ∃ x ∈ l, ∀ y ∈ l, y ≤ x
  | [a], _ => ⟨a, by simp, by simp⟩
  | a :: b :: l, _ => by
    obtain ⟨x, hx, hm⟩ := exists_max (List.cons_ne_nil b l)
    rcases le_total a x with h | h
    · exact ⟨x, List.mem_cons_of_mem _ hx, by
        intro y hy
        rcases List.mem_cons.1 hy with rfl | hy
        exacts [h, hm y hy]⟩
    · exact ⟨a, by simp, by
        intro y hy
        rcases List.mem_cons.1 hy with rfl | hy
        exacts [le_rfl, (hm y hy).trans h]⟩

theorem argmax_lt {l : List ℝ} (h : l ≠ []) : argmax l < l.length := by
  obtain ⟨x, hx, hm⟩ := exists_max h
  exact List.findIdx_lt_length.2 ⟨x, hx, by simpa using hm⟩

theorem argmin_lt {l : List ℝ} (h : l ≠ []) : argmin l < l.length := by
  obtain ⟨x, hx, hm⟩ := exists_max (l := l.map fun x => -x) (by simpa using h)
  obtain ⟨y, hy, rfl⟩ := List.mem_map.1 hx
  refine List.findIdx_lt_length.2 ⟨y, hy, ?_⟩
  simp only [decide_eq_true_eq]
  intro z hz
  have := hm (-z) (List.mem_map.2 ⟨z, hz, rfl⟩)
  linarith

/-- The order of norms is the order of squares. -/
theorem argmax_norm (l : List (Pt ℝ)) : argmax (l.map norm3) = argmax (l.map fun v => dot v v) := by
  unfold argmax
  rw [List.findIdx_map, List.findIdx_map]
  congr 1
  funext v
  simp only [Function.comp, List.forall_mem_map, decide_eq_decide]
  refine forall₂_congr fun w _ => ?_
  rw [norm3_eq, norm3_eq, Real.sqrt_le_sqrt_iff (dot_self_nonneg v)]

theorem argmin_norm (l : List (Pt ℝ)) : argmin (l.map norm3) = argmin (l.map fun v => dot v v) := by
  unfold argmin
  rw [List.findIdx_map, List.findIdx_map]
  congr 1
  funext v
  simp only [Function.comp, List.forall_mem_map, decide_eq_decide]
  refine forall₂_congr fun w _ => ?_
  rw [norm3_eq, norm3_eq, Real.sqrt_le_sqrt_iff (dot_self_nonneg w)]

theorem normalize_pos (v : Pt ℝ) : ∃ c : ℝ, 0 < c ∧ normalize v = c • v := by
  unfold normalize
  split
  · rename_i h
    exact ⟨_, inv_pos.2 (lt_of_le_of_ne (norm3_nonneg v) (Ne.symm h)), rfl⟩
  · exact ⟨1, one_pos, by simp⟩

theorem normalize_zero : normalize (0 : Pt ℝ) = 0 := by
  simp [normalize]

theorem norm_normalize {v : Pt ℝ} (h : v ≠ 0) : norm3 (normalize v) = 1 := by
  have h0 : norm3 v ≠ 0 := fun hc => h (norm3_eq_zero.1 hc)
  unfold normalize
  rw [if_pos h0, norm3_smul, abs_of_nonneg (inv_nonneg.2 (norm3_nonneg v)), inv_mul_cancel₀ h0]

theorem dot_smul_right (u v : Pt ℝ) (c : ℝ) : dot u (c • v) = c * dot u v := by
  simp [dot]; ring

theorem dot_smul_left (u v : Pt ℝ) (c : ℝ) : dot (c • u) v = c * dot u v := by
  simp [dot]; ring

theorem sign_edgeDirection (v0 v1 v2 n : Pt ℝ) :
    SignType.sign (edgeDirection v0 v1 v2 n) = SignType.sign (dot n (cross (v1 - v0) (v2 - v1))) := by
  unfold edgeDirection
  obtain ⟨c, hc, e⟩ := normalize_pos (cross (v1 - v0) (v2 - v1))
  rw [e, dot_smul_right, sign_mul, sign_pos hc, one_mul]

/-- The sum of `n` signs is `n` or `-n` where all are equal to 1 or all to -1. -/
theorem sum_signs {l : List ℤ} (h : ∀ x ∈ l, -1 ≤ x ∧ x ≤ 1) :
    l.sum ≤ l.length ∧ (l.sum = l.length ↔ ∀ x ∈ l, x = 1) := by
  induction l with
  | nil => simp
  | cons x l ih =>
    have h1 := h x (by simp)
    have h2 := ih fun y hy => h y (List.mem_cons_of_mem _ hy)
    rw [List.sum_cons, List.length_cons]
    push_cast
    refine ⟨by omega, ?_⟩
    rw [List.forall_mem_cons, ← h2.2]
    omega

theorem sum_signs_neg {l : List ℤ} (h : ∀ x ∈ l, -1 ≤ x ∧ x ≤ 1) :
    -(l.length : ℤ) ≤ l.sum ∧ (l.sum = -l.length ↔ ∀ x ∈ l, x = -1) := by
  induction l with
  | nil => simp
  | cons x l ih =>
    have h1 := h x (by simp)
    have h2 := ih fun y hy => h y (List.mem_cons_of_mem _ hy)
    rw [List.sum_cons, List.length_cons]
    push_cast
    refine ⟨by omega, ?_⟩
    rw [List.forall_mem_cons, ← h2.2]
    omega

theorem getIdx_some {α : Type} {l : List α} {i : Nat} (h : i < l.length) : getIdx l i = .ok l[i] := by
  unfold getIdx
  rw [List.getElem?_eq_getElem h]

/-- A mean of points of a plane is in the plane. -/
theorem mean_plane {n : Pt ℝ} {d : ℝ} {l : List (Pt ℝ)} (hl : l ≠ []) (h : ∀ p ∈ l, dot n p = d) :
    dot n (mean l) = d := by
  have hs : ∀ l : List (Pt ℝ), (∀ p ∈ l, dot n p = d) →
      n 0 * (l.map (· 0)).sum + n 1 * (l.map (· 1)).sum + n 2 * (l.map (· 2)).sum = l.length * d := by
    intro l
    induction l with
    | nil => simp
    | cons p l ih =>
      intro h
      have h1 := h p (by simp)
      have h2 := ih fun q hq => h q (List.mem_cons_of_mem _ hq)
      simp only [List.map_cons, List.sum_cons, List.length_cons]
      push_cast
      simp only [dot] at h1
      linear_combination h1 + h2
  have hn : (l.length : ℝ) ≠ 0 := by simpa using hl
  have := hs l h
  simp only [dot, mean]
  field_simp
  linear_combination this

/-- The cross product of two vectors of a plane through 0 is a multiple of its normal. -/
theorem cross_parallel {n u v : Pt ℝ} (hn : n ≠ 0) (hu : dot n u = 0) (hv : dot n v = 0) :
    cross u v = (dot n (cross u v) / dot n n) • n := by
  have hd : dot n n ≠ 0 := fun h => hn (dot_self_eq_zero.1 h)
  have key : dot n n • cross u v = dot n (cross u v) • n := by
    simp only [dot] at hu hv ⊢
    refine pt_ext ?_ ?_ ?_ <;> simp only [Pi.smul_apply, smul_eq_mul, cross_0, cross_1, cross_2]
    · linear_combination (n 1 * v 2 - n 2 * v 1) * hu + (n 2 * u 1 - n 1 * u 2) * hv
    · linear_combination (n 2 * v 0 - n 0 * v 2) * hu + (n 0 * u 2 - n 2 * u 0) * hv
    · linear_combination (n 0 * v 1 - n 1 * v 0) * hu + (n 1 * u 0 - n 0 * u 1) * hv
  rw [div_eq_inv_mul, mul_smul, ← key, smul_smul, inv_mul_cancel₀ hd, one_smul]

/-- The squares of the distances to a point -/
noncomputable def squares (points : List (Pt ℝ)) (c : Pt ℝ) : List ℝ := points.map fun p => dot (p - c) (p - c)

theorem argmax_dist (points : List (Pt ℝ)) (c : Pt ℝ) :
    argmax (points.map fun p => norm3 (p - c)) = argmax (squares points c) := by
  have := argmax_norm (points.map fun p => p - c)
  rwa [List.map_map, List.map_map] at this

theorem argmin_dist (points : List (Pt ℝ)) (c : Pt ℝ) :
    argmin (points.map fun p => norm3 (p - c)) = argmin (squares points c) := by
  have := argmin_norm (points.map fun p => p - c)
  rwa [List.map_map, List.map_map] at this

/-- How the three points are found, with squares of distances only -/
theorem planePoints_eq {rtol atol : ℝ} {points red : List (Pt ℝ)} {c m pa pb pc q : Pt ℝ} {i i' j k : Nat}
    (hc : mean points = c) (hi : argmax (squares points c) = i) (hi' : argmin (squares points c) = i')
    (hpa : points[i]? = some pa) (hq : points[i']? = some q)
    (hfar : ¬ IsClose rtol atol (norm3 (pa - c)) (norm3 (q - c)))
    (hred : points.eraseIdx i = red) (hm : mean red = m) (hm' : mean (red ++ [m]) = m)
    (hj : argmax (squares (red ++ [m]) c) = j) (hk : argmin (squares (red ++ [m]) c) = k)
    (hpb : (red ++ [m])[j]? = some pb) (hpc : (red ++ [m])[k]? = some pc) :
    planePoints rtol atol points = .ok (pa, pb, pc) := by
  unfold planePoints
  simp only [hc, argmax_dist, argmin_dist, hi, hi', hred, hm, hm']
  have e1 : getIdx (points.map fun p => norm3 (p - c)) i = .ok (norm3 (pa - c)) := by
    simp [getIdx, hpa]
  have e2 : getIdx (points.map fun p => norm3 (p - c)) i' = .ok (norm3 (q - c)) := by
    simp [getIdx, hq]
  have e3 : (points.map fun p => norm3 (p - c)).eraseIdx i ++ [norm3 (m - c)]
      = (red ++ [m]).map fun p => norm3 (p - c) := by
    rw [List.eraseIdx_map, hred]
    simp
  rw [e1, e2, Res.bind_ok, Res.bind_ok, if_neg hfar, e3, argmax_dist, argmin_dist, hj, hk]
  simp [getIdx, hpa, hpb, hpc]

end Verif.Polygon
