/-
Lemmas on facet normals.
-/
import Verif.Spec.Normal
import Verif.Lemmas.Trace
import Verif.Lemmas.Vec
import Verif.Lemmas.PointGeometry
import Mathlib.Analysis.Convex.Combination

namespace Verif.Normal
open MeshBuild MeshGraph Trace MeshMetrics Geometry
open scoped Classical

theorem unit_spec {v : Pt ℝ} (h : v ≠ 0) : ∃ u, unit v = some u ∧ norm3 u = 1 ∧
    v = norm3 v • u ∧ 0 < norm3 v := by
  have h0 : norm3 v ≠ 0 := fun h' => h (norm3_eq_zero.1 h')
  have hp : 0 < norm3 v := lt_of_le_of_ne (norm3_nonneg _) (Ne.symm h0)
  have e : (fun k => v k / norm3 v) = (norm3 v)⁻¹ • v := by
    funext k; simp only [Pi.smul_apply, smul_eq_mul]; field_simp
  refine ⟨_, if_neg h0, ?_, ?_, hp⟩
  · rw [e, norm3_smul, abs_inv, abs_of_pos hp, inv_mul_cancel₀ h0]
  · rw [e, smul_smul, mul_inv_cancel₀ h0, one_smul]

theorem unit_zero : unit 0 = none := if_pos norm3_zero

theorem dot_unit {n : Pt ℝ} (h : norm3 n = 1) : dot n n = 1 := by
  rw [← norm3_mul_self, h, one_mul]

theorem norm3_of_dot {n : Pt ℝ} (h : dot n n = 1) : norm3 n = 1 := by
  rw [norm3_eq, h, Real.sqrt_one]

/-- The centroid of the nodes. -/
theorem centroid_spec {points : Points ℝ} {c : Cell} {X : Nat → Pt ℝ}
    (h : ∀ t ∈ c.nodeTags, points[t]? = some (X t)) (hne : c.nodeTags ≠ []) {tags : List Nat}
    (hp : c.nodeTags.Perm tags) :
    cellCentroid points c = .ok fun k => (tags.map fun t => X t k).sum / tags.length := by
  have e : fancy points c.nodeTags = .ok (c.nodeTags.map X) :=
    mapRes_pure fun t ht => getIdx_of (h t ht)
  unfold cellCentroid
  rw [e, Res.bind_ok, if_neg (by simpa using hne)]
  show Except.ok _ = _
  congr 1
  funext k
  rw [List.map_map, List.length_map, hp.length_eq, ((hp.map ((fun x : Pt ℝ => x k) ∘ X)).sum_eq)]
  rfl

theorem nodePoint_of {points : Points ℝ} {c : Cell} {i t : Nat} {x : Pt ℝ}
    (h : c.nodeTags[i]? = some t) (h' : points[t]? = some x) : nodePoint points c i = .ok x := by
  unfold nodePoint
  rw [getIdx_of h, Res.bind_ok, getIdx_of h']

end Verif.Normal
