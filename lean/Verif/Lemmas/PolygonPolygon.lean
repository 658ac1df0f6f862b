/-
Lemmas for C98: the intersection of two quadrilaterals.
-/
import Verif.Spec.PolygonPolygon
import Verif.Props.TriangleTriangle
import Verif.Lemmas.PolygonNormal

namespace Verif.Geometry
open Trace MeshMetrics MeshBuild MeshGraph
open scoped Classical

/-! ### A step that stays inside -/

theorem small_step {ι : Type} [Finite ι] (α ρ : ι → ℝ) (h0 : ∀ i, 0 ≤ α i)
    (h1 : ∀ i j, α i = 0 → α j = 0 → i = j) : ∃ s : ℝ, s ≠ 0 ∧ ∀ i, 0 ≤ α i + s * ρ i := by
  have hpos : ∃ ε > 0, ∀ s : ℝ, |s| ≤ ε → ∀ i, α i ≠ 0 → 0 ≤ α i + s * ρ i := by
    have each : ∀ i, ∃ ε > 0, ∀ s : ℝ, |s| ≤ ε → α i ≠ 0 → 0 ≤ α i + s * ρ i := by
      intro i
      by_cases hi : α i = 0
      · exact ⟨1, one_pos, fun s _ h => absurd hi h⟩
      · have hp : 0 < α i := lt_of_le_of_ne (h0 i) (Ne.symm hi)
        refine ⟨α i / (|ρ i| + 1), by positivity, fun s hs _ => ?_⟩
        have h2 : |s * ρ i| ≤ α i := by
          rw [abs_mul]
          calc |s| * |ρ i| ≤ α i / (|ρ i| + 1) * |ρ i| := mul_le_mul_of_nonneg_right hs (abs_nonneg _)
            _ ≤ α i / (|ρ i| + 1) * (|ρ i| + 1) :=
                mul_le_mul_of_nonneg_left (by linarith) (by positivity)
            _ = α i := div_mul_cancel₀ _ (by positivity)
        have := neg_le_of_abs_le h2
        linarith
    choose ε hε H using each
    rcases isEmpty_or_nonempty ι with he | he
    · exact ⟨1, one_pos, fun s _ i => (he.false i).elim⟩
    · obtain ⟨j, hj⟩ := Finite.exists_min ε
      exact ⟨ε j, hε j, fun s hs i hi => H i s (hs.trans (hj i)) hi⟩
  obtain ⟨ε, hε, H⟩ := hpos
  by_cases hz : ∃ i, α i = 0 ∧ ρ i < 0
  · obtain ⟨i, hi, hr⟩ := hz
    refine ⟨-ε, by linarith, fun j => ?_⟩
    by_cases hj : α j = 0
    · rw [h1 j i hj hi, hi]
      nlinarith
    · exact H _ (by rw [abs_neg, abs_of_pos hε]) j hj
  · push Not at hz
    refine ⟨ε, hε.ne', fun j => ?_⟩
    by_cases hj : α j = 0
    · rw [hj]
      have := mul_nonneg hε.le (hz j hj)
      linarith
    · exact H _ (by rw [abs_of_pos hε]) j hj

/-- A vector of the plane of a triangle in terms of its sides -/
theorem in_plane {t : Triangle} (hn : normalOf t ≠ 0) {d : Pt ℝ} (hd : dot (normalOf t) d = 0) :
    ∃ u v : ℝ, d = u • (t.2.1 - t.1) + v • (t.2.2 - t.1) := by
  set e1 := t.2.1 - t.1 with h1
  set e2 := t.2.2 - t.1 with h2
  have hN : normalOf t = cross e1 e2 := rfl
  have hnn : dot (cross e1 e2) (cross e1 e2) ≠ 0 := by
    intro h
    apply hn
    rw [hN]
    simp only [dot] at h
    refine pt_ext ?_ ?_ ?_ <;> rw [Pi.zero_apply] <;> nlinarith [mul_self_nonneg (cross e1 e2 0),
      mul_self_nonneg (cross e1 e2 1), mul_self_nonneg (cross e1 e2 2)]
  refine ⟨dot (cross d e2) (cross e1 e2) / dot (cross e1 e2) (cross e1 e2),
    dot (cross e1 d) (cross e1 e2) / dot (cross e1 e2) (cross e1 e2), ?_⟩
  rw [hN] at hd
  have key : ∀ k : Fin 3, dot (cross e1 e2) (cross e1 e2) * d k = dot (cross d e2) (cross e1 e2) * e1 k +
      dot (cross e1 d) (cross e1 e2) * e2 k + dot (cross e1 e2) d * cross e1 e2 k := by
    intro k
    fin_cases k <;> simp only [dot, cross_eq, Matrix.cons_val, Fin.zero_eta, Fin.mk_one, Fin.reduceFinMk] <;> ring
  funext k
  have := key k
  rw [hd] at this
  simp only [Pi.add_apply, Pi.smul_apply, smul_eq_mul]
  field_simp
  linarith

theorem normal_ne {o t : Triangle} (g : GeneralPair o t) : normalOf o ≠ 0 ∧ normalOf t ≠ 0 := by
  constructor
  · intro h
    refine g.second t.1 (by simp) ?_
    unfold height
    rw [h]
    simp [dot]
  · intro h
    refine g.first o.1 (by simp) ?_
    unfold height
    rw [h]
    simp [dot]

/-- The planes of two triangles in general position with a common point are not parallel. -/
theorem planes_cross {o t : Triangle} (g : GeneralPair o t) {x : Pt ℝ} (ho : height o x = 0)
    (ht : height t x = 0) : cross (normalOf o) (normalOf t) ≠ 0 := by
  intro h0
  refine g.first o.1 (by simp) ?_
  have hn := (normal_ne g).1
  unfold height at *
  generalize normalOf o = n at *
  generalize normalOf t = m at *
  have e0 := congrFun h0 0
  have e1 := congrFun h0 1
  have e2 := congrFun h0 2
  simp only [cross_eq, Matrix.cons_val, Pi.zero_apply] at e0 e1 e2
  have hnn : dot n n ≠ 0 := by
    intro h
    apply hn
    simp only [dot] at h
    refine pt_ext ?_ ?_ ?_ <;> rw [Pi.zero_apply] <;> nlinarith [mul_self_nonneg (n 0),
      mul_self_nonneg (n 1), mul_self_nonneg (n 2)]
  have key : dot n n * dot (o.1 - t.1) m = 0 := by
    have hw : dot (o.1 - x) n = 0 := by
      simp only [dot, Pi.sub_apply] at *
      linarith
    have hz : dot (o.1 - t.1) m = dot (o.1 - x) m := by
      simp only [dot, Pi.sub_apply] at *
      linarith
    rw [hz]
    generalize o.1 - x = w at *
    simp only [dot] at *
    linear_combination (m 0 * n 0 + m 1 * n 1 + m 2 * n 2) * hw + (n 1 * w 2 - n 2 * w 1) * e0 +
      (n 2 * w 0 - n 0 * w 2) * e1 + (n 0 * w 1 - n 1 * w 0) * e2
  exact (mul_eq_zero.1 key).resolve_left hnn

/-- Barycentric coordinates -/
def coords (u v : ℝ) : Fin 3 → ℝ := ![1 - u - v, u, v]

theorem coords_one {x a b c : Pt ℝ} {u v : ℝ} (hx : x = a + u • (b - a) + v • (c - a))
    (hne : x ≠ a ∧ x ≠ b ∧ x ≠ c) (i j : Fin 3) (hi : coords u v i = 0) (hj : coords u v j = 0) : i = j := by
  obtain ⟨ha, hb, hc⟩ := hne
  have ka : ¬ (u = 0 ∧ v = 0) := fun h => ha (by rw [hx, h.1, h.2]; simp)
  have kb : ¬ (v = 0 ∧ 1 - u - v = 0) := fun h => hb (by
    have : u = 1 := by linarith [h.1, h.2]
    rw [hx, this, h.1]; simp)
  have kc : ¬ (u = 0 ∧ 1 - u - v = 0) := fun h => hc (by
    have : v = 1 := by linarith [h.1, h.2]
    rw [hx, this, h.1]; simp)
  fin_cases i <;> fin_cases j <;> first
    | rfl
    | (exfalso
       simp only [coords, Matrix.cons_val, Fin.zero_eta, Fin.mk_one, Fin.reduceFinMk] at hi hj
       first
         | exact ka ⟨hi, hj⟩ | exact ka ⟨hj, hi⟩ | exact kb ⟨hi, hj⟩ | exact kb ⟨hj, hi⟩ | exact kc ⟨hi, hj⟩
         | exact kc ⟨hj, hi⟩)

theorem coords_side {x a b c : Pt ℝ} {u v : ℝ} (hu : 0 ≤ u) (hv : 0 ≤ v) (huv : u + v ≤ 1)
    (hx : x = a + u • (b - a) + v • (c - a)) (i : Fin 3) (hi : coords u v i = 0) :
    x ∈ segment ℝ a b ∨ x ∈ segment ℝ b c ∨ x ∈ segment ℝ c a := by
  fin_cases i <;> simp only [coords, Matrix.cons_val, Fin.zero_eta, Fin.mk_one, Fin.reduceFinMk] at hi
  · refine Or.inr (Or.inl (mem_segment_iff.2 ⟨v, hv, by linarith, ?_⟩))
    have : u = 1 - v := by linarith
    rw [hx, this]
    module
  · refine Or.inr (Or.inr (mem_segment_iff.2 ⟨1 - v, by linarith, by linarith, ?_⟩))
    rw [hx, hi]
    module
  · refine Or.inl (mem_segment_iff.2 ⟨u, hu, by linarith, ?_⟩)
    rw [hx, hi]
    module

theorem cross_of_mem {a b x : Pt ℝ} (h : x ∈ segment ℝ a b) : cross (a - x) (b - x) = 0 := by
  obtain ⟨t, -, -, rfl⟩ := mem_segment_iff.1 h
  refine pt_ext ?_ ?_ ?_ <;>
    simp only [cross_eq, Matrix.cons_val, Pi.sub_apply, Pi.add_apply, Pi.smul_apply, smul_eq_mul, Pi.zero_apply] <;>
    ring

/-- Common points of triangles in general position are not alone. -/
theorem second_point {o t : Triangle} (g : GeneralPair o t) {x : Pt ℝ} (hx : x ∈ pointsOf o ∩ pointsOf t) :
    ∃ y ∈ pointsOf o ∩ pointsOf t, y ≠ x := by
  have ho := height_self hx.1
  have ht := height_self hx.2
  have hD := planes_cross g ho ht
  set D := cross (normalOf o) (normalOf t) with hDdef
  obtain ⟨no, nt⟩ := normal_ne g
  obtain ⟨u1, v1, hd1⟩ := in_plane no (d := D) (by
    rw [hDdef]; simp only [dot, cross_eq, Matrix.cons_val]; ring)
  obtain ⟨u2, v2, hd2⟩ := in_plane nt (d := D) (by
    rw [hDdef]; simp only [dot, cross_eq, Matrix.cons_val]; ring)
  obtain ⟨⟨a, b, ha, hb, hab, e1⟩, ⟨c, d, hc, hd, hcd, e2⟩⟩ := hx
  have corner1 : x ≠ o.1 ∧ x ≠ o.2.1 ∧ x ≠ o.2.2 :=
    ⟨fun h => g.first o.1 (by simp) (h ▸ ht), fun h => g.first o.2.1 (by simp) (h ▸ ht),
      fun h => g.first o.2.2 (by simp) (h ▸ ht)⟩
  have corner2 : x ≠ t.1 ∧ x ≠ t.2.1 ∧ x ≠ t.2.2 :=
    ⟨fun h => g.second t.1 (by simp) (h ▸ ho), fun h => g.second t.2.1 (by simp) (h ▸ ho),
      fun h => g.second t.2.2 (by simp) (h ▸ ho)⟩
  have mixed : ∀ i j, coords a b i = 0 → coords c d j ≠ 0 := by
    intro i j hi hj
    obtain ⟨k1, k2, k3⟩ := g.off x (coords_side ha hb hab e1 i hi) ht
    rcases coords_side hc hd hcd e2 j hj with h | h | h
    · exact k1 (cross_of_mem h)
    · exact k2 (cross_of_mem h)
    · exact k3 (cross_of_mem h)
  have nonneg : ∀ {u v : ℝ}, 0 ≤ u → 0 ≤ v → u + v ≤ 1 → ∀ i, 0 ≤ coords u v i := by
    intro u v hu hv huv i
    fin_cases i <;> simp only [coords, Matrix.cons_val, Fin.zero_eta, Fin.mk_one, Fin.reduceFinMk] <;> linarith
  obtain ⟨s, hs, H⟩ := small_step (ι := Fin 3 ⊕ Fin 3) (Sum.elim (coords a b) (coords c d))
    (Sum.elim ![-u1 - v1, u1, v1] ![-u2 - v2, u2, v2])
    (by rintro (i | i); exacts [nonneg ha hb hab i, nonneg hc hd hcd i])
    (by
      rintro (i | i) (j | j) hi hj
      · exact congrArg _ (coords_one e1 corner1 i j hi hj)
      · exact absurd hj (mixed i j hi)
      · exact absurd hi (mixed j i hj)
      · exact congrArg _ (coords_one e2 corner2 i j hi hj))
  have l0 := H (.inl 0)
  have l1 := H (.inl 1)
  have l2 := H (.inl 2)
  have r0 := H (.inr 0)
  have r1 := H (.inr 1)
  have r2 := H (.inr 2)
  simp only [Sum.elim_inl, Sum.elim_inr, coords, Matrix.cons_val] at l0 l1 l2 r0 r1 r2
  refine ⟨x + s • D, ⟨⟨a + s * u1, b + s * v1, l1, l2, by linarith, ?_⟩,
    ⟨c + s * u2, d + s * v2, r1, r2, by linarith, ?_⟩⟩, ?_⟩
  · rw [hd1, e1]
    module
  · rw [hd2]
    nth_rewrite 1 [e2]
    module
  · intro h
    have : s • D = 0 := by simpa using h
    rcases smul_eq_zero.1 this with h | h
    · exact hs h
    · exact hD h

/-! ### Points on a line -/

theorem parallel_smul {D v : Pt ℝ} (hD : D ≠ 0) (h : cross D v = 0) : ∃ s : ℝ, v = s • D := by
  have hnn : dot D D ≠ 0 := by
    intro h
    apply hD
    simp only [dot] at h
    refine pt_ext ?_ ?_ ?_ <;> rw [Pi.zero_apply] <;> nlinarith [mul_self_nonneg (D 0),
      mul_self_nonneg (D 1), mul_self_nonneg (D 2)]
  have e0 := congrFun h 0
  have e1 := congrFun h 1
  have e2 := congrFun h 2
  simp only [cross_eq, Matrix.cons_val, Pi.zero_apply] at e0 e1 e2
  refine ⟨dot D v / dot D D, ?_⟩
  have k0 : dot D D * v 0 = dot D v * D 0 := by
    simp only [dot]; linear_combination D 2 * e1 - D 1 * e2
  have k1 : dot D D * v 1 = dot D v * D 1 := by
    simp only [dot]; linear_combination D 0 * e2 - D 2 * e0
  have k2 : dot D D * v 2 = dot D v * D 2 := by
    simp only [dot]; linear_combination D 1 * e0 - D 0 * e1
  refine pt_ext ?_ ?_ ?_ <;> simp only [Pi.smul_apply, smul_eq_mul] <;> field_simp <;> linarith

theorem on_line {o t : Triangle} (hD : cross (normalOf o) (normalOf t) ≠ 0) {x w : Pt ℝ}
    (hx : height o x = 0 ∧ height t x = 0) (hw : height o w = 0 ∧ height t w = 0) :
    ∃ s : ℝ, w = x + s • cross (normalOf o) (normalOf t) := by
  obtain ⟨s, hs⟩ := parallel_smul (v := w - x) hD (by
    obtain ⟨a1, a2⟩ := hx
    obtain ⟨b1, b2⟩ := hw
    unfold height at *
    generalize normalOf o = n at *
    generalize normalOf t = m at *
    have c1 : dot (w - x) n = 0 := by simp only [dot, Pi.sub_apply] at *; linarith
    have c2 : dot (w - x) m = 0 := by simp only [dot, Pi.sub_apply] at *; linarith
    generalize w - x = v at *
    simp only [dot] at c1 c2
    refine pt_ext ?_ ?_ ?_ <;> simp only [cross_eq, Matrix.cons_val, Pi.zero_apply]
    · linear_combination m 0 * c1 - n 0 * c2
    · linear_combination m 1 * c1 - n 1 * c2
    · linear_combination m 2 * c1 - n 2 * c2)
  exact ⟨s, by rw [← hs]; abel⟩

/-- On a line, the order of a coordinate is the order of the points. -/
theorem between {a D x y w : Pt ℝ} {k : Fin 3} (hk : D k ≠ 0) {r s t : ℝ} (hx : x = a + r • D)
    (hy : y = a + s • D) (hw : w = a + t • D) (h1 : x k ≤ w k) (h2 : w k ≤ y k) : w ∈ segment ℝ x y := by
  rcases (h1.trans h2).eq_or_lt with h | h
  · have e : w k = x k := le_antisymm (h ▸ h2) h1
    have : t = r := by
      have : (t - r) * D k = 0 := by
        rw [hx, hw] at e
        simp only [Pi.add_apply, Pi.smul_apply, smul_eq_mul] at e
        linarith
      rcases mul_eq_zero.1 this with h | h
      · linarith
      · exact absurd h hk
    rw [hw, this, ← hx]
    exact left_mem_segment ℝ _ _
  · have hxy : 0 < y k - x k := by linarith
    refine mem_segment_iff.2 ⟨(w k - x k) / (y k - x k), div_nonneg (by linarith) hxy.le,
      (div_le_one hxy).2 (by linarith), ?_⟩
    have hsr : s - r ≠ 0 := by
      intro h0
      have : s = r := by linarith
      rw [hx, hy, this] at h
      exact lt_irrefl _ h
    have e : (w k - x k) / (y k - x k) = (t - r) / (s - r) := by
      rw [hx, hy, hw]
      simp only [Pi.add_apply, Pi.smul_apply, smul_eq_mul]
      rw [show a k + t * D k - (a k + r * D k) = (t - r) * D k by ring,
        show a k + s * D k - (a k + r * D k) = (s - r) * D k by ring, mul_div_mul_right _ _ hk]
    rw [e, hw, hx, hy, show a + s • D - (a + r • D) = (s - r) • D by module, smul_smul,
      div_mul_cancel₀ _ hsr]
    module

/-! ### The extreme points -/

theorem getIdx_get {α : Type} {l : List α} {i : Nat} {a : α} (h : l[i]? = some a) : getIdx l i = .ok a := by
  simp [getIdx, h]

theorem argmin_get {l : List ℝ} (h : l ≠ []) : ∃ m, l[Polygon.argmin l]? = some m ∧ ∀ y ∈ l, m ≤ y := by
  have hl := Polygon.argmin_lt h
  refine ⟨_, List.getElem?_eq_getElem hl, ?_⟩
  exact of_decide_eq_true (List.findIdx_getElem (w := hl))

theorem argmax_get {l : List ℝ} (h : l ≠ []) : ∃ m, l[Polygon.argmax l]? = some m ∧ ∀ y ∈ l, y ≤ m := by
  have hl := Polygon.argmax_lt h
  refine ⟨_, List.getElem?_eq_getElem hl, ?_⟩
  exact of_decide_eq_true (List.findIdx_getElem (w := hl))

/-- The extreme points of a line in the plane of the triangle -/
theorem reduce_spec {o : Triangle} (hn : normalOf o ≠ 0) {D : Pt ℝ} (hD : D ≠ 0) (hp : dot (normalOf o) D = 0)
    {a b : Pt ℝ} {rest : List (Pt ℝ)} (hab : a ≠ b) (hl : ∀ w ∈ a :: b :: rest, ∃ s : ℝ, w = a + s • D) :
    ∃ x y, reducePolyLine o (a :: b :: rest) = .ok (x, y) ∧ x ∈ a :: b :: rest ∧ y ∈ a :: b :: rest ∧
      ∀ w ∈ a :: b :: rest, w ∈ segment ℝ x y := by
  obtain ⟨p, q, r⟩ := o
  have hc : cross (p - q) (r - q) = -normalOf (p, q, r) := by
    unfold normalOf
    refine pt_ext ?_ ?_ ?_ <;> simp only [cross, Pi.sub_apply, Pi.neg_apply, Matrix.cons_val] <;> ring
  set pos := keptAxes (cross (p - q) (r - q)) with hpos
  have hk : Keeps pos (normalOf (p, q, r)) := by
    have := keptAxes_keeps (v := -normalOf (p, q, r)) (neg_ne_zero.2 hn)
    rw [← hc] at this
    exact ⟨this.1, fun k hk1 hk2 => by
      have := this.2 k hk1 hk2
      rw [hc] at this
      simpa using this⟩
  obtain ⟨τ, hτ⟩ := hl b (by simp)
  have hτ0 : τ ≠ 0 := by
    rintro rfl
    exact hab (by rw [hτ]; simp)
  have hd1 : (proj pos a - proj pos b).1 = -τ * D pos.1 := by
    rw [hτ]; simp [proj]
  have hd2 : (proj pos a - proj pos b).2 = -τ * D pos.2 := by
    rw [hτ]; simp [proj]
  have hnz : D pos.1 ≠ 0 ∨ D pos.2 ≠ 0 := by
    by_contra h
    push Not at h
    obtain ⟨h1, h2⟩ := h
    refine hD (funext fun k => ?_)
    by_cases e1 : k = pos.1
    · rw [e1, h1]; rfl
    · by_cases e2 : k = pos.2
      · rw [e2, h2]; rfl
      · have hsum : normalOf (p, q, r) k * D k = 0 := by
          have hall : ∀ j, j ≠ k → D j = 0 := by
            intro j hj
            rcases three_indices hk.1 e1 e2 j with h | h | h
            · rw [h]; exact h1
            · rw [h]; exact h2
            · exact absurd h hj
          have : dot (normalOf (p, q, r)) D = normalOf (p, q, r) k * D k := by
            have g0 := hall 0
            have g1 := hall 1
            have g2 := hall 2
            fin_cases k <;> simp_all [dot]
          rw [← this]; exact hp
        exact (mul_eq_zero.1 hsum).resolve_left (hk.2 k e1 e2)
  set d := proj pos a - proj pos b with hd
  set norm := Real.sqrt (d.1 ^ 2 + d.2 ^ 2) with hnorm
  have hnpos : 0 < norm := by
    refine Real.sqrt_pos.2 ?_
    rw [hd1, hd2]
    rcases hnz with h | h
    · have := mul_ne_zero (neg_ne_zero.2 hτ0) h
      positivity
    · have := mul_ne_zero (neg_ne_zero.2 hτ0) h
      positivity
  set k := if |d.2 / norm| ≥ |-(d.1 / norm)| then pos.2 else pos.1 with hkdef
  have hDk : D k ≠ 0 := by
    have cmp : |d.2 / norm| ≥ |-(d.1 / norm)| ↔ |D pos.1| ≤ |D pos.2| := by
      rw [abs_neg, abs_div, abs_div, hd1, hd2, abs_mul, abs_mul, ge_iff_le,
        div_le_div_iff_of_pos_right (abs_pos.2 hnpos.ne'), mul_le_mul_iff_right₀ (abs_pos.2 (neg_ne_zero.2 hτ0))]
    rw [hkdef]
    split_ifs with h
    · have := cmp.1 h
      intro h0
      rw [h0, abs_zero] at this
      rcases hnz with h1 | h1
      · exact h1 (abs_nonpos_iff.1 this)
      · exact h1 h0
    · intro h0
      exact h (cmp.2 (by rw [h0, abs_zero]; exact abs_nonneg _))
  obtain ⟨m, hm, hmin⟩ := argmin_get (l := (a :: b :: rest).map (· k)) (by simp)
  obtain ⟨M, hM, hmax⟩ := argmax_get (l := (a :: b :: rest).map (· k)) (by simp)
  rw [List.getElem?_map, Option.map_eq_some_iff] at hm hM
  obtain ⟨x, hx, rfl⟩ := hm
  obtain ⟨y, hy, rfl⟩ := hM
  have hxm := List.mem_of_getElem? hx
  have hym := List.mem_of_getElem? hy
  refine ⟨x, y, ?_, hxm, hym, ?_⟩
  · unfold reducePolyLine
    simp only [← hpos, getIdx_get (l := a :: b :: rest) (i := 0) rfl, getIdx_get (l := a :: b :: rest) (i := 1) rfl,
      Res.bind_ok, ← hd, ← hnorm, ← hkdef, getIdx_get hx, getIdx_get hy, Res.pure_eq]
  · intro w hw
    obtain ⟨r1, e1⟩ := hl x hxm
    obtain ⟨r2, e2⟩ := hl y hym
    obtain ⟨r3, e3⟩ := hl w hw
    exact between hDk e1 e2 e3 (hmin _ (List.mem_map_of_mem hw)) (hmax _ (List.mem_map_of_mem hw))

/-! ### The answers for the pairs of triangles -/

/-- What the answers of several pairs of triangles have to be -/
def Fits (x : Triangle × Triangle) (r : Answer ⊕ (Option (Pt ℝ) × Option (Pt ℝ))) : Prop :=
  ∃ a, r = .inl a ∧ Describes a (pointsOf x.1 ∩ pointsOf x.2)

/-- The test of one pair as it is called -/
noncomputable def testPair (eps : ℝ) (x : Triangle × Triangle) :
    Except Fault (Answer ⊕ (Option (Pt ℝ) × Option (Pt ℝ))) :=
  match triangleTriangle eps x.1 x.2 with
    | .ok r => .ok r
    | .error s => .error (.stuck s)

theorem answers_small : ∀ (l : List (Triangle × Triangle)), (∀ x ∈ l, GeneralPair x.1 x.2) →
    ∃ δ > 0, ∀ eps, 0 < eps → eps < δ → ∃ data, l.mapM (testPair eps) = .ok data ∧ List.Forall₂ Fits l data
  | [], _ => ⟨1, one_pos, fun _ _ _ => ⟨[], rfl, .nil⟩⟩
  | x :: l, h => by
    obtain ⟨δ1, d1, H1⟩ := C97_triangles_partial x.1 x.2 (h x (by simp))
    obtain ⟨δ2, d2, H2⟩ := answers_small l fun y hy => h y (by simp [hy])
    refine ⟨min δ1 δ2, lt_min d1 d2, fun eps h0 he => ?_⟩
    obtain ⟨r, hr, hd⟩ := H1 eps h0 (lt_of_lt_of_le he (min_le_left _ _))
    obtain ⟨data, hm, hf⟩ := H2 eps h0 (lt_of_lt_of_le he (min_le_right _ _))
    refine ⟨.inl r :: data, ?_, .cons ⟨r, rfl, hd⟩ hf⟩
    rw [List.mapM_cons, hm]
    simp only [testPair, hr]
    rfl

/-- The points of the answers: common points, which span all of them; unless all answers are empty they begin with
two different points. -/
theorem chunks_spec : ∀ {l : List (Triangle × Triangle)} {data}, List.Forall₂ Fits l data →
    (∀ x ∈ l, GeneralPair x.1 x.2) → ∃ pts, mapRes chunkPoints data = .ok pts ∧
      (∀ z ∈ pts.flatten, ∃ x ∈ l, z ∈ pointsOf x.1 ∩ pointsOf x.2) ∧
      (∀ x ∈ l, ∀ z ∈ pointsOf x.1 ∩ pointsOf x.2, ∃ a ∈ pts.flatten, ∃ b ∈ pts.flatten, z ∈ segment ℝ a b) ∧
      ((∀ r ∈ data, r = .inl none) ∨ ∃ a b rest, pts.flatten = a :: b :: rest ∧ a ≠ b)
  | _, _, .nil, _ => ⟨[], rfl, by simp, by simp, Or.inl (by simp)⟩
  | x :: l, _, .cons (b := r) (l₂ := data) hr hf, hg => by
    obtain ⟨pts, h1, h2, h3, h4⟩ := chunks_spec hf fun y hy => hg y (by simp [hy])
    obtain ⟨a, rfl, hd⟩ := hr
    match a, hd with
    | none, hd =>
      refine ⟨[] :: pts, by simp [mapRes, chunkPoints, h1], ?_, ?_, ?_⟩
      · intro z hz
        obtain ⟨y, hy, hz⟩ := h2 z (by simpa using hz)
        exact ⟨y, by simp [hy], hz⟩
      · intro y hy z hz
        rcases List.mem_cons.1 hy with rfl | hy
        · rw [show pointsOf y.1 ∩ pointsOf y.2 = ∅ from hd] at hz
          exact hz.elim
        · simpa using h3 y hy z hz
      · rcases h4 with h4 | h4
        · left
          simpa using h4
        · right
          simpa using h4
    | some (p, some q), hd =>
      have hd' : pointsOf x.1 ∩ pointsOf x.2 = segment ℝ p q := hd
      refine ⟨[p, q] :: pts, by simp [mapRes, chunkPoints, h1], ?_, ?_, Or.inr ⟨p, q, pts.flatten, rfl, ?_⟩⟩
      · intro z hz
        simp only [List.flatten_cons, List.mem_append, List.mem_cons, List.not_mem_nil, or_false] at hz
        rcases hz with (rfl | rfl) | hz
        · exact ⟨x, by simp, by rw [hd']; exact left_mem_segment ℝ _ _⟩
        · exact ⟨x, by simp, by rw [hd']; exact right_mem_segment ℝ _ _⟩
        · obtain ⟨y, hy, hz⟩ := h2 z hz
          exact ⟨y, by simp [hy], hz⟩
      · intro y hy z hz
        rcases List.mem_cons.1 hy with rfl | hy
        · rw [hd'] at hz
          exact ⟨p, by simp, q, by simp, hz⟩
        · obtain ⟨a, ha, b, hb, hz⟩ := h3 y hy z hz
          exact ⟨a, by simp only [List.flatten_cons, List.mem_append]; exact Or.inr ha, b,
            by simp only [List.flatten_cons, List.mem_append]; exact Or.inr hb, hz⟩
      · rintro rfl
        have hp : p ∈ pointsOf x.1 ∩ pointsOf x.2 := by rw [hd']; exact left_mem_segment ℝ _ _
        obtain ⟨y, hy, hne⟩ := second_point (hg x (by simp)) hp
        rw [hd', segment_same] at hy
        exact hne hy

/-! ### Quadrilaterals -/

theorem corner_heights (p0 p1 p3 : Pt ℝ) : height (p0, p1, p3) p1 = 0 ∧ height (p0, p1, p3) p3 = 0 :=
  ⟨height_self ⟨1, 0, by norm_num, le_rfl, by norm_num, by simp⟩,
    height_self ⟨0, 1, le_rfl, by norm_num, by norm_num, by simp⟩⟩

/-- The points of a plane quadrilateral are in its plane. -/
theorem half_plane {p0 p1 p2 p3 : Pt ℝ} (h2 : height (p0, p1, p3) p2 = 0)
    {x : Pt ℝ} (hx : x ∈ pointsOf (p0, p1, p3) ∪ pointsOf (p1, p2, p3)) : height (p0, p1, p3) x = 0 := by
  obtain ⟨h1, h3⟩ := corner_heights p0 p1 p3
  rcases hx with hx | hx
  · exact height_self hx
  · obtain ⟨u, v, w, -, -, -, -, e⟩ := height_point (p0, p1, p3) hx
    rw [e, h1, h2, h3]
    ring

/-- A quadrilateral whose diagonals meet is plane. -/
theorem diagonals_plane {p0 p1 p2 p3 : Pt ℝ} (h : DiagonalsMeet p0 p1 p2 p3) (hn : normalOf (p0, p1, p3) ≠ 0) :
    height (p0, p1, p3) p2 = 0 := by
  obtain ⟨h1, h3⟩ := corner_heights p0 p1 p3
  obtain ⟨m, hm1, hm2⟩ := h
  obtain ⟨a, a0, a1, e1⟩ := mem_segment_iff.1 hm1
  obtain ⟨b, b0, b1, e2⟩ := mem_segment_iff.1 hm2
  have ha : a ≠ 0 := by
    rintro rfl
    apply hn
    have : p0 = p1 + b • (p3 - p1) := by rw [← e2, e1]; simp
    unfold normalOf
    simp only
    rw [this]
    refine pt_ext ?_ ?_ ?_ <;> simp only [cross_eq, Matrix.cons_val, Pi.sub_apply, Pi.add_apply,
      Pi.smul_apply, smul_eq_mul, Pi.zero_apply] <;> ring
  have hm : height (p0, p1, p3) m = a * height (p0, p1, p3) p2 := by
    rw [e1]
    simp only [height, dot, Pi.add_apply, Pi.smul_apply, Pi.sub_apply, smul_eq_mul]
    ring
  have hm' : height (p0, p1, p3) m = (1 - b) * height (p0, p1, p3) p1 + b * height (p0, p1, p3) p3 := by
    rw [e2]
    simp only [height, dot, Pi.add_apply, Pi.smul_apply, Pi.sub_apply, smul_eq_mul]
    ring
  rw [hm', h1, h3, mul_zero, mul_zero, add_zero] at hm
  exact (mul_eq_zero.1 hm.symm).resolve_left ha

theorem convex_pointsOf (t : Triangle) : Convex ℝ (pointsOf t) := by
  rintro x ⟨a, b, ha, hb, hab, e1⟩ y ⟨c, d, hc, hd, hcd, e2⟩ s r hs hr hsr
  refine ⟨s * a + r * c, s * b + r * d, by positivity, by positivity, ?_, ?_⟩
  · have h1 := mul_le_mul_of_nonneg_left hab hs
    have h2 := mul_le_mul_of_nonneg_left hcd hr
    linarith
  · have : s = 1 - r := by linarith
    subst this
    rw [e1, e2]
    module

/-- A convex quadrilateral is the union of its two triangles. -/
theorem quad_eq {p0 p1 p2 p3 : Pt ℝ} (h : DiagonalsMeet p0 p1 p2 p3) :
    convexHull ℝ {p0, p1, p2, p3} = pointsOf (p0, p1, p3) ∪ pointsOf (p1, p2, p3) := by
  have a1 : p0 ∈ pointsOf (p0, p1, p3) := ⟨0, 0, le_rfl, le_rfl, by norm_num, by simp⟩
  have a2 : p1 ∈ pointsOf (p0, p1, p3) := ⟨1, 0, by norm_num, le_rfl, by norm_num, by simp⟩
  have a3 : p3 ∈ pointsOf (p0, p1, p3) := ⟨0, 1, le_rfl, by norm_num, by norm_num, by simp⟩
  have b1 : p1 ∈ pointsOf (p1, p2, p3) := ⟨0, 0, le_rfl, le_rfl, by norm_num, by simp⟩
  have b2 : p2 ∈ pointsOf (p1, p2, p3) := ⟨1, 0, by norm_num, le_rfl, by norm_num, by simp⟩
  have b3 : p3 ∈ pointsOf (p1, p2, p3) := ⟨0, 1, le_rfl, by norm_num, by norm_num, by simp⟩
  apply Set.Subset.antisymm
  · rw [show ({p0, p1, p2, p3} : Set (Pt ℝ)) = {p0, p2, p1, p3} by
      ext; simp only [Set.mem_insert_iff, Set.mem_singleton_iff]; tauto, ← convexJoin_segments]
    intro z hz
    obtain ⟨x, hx, y, hy, hz⟩ := mem_convexJoin.1 hz
    obtain ⟨m, hm1, hm2⟩ := h
    have y1 := (convex_pointsOf (p0, p1, p3)).segment_subset a2 a3 hy
    have y2 := (convex_pointsOf (p1, p2, p3)).segment_subset b1 b3 hy
    have m1 := (convex_pointsOf (p0, p1, p3)).segment_subset a2 a3 hm2
    have m2 := (convex_pointsOf (p1, p2, p3)).segment_subset b1 b3 hm2
    obtain ⟨s, s0, s1, rfl⟩ := mem_segment_iff.1 hx
    obtain ⟨r, r0, r1, rfl⟩ := mem_segment_iff.1 hm1
    rcases le_total s r with hsr | hsr
    · left
      refine (convex_pointsOf (p0, p1, p3)).segment_subset ?_ y1 hz
      refine (convex_pointsOf (p0, p1, p3)).segment_subset a1 m1 ?_
      rcases r0.eq_or_lt with h0 | h0
      · have : s = 0 := le_antisymm (h0 ▸ hsr) s0
        rw [this, zero_smul, add_zero]
        exact left_mem_segment ℝ _ _
      · refine mem_segment_iff.2 ⟨s / r, by positivity, (div_le_one h0).2 hsr, ?_⟩
        rw [add_sub_cancel_left, smul_smul, div_mul_cancel₀ _ h0.ne']
    · right
      refine (convex_pointsOf (p1, p2, p3)).segment_subset ?_ y2 hz
      refine (convex_pointsOf (p1, p2, p3)).segment_subset b2 m2 ?_
      rcases r1.eq_or_lt with h0 | h0
      · have : s = 1 := le_antisymm s1 (h0 ▸ hsr)
        rw [this, one_smul, add_sub_cancel]
        exact left_mem_segment ℝ _ _
      · have hr : 0 < 1 - r := by linarith
        refine mem_segment_iff.2 ⟨(1 - s) / (1 - r), div_nonneg (by linarith) hr.le,
          (div_le_one hr).2 (by linarith), ?_⟩
        rw [show p0 + r • (p2 - p0) - p2 = (1 - r) • (p0 - p2) by module, smul_smul,
          div_mul_cancel₀ _ hr.ne']
        module
  · have c := convex_convexHull ℝ ({p0, p1, p2, p3} : Set (Pt ℝ))
    have sub := subset_convexHull ℝ ({p0, p1, p2, p3} : Set (Pt ℝ))
    have tri : ∀ {a b c' : Pt ℝ}, a ∈ convexHull ℝ ({p0, p1, p2, p3} : Set (Pt ℝ)) →
        b ∈ convexHull ℝ ({p0, p1, p2, p3} : Set (Pt ℝ)) → c' ∈ convexHull ℝ ({p0, p1, p2, p3} : Set (Pt ℝ)) →
        pointsOf (a, b, c') ⊆ convexHull ℝ ({p0, p1, p2, p3} : Set (Pt ℝ)) := by
      rintro a b c' ha hb hc x ⟨u, v, hu, hv, huv, rfl⟩
      have h1 : a + (u + v) • (a - a) = a := by simp
      rcases huv.eq_or_lt with h | h
      · have := c hb hc hu hv h
        rw [show a + u • (b - a) + v • (c' - a) = (1 - (u + v)) • a + u • b + v • c' by module, h]
        simpa using this
      · have hw : 0 < 1 - u := by linarith
        have k1 := c ha hc (a := (1 - u - v) / (1 - u)) (b := v / (1 - u)) (div_nonneg (by linarith) hw.le)
          (by positivity) (by field_simp; ring)
        have k2 := c k1 hb hw.le hu (by ring)
        rw [smul_add, smul_smul, smul_smul, mul_div_cancel₀ _ hw.ne', mul_div_cancel₀ _ hw.ne'] at k2
        rw [show a + u • (b - a) + v • (c' - a) = (1 - u - v) • a + v • c' + u • b by module]
        exact k2
    rintro x (hx | hx)
    · exact tri (sub (by simp)) (sub (by simp)) (sub (by simp)) hx
    · exact tri (sub (by simp)) (sub (by simp)) (sub (by simp)) hx

end Verif.Geometry
