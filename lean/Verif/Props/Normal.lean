/-
C55 outward normals of facets.
-/
import Verif.Lemmas.Normal

namespace Verif.Normal
open MeshBuild MeshGraph Trace MeshMetrics Geometry
open scoped Classical

/-- C55, end points of a segment. -/
theorem C55_vertex {points : Points ℝ} {c0 c1 : Cell} {X : Nat → Pt ℝ} {o a : Nat}
    (h0 : c0.nodeTags.Perm [o, a]) (h1 : c1.nodeTags = [a]) (hd : c1.dimension = 0)
    (hX : ∀ t ∈ [o, a], points[t]? = some (X t)) (hne : X o ≠ X a) :
    ∃ n, normal points c0 c1 = .ok (some n) ∧ OutwardNormal n [X a] (X o) := by
  have e1 := centroid_spec (c := c1) (X := X) (points := points) (tags := [a])
    (fun t ht => hX t (by rw [h1] at ht; simp at ht ⊢; exact Or.inr ht)) (by simp [h1]) (by rw [h1])
  have e0 := centroid_spec (c := c0) (X := X) (points := points)
    (fun t ht => hX t (h0.mem_iff.1 ht)) (by rintro h; rw [h] at h0; simpa using h0.length_eq) h0
  have hd1 : ((fun k => (([a].map fun t => X t k).sum / ([a].length : ℕ) : ℝ)) -
      fun k => (([o, a].map fun t => X t k).sum / ([o, a].length : ℕ) : ℝ)) =
      (1 / 2 : ℝ) • (X a - X o) := by
    funext k; simp; ring
  have hd0 : (1 / 2 : ℝ) • (X a - X o) ≠ 0 :=
    smul_ne_zero (by norm_num) (sub_ne_zero.2 hne.symm)
  generalize hdd : (1 / 2 : ℝ) • (X a - X o) = d at *
  obtain ⟨u, eu, u1, hu, hr⟩ := unit_spec hd0
  generalize norm3 d = r at *
  obtain ⟨u', eu', -, hu', -⟩ := unit_spec (v := u) (by rintro rfl; simp [norm3_zero] at u1)
  rw [u1, one_smul] at hu'
  subst hu'
  refine ⟨u, ?_, ⟨u1, ?_, ?_, ?_⟩⟩
  · unfold normal rawNormal
    simp only [e1, e0, Res.bind_ok, hd, hd1, eu, Option.bind_some, eu', Res.pure_eq]
    rw [if_neg]
    rw [dot_unit u1]; norm_num
  · intro x hx y hy
    simp only [List.mem_singleton] at hx hy
    subst hx; subst hy; simp [dot]
  · have : u = r⁻¹ • d := by rw [hu, smul_smul, inv_mul_cancel₀ hr.ne', one_smul]
    rw [this, ← hdd]
    exact Submodule.smul_mem _ _ (Submodule.smul_mem _ _ (Submodule.subset_span ⟨_, by simp, rfl⟩))
  · intro x hx
    simp only [List.mem_singleton] at hx
    subst hx
    have e : X o - X a = (-2 * r) • u := by
      rw [mul_smul, ← hu, ← hdd, smul_smul]
      norm_num
    rw [e]
    have : dot u ((-2 * r) • u) = -2 * r * dot u u := by
      simp only [dot, Pi.smul_apply, smul_eq_mul]; ring
    rw [this, dot_unit u1]
    linarith

/-- C55, sides of a triangle. -/
theorem C55_edge {points : Points ℝ} {c0 c1 : Cell} {X : Nat → Pt ℝ} {o a b : Nat}
    (h0 : c0.nodeTags.Perm [o, a, b]) (h1 : c1.nodeTags = [a, b]) (hd : c1.dimension = 1)
    (hX : ∀ t ∈ [o, a, b], points[t]? = some (X t))
    (hne : cross (X b - X a) (X o - X a) ≠ 0) :
    ∃ n, normal points c0 c1 = .ok (some n) ∧ OutwardNormal n [X a, X b] (X o) := by
  have e1 := centroid_spec (c := c1) (X := X) (points := points) (tags := [a, b])
    (fun t ht => hX t (by rw [h1] at ht; exact List.mem_cons_of_mem _ ht)) (by simp [h1])
    (by rw [h1])
  have e0 := centroid_spec (c := c0) (X := X) (points := points)
    (fun t ht => hX t (h0.mem_iff.1 ht)) (by rintro h; rw [h] at h0; simpa using h0.length_eq) h0
  have hd1 : ((fun k => (([a, b].map fun t => X t k).sum / ([a, b].length : ℕ) : ℝ)) -
      fun k => (([o, a, b].map fun t => X t k).sum / ([o, a, b].length : ℕ) : ℝ)) =
      (1 / 6 : ℝ) • ((X a - X o) + (X b - X o)) := by
    funext k; simp; ring
  have g0 : nodePoint points c1 0 = .ok (X a) := nodePoint_of (by rw [h1]; rfl) (hX a (by simp))
  have g1 : nodePoint points c1 1 = .ok (X b) := nodePoint_of (by rw [h1]; rfl) (hX b (by simp))
  generalize hA : X a = A at *
  generalize hB : X b = B at *
  generalize hO : X o = O at *
  generalize hdd : (1 / 6 : ℝ) • ((A - O) + (B - O)) = d at *
  have hc : cross (B - A) d = (-(1 / 3) : ℝ) • cross (B - A) (O - A) := by
    rw [← hdd]
    refine pt_ext ?_ ?_ ?_ <;>
    simp only [cross_0, cross_1, cross_2, Pi.smul_apply, Pi.add_apply, Pi.sub_apply,
      smul_eq_mul] <;> ring
  have hc0 : cross (B - A) d ≠ 0 := by rw [hc]; exact smul_ne_zero (by norm_num) hne
  have hBA : B - A ≠ 0 := by
    intro h; apply hc0; rw [h]
    refine pt_ext ?_ ?_ ?_ <;> simp
  have hd0 : d ≠ 0 := by
    intro h; apply hc0; rw [h]
    refine pt_ext ?_ ?_ ?_ <;> simp
  obtain ⟨v, ev, v1, hv, hs⟩ := unit_spec hBA
  obtain ⟨u, eu, u1, hu, hr⟩ := unit_spec hd0
  generalize norm3 (B - A) = s at *
  generalize norm3 d = r at *
  have hvu : cross v u ≠ 0 := by
    intro h
    apply hc0
    rw [hv, hu]
    have : cross (s • v) (r • u) = (s * r) • cross v u := by
      refine pt_ext ?_ ?_ ?_ <;>
      simp only [cross_0, cross_1, cross_2, Pi.smul_apply, smul_eq_mul] <;> ring
    rw [this, h, smul_zero]
  obtain ⟨w, ew, w1, hw, ht⟩ := unit_spec hvu
  generalize norm3 (cross v u) = t at *
  have w0 : w = t⁻¹ • cross v u := by rw [hw, smul_smul, inv_mul_cancel₀ ht.ne', one_smul]
  have dvv := dot_unit v1
  have dww := dot_unit w1
  have hdot : dot (cross v w) u = -t := by
    have h1 : dot (cross v w) u = -dot w (cross v u) := by
      simp only [dot, cross_0, cross_1, cross_2]; ring
    have h2 : dot w (t • w) = t * dot w w := by
      simp only [dot, Pi.smul_apply, smul_eq_mul]; ring
    rw [h1, hw, h2, dww, mul_one]
  have hvw : dot v w = 0 := by
    have h1 : dot v (t • w) = 0 := by rw [← hw]; simp only [dot, cross_0, cross_1, cross_2]; ring
    have h2 : dot v (t • w) = t * dot v w := by
      simp only [dot, Pi.smul_apply, smul_eq_mul]; ring
    rw [h2] at h1
    exact (mul_eq_zero.1 h1).resolve_left ht.ne'
  have nn : norm3 (-cross v w) = 1 := by
    refine norm3_of_dot ?_
    have : dot (-cross v w) (-cross v w) = dot v v * dot w w - dot v w * dot v w := by
      simp only [dot, Pi.neg_apply, cross_0, cross_1, cross_2]; ring
    rw [this, dvv, dww, hvw]; norm_num
  have nv : dot (-cross v w) v = 0 := by
    simp only [dot, Pi.neg_apply, cross_0, cross_1, cross_2]; ring
  have nu : dot (-cross v w) u = t := by
    have : dot (-cross v w) u = -dot (cross v w) u := by
      simp only [dot, Pi.neg_apply]; ring
    rw [this, hdot, neg_neg]
  have lin : ∀ (n x y : Pt ℝ) (α β : ℝ), dot n (α • x + β • y) = α * dot n x + β * dot n y := by
    intro n x y α β
    simp only [dot, Pi.add_apply, Pi.smul_apply, smul_eq_mul]; ring
  refine ⟨-cross v w, ?_, ⟨nn, ?_, ?_, ?_⟩⟩
  · unfold normal rawNormal
    simp only [e1, e0, Res.bind_ok, hd, hd1, eu, Option.bind_some, g0, g1, ev, ew, Option.map_some,
      Res.pure_eq]
    rw [if_pos]
    rw [hdot]; linarith
  · have key : dot (-cross v w) (B - A) = 0 := by
      rw [hv]
      have := lin (-cross v w) v v s 0
      rw [zero_smul, add_zero, nv] at this
      rw [this]; ring
    intro x hx y hy
    simp only [List.mem_cons, List.not_mem_nil, or_false] at hx hy
    rcases hx with rfl | rfl <;> rcases hy with rfl | rfl
    · simp [dot]
    · have : dot (-cross v w) (x - y) = -dot (-cross v w) (y - x) := by simp only [dot, Pi.sub_apply]; ring
      rw [this, key, neg_zero]
    · exact key
    · simp [dot]
  · -- `n = (u - (v · u) v) / t`
    have hn : -cross v w = t⁻¹ • (u - dot v u • v) := by
      rw [w0]
      have : u - dot v u • v = dot v v • u - dot v u • v := by rw [dvv, one_smul]
      rw [this]
      refine pt_ext ?_ ?_ ?_ <;>
      simp only [dot, cross_0, cross_1, cross_2, Pi.smul_apply, Pi.sub_apply, Pi.neg_apply,
        smul_eq_mul] <;> ring
    have hA' : A - O ∈ Submodule.span ℝ {v | ∃ x ∈ [A, B], v = x - O} :=
      Submodule.subset_span ⟨A, by simp, rfl⟩
    have hB' : B - O ∈ Submodule.span ℝ {v | ∃ x ∈ [A, B], v = x - O} :=
      Submodule.subset_span ⟨B, by simp, rfl⟩
    have hu' : u ∈ Submodule.span ℝ {v | ∃ x ∈ [A, B], v = x - O} := by
      have : u = r⁻¹ • d := by rw [hu, smul_smul, inv_mul_cancel₀ hr.ne', one_smul]
      rw [this, ← hdd]
      exact Submodule.smul_mem _ _ (Submodule.smul_mem _ _ (Submodule.add_mem _ hA' hB'))
    have hv' : v ∈ Submodule.span ℝ {v | ∃ x ∈ [A, B], v = x - O} := by
      have : v = s⁻¹ • ((B - O) - (A - O)) := by
        rw [sub_sub_sub_cancel_right, hv, smul_smul, inv_mul_cancel₀ hs.ne', one_smul]
      rw [this]
      exact Submodule.smul_mem _ _ (Submodule.sub_mem _ hB' hA')
    rw [hn]
    exact Submodule.smul_mem _ _ (Submodule.sub_mem _ hu' (Submodule.smul_mem _ _ hv'))
  · have key : ∀ z : ℝ, dot (-cross v w) ((z * s) • v + (-3 * r) • u) = -3 * r * t := by
      intro z; rw [lin, nv, nu]; ring
    have hpos : -3 * r * t < 0 := by nlinarith [mul_pos hr ht]
    intro x hx
    simp only [List.mem_cons, List.not_mem_nil, or_false] at hx
    rcases hx with rfl | rfl
    · have : O - x = ((1 / 2) * s) • v + (-3 * r) • u := by
        rw [mul_smul, mul_smul, ← hv, ← hu, ← hdd]
        refine pt_ext ?_ ?_ ?_ <;>
        simp only [Pi.smul_apply, Pi.add_apply, Pi.sub_apply, smul_eq_mul] <;> ring
      rw [this, key]; exact hpos
    · have : O - x = (-(1 / 2) * s) • v + (-3 * r) • u := by
        rw [mul_smul, mul_smul, ← hv, ← hu, ← hdd]
        refine pt_ext ?_ ?_ ?_ <;>
        simp only [Pi.smul_apply, Pi.add_apply, Pi.sub_apply, smul_eq_mul] <;> ring
      rw [this, key]; exact hpos

/-- C55, faces of a tetrahedron. -/
theorem C55_face {points : Points ℝ} {c0 c1 : Cell} {X : Nat → Pt ℝ} {o a b c : Nat}
    (h0 : c0.nodeTags.Perm [o, a, b, c]) (h1 : c1.nodeTags = [a, b, c]) (hd : c1.dimension = 2)
    (hX : ∀ t ∈ [o, a, b, c], points[t]? = some (X t))
    (hne : dot (cross (X b - X a) (X c - X a)) (X o - X a) ≠ 0) :
    ∃ n, normal points c0 c1 = .ok (some n) ∧ OutwardNormal n [X a, X b, X c] (X o) := by
  have e1 := centroid_spec (c := c1) (X := X) (points := points) (tags := [a, b, c])
    (fun t ht => hX t (by rw [h1] at ht; exact List.mem_cons_of_mem _ ht)) (by simp [h1])
    (by rw [h1])
  have e0 := centroid_spec (c := c0) (X := X) (points := points)
    (fun t ht => hX t (h0.mem_iff.1 ht)) (by rintro h; rw [h] at h0; simpa using h0.length_eq) h0
  have hd1 : ((fun k => (([a, b, c].map fun t => X t k).sum / ([a, b, c].length : ℕ) : ℝ)) -
      fun k => (([o, a, b, c].map fun t => X t k).sum / ([o, a, b, c].length : ℕ) : ℝ)) =
      (1 / 12 : ℝ) • ((X a - X o) + (X b - X o) + (X c - X o)) := by
    funext k; simp; ring
  have hx1 : (fun k => (([a, b, c].map fun t => X t k).sum / ([a, b, c].length : ℕ) : ℝ)) =
      (1 / 3 : ℝ) • (X a + X b + X c) := by
    funext k; simp; ring
  have g0 : nodePoint points c1 0 = .ok (X a) := nodePoint_of (by rw [h1]; rfl) (hX a (by simp))
  have g1 : nodePoint points c1 1 = .ok (X b) := nodePoint_of (by rw [h1]; rfl) (hX b (by simp))
  rw [hx1] at hd1 e1
  generalize hA : X a = A at *
  generalize hB : X b = B at *
  generalize hC : X c = C at *
  generalize hO : X o = O at *
  generalize hdd : (1 / 12 : ℝ) • ((A - O) + (B - O) + (C - O)) = d at *
  have hcr : cross (A - (1 / 3 : ℝ) • (A + B + C)) (B - (1 / 3 : ℝ) • (A + B + C)) =
      (1 / 3 : ℝ) • cross (B - A) (C - A) := by
    refine pt_ext ?_ ?_ ?_ <;>
    simp only [cross_0, cross_1, cross_2, Pi.smul_apply, Pi.add_apply, Pi.sub_apply,
      smul_eq_mul] <;> ring
  have hN : cross (B - A) (C - A) ≠ 0 := by
    intro h; apply hne; rw [h]; simp [dot]
  have hcd : dot (cross (B - A) (C - A)) d = -(1 / 4) * dot (cross (B - A) (C - A)) (O - A) := by
    rw [← hdd]
    simp only [dot, cross_0, cross_1, cross_2, Pi.smul_apply, Pi.add_apply, Pi.sub_apply,
      smul_eq_mul]
    ring
  have hd0 : d ≠ 0 := by
    intro h
    rw [h] at hcd
    have : dot (cross (B - A) (C - A)) 0 = 0 := by simp [dot]
    rw [this] at hcd
    apply hne; linarith
  obtain ⟨w, ew, w1, hw, ht⟩ := unit_spec (v := (1 / 3 : ℝ) • cross (B - A) (C - A))
    (smul_ne_zero (by norm_num) hN)
  obtain ⟨u, eu, u1, hu, hr⟩ := unit_spec hd0
  generalize norm3 d = r at *
  generalize norm3 ((1 / 3 : ℝ) • cross (B - A) (C - A)) = t at *
  have hcw : cross (B - A) (C - A) = (3 * t) • w := by
    have : cross (B - A) (C - A) = (3 : ℝ) • (1 / 3 : ℝ) • cross (B - A) (C - A) := by
      rw [smul_smul]; norm_num
    rw [this, hw, smul_smul]
  have lin : ∀ (n x : Pt ℝ) (α β : ℝ), dot (α • n) (β • x) = α * β * dot n x := by
    intro n x α β
    simp only [dot, Pi.smul_apply, smul_eq_mul]; ring
  have hwu : dot w u ≠ 0 := by
    intro h
    have : dot (cross (B - A) (C - A)) d = 3 * t * r * dot w u := by rw [hcw, hu, lin]
    rw [this, h] at hcd
    apply hne; linarith
  -- the direction with the right sign
  obtain ⟨σ, hσ, n, hn, hres⟩ : ∃ σ : ℝ, (σ = 1 ∨ σ = -1) ∧ ∃ n, n = σ • w ∧
      (if dot w u < 0 then -w else w) = n ∧ 0 < dot n u := by
    by_cases h : dot w u < 0
    · refine ⟨-1, Or.inr rfl, -w, by simp, if_pos h, ?_⟩
      have : dot (-w) u = -dot w u := by simp only [dot, Pi.neg_apply]; ring
      rw [this]; linarith
    · exact ⟨1, Or.inl rfl, w, by simp, if_neg h, lt_of_le_of_ne (not_lt.1 h) hwu.symm⟩
  obtain ⟨hif, hpos⟩ := hres
  have hσ2 : σ * σ = 1 := by rcases hσ with rfl | rfl <;> norm_num
  have nw : ∀ x, dot n x * (3 * t) = σ * dot (cross (B - A) (C - A)) x := by
    intro x
    rw [hn, hcw]
    simp only [dot, Pi.smul_apply, smul_eq_mul]; ring
  have t3 : (3 * t) ≠ 0 := by positivity
  have nAB : dot n (B - A) = 0 := by
    have := nw (B - A)
    rw [show dot (cross (B - A) (C - A)) (B - A) = 0 by
      simp only [dot, cross_0, cross_1, cross_2]; ring, mul_zero] at this
    exact (mul_eq_zero.1 this).resolve_right t3
  have nAC : dot n (C - A) = 0 := by
    have := nw (C - A)
    rw [show dot (cross (B - A) (C - A)) (C - A) = 0 by
      simp only [dot, cross_0, cross_1, cross_2]; ring, mul_zero] at this
    exact (mul_eq_zero.1 this).resolve_right t3
  refine ⟨n, ?_, ⟨?_, ?_, ?_, ?_⟩⟩
  · unfold normal rawNormal
    simp only [e1, e0, Res.bind_ok, hd, hd1, eu, g0, g1, hcr, ew, Res.pure_eq]
    rw [hif]
  · refine norm3_of_dot ?_
    rw [hn, lin, hσ2, one_mul, dot_unit w1]
  · have flat : ∀ x ∈ [A, B, C], dot n x = dot n A := by
      intro x hx
      simp only [List.mem_cons, List.not_mem_nil, or_false] at hx
      have sub : ∀ y : Pt ℝ, dot n (y - A) = dot n y - dot n A := by
        intro y; simp only [dot, Pi.sub_apply]; ring
      rw [sub] at nAB nAC
      rcases hx with rfl | rfl | rfl
      · rfl
      · linarith
      · linarith
    intro x hx y hy
    have : dot n (x - y) = dot n x - dot n y := by simp only [dot, Pi.sub_apply]; ring
    rw [this, flat x hx, flat y hy, sub_self]
  · -- the three edges at `O` span the space
    generalize hp : A - O = p
    generalize hq : B - O = q
    generalize hs : C - O = s
    have hD : dot p (cross q s) ≠ 0 := by
      have : dot p (cross q s) = -dot (cross (B - A) (C - A)) (O - A) := by
        rw [← hp, ← hq, ← hs]
        simp only [dot, cross_0, cross_1, cross_2, Pi.sub_apply]; ring
      rw [this]; exact neg_ne_zero.2 hne
    have key : n = (dot n (cross q s) / dot p (cross q s)) • p +
        (dot n (cross s p) / dot p (cross q s)) • q +
        (dot n (cross p q) / dot p (cross q s)) • s := by
      have frac : ∀ {D U V W x y z w : ℝ}, D ≠ 0 → D * x = U * y + V * z + W * w →
          x = U / D * y + V / D * z + W / D * w := by
        intro D U V W x y z w h0 h
        field_simp
        linarith
      refine pt_ext ?_ ?_ ?_ <;>
      · simp only [Pi.add_apply, Pi.smul_apply, smul_eq_mul]
        refine frac hD ?_
        simp only [dot, cross_0, cross_1, cross_2]
        ring
    rw [key]
    refine Submodule.add_mem _ (Submodule.add_mem _ ?_ ?_) ?_
    · exact Submodule.smul_mem _ _ (Submodule.subset_span ⟨A, by simp, hp.symm⟩)
    · exact Submodule.smul_mem _ _ (Submodule.subset_span ⟨B, by simp, hq.symm⟩)
    · exact Submodule.smul_mem _ _ (Submodule.subset_span ⟨C, by simp, hs.symm⟩)
  · have base : dot n (O - A) < 0 := by
      have h1 : dot n d = r * dot n u := by
        rw [hu]; simp only [dot, Pi.smul_apply, smul_eq_mul]; ring
      have h2 : dot n d = -(1 / 4) * dot n (O - A) + (1 / 12) * (dot n (B - A) + dot n (C - A)) := by
        rw [← hdd]
        simp only [dot, Pi.smul_apply, Pi.add_apply, Pi.sub_apply, smul_eq_mul]; ring
      rw [nAB, nAC] at h2
      nlinarith [mul_pos hr hpos]
    intro x hx
    simp only [List.mem_cons, List.not_mem_nil, or_false] at hx
    have split : ∀ y, dot n (O - y) = dot n (O - A) - dot n (y - A) := by
      intro y; simp only [dot, Pi.sub_apply]; ring
    rcases hx with rfl | rfl | rfl
    · exact base
    · rw [split, nAB, sub_zero]; exact base
    · rw [split, nAC, sub_zero]; exact base

/-- No point of the simplex is in front of the facet. -/
theorem C55_convex {n o : Pt ℝ} {facet : List (Pt ℝ)} (h : OutwardNormal n facet o) {x : Pt ℝ}
    (hx : x ∈ facet) {y : Pt ℝ} (hy : y ∈ convexHull ℝ {z | z = o ∨ z ∈ facet}) :
    dot n (y - x) ≤ 0 := by
  have hconv : Convex ℝ {z : Pt ℝ | dot n (z - x) ≤ 0} := by
    intro u hu v hv a b ha hb hab
    simp only [Set.mem_setOf_eq] at *
    have hb' : b = 1 - a := by linarith
    have : dot n (a • u + b • v - x) = a * dot n (u - x) + b * dot n (v - x) := by
      subst hb'
      simp only [dot, Pi.sub_apply, Pi.add_apply, Pi.smul_apply, smul_eq_mul]; ring
    rw [this]
    nlinarith [mul_nonneg ha (neg_nonneg.2 hu), mul_nonneg hb (neg_nonneg.2 hv)]
  refine convexHull_min ?_ hconv hy
  rintro z (rfl | hz)
  · exact (h.away x hx).le
  · exact (h.orthogonal z hz x hx).le

/-- The conditions determine the normal. -/
theorem C55_unique {n n' o : Pt ℝ} {facet : List (Pt ℝ)} (hne : facet ≠ [])
    (h : OutwardNormal n facet o) (h' : OutwardNormal n' facet o) : n = n' := by
  obtain ⟨x, hx⟩ := List.exists_mem_of_ne_nil _ hne
  -- the difference of the normals, scaled so that it is orthogonal to `o - x` as well
  set α := dot n (o - x) with hα
  set β := dot n' (o - x) with hβ
  have ha : α < 0 := h.away x hx
  have hb : β < 0 := h'.away x hx
  have lin : ∀ y : Pt ℝ, dot (β • n - α • n') y = β * dot n y - α * dot n' y := by
    intro y; simp only [dot, Pi.sub_apply, Pi.smul_apply, smul_eq_mul]; ring
  have orth : ∀ y ∈ Submodule.span ℝ {v | ∃ x ∈ facet, v = x - o},
      dot (β • n - α • n') y = 0 := by
    intro y hy
    induction hy using Submodule.span_induction with
    | mem y hy =>
      obtain ⟨z, hz, rfl⟩ := hy
      have sub : ∀ m : Pt ℝ, dot m (z - o) = dot m (z - x) - dot m (o - x) := by
        intro m; simp only [dot, Pi.sub_apply]; ring
      rw [lin, sub, sub, h.orthogonal z hz x hx, h'.orthogonal z hz x hx, ← hα, ← hβ]
      ring
    | zero => simp [dot]
    | add y z _ _ hy hz =>
      have : ∀ m : Pt ℝ, dot m (y + z) = dot m y + dot m z := by
        intro m; simp only [dot, Pi.add_apply]; ring
      rw [this, hy, hz, add_zero]
    | smul a y _ hy =>
      have : ∀ m : Pt ℝ, dot m (a • y) = a * dot m y := by
        intro m; simp only [dot, Pi.smul_apply, smul_eq_mul]; ring
      rw [this, hy, mul_zero]
  have hz : β • n - α • n' = 0 := by
    refine dot_self_eq_zero.1 (orth _ ?_)
    exact Submodule.sub_mem _ (Submodule.smul_mem _ _ h.span) (Submodule.smul_mem _ _ h'.span)
  have hz := sub_eq_zero.1 hz
  have hab : α = β := by
    have h1 := congrArg norm3 hz
    rw [norm3_smul, norm3_smul, h.unit, h'.unit, abs_of_neg hb, abs_of_neg ha] at h1
    linarith
  rw [hab] at hz
  exact smul_right_injective _ hb.ne hz

/-- A facet whose centroid is that of the cell has no usable direction: vertices and edges give
`nan`.  Facets of dimension three or more are an error. -/
theorem C55_degenerate {points : Points ℝ} {c0 c1 : Cell} {x : Pt ℝ}
    (h1 : cellCentroid points c1 = .ok x) (h0 : cellCentroid points c0 = .ok x) :
    (c1.dimension = 0 → normal points c0 c1 = .ok none) ∧
    (∀ p q, c1.dimension = 1 → nodePoint points c1 0 = .ok p → nodePoint points c1 1 = .ok q →
      normal points c0 c1 = .ok none) ∧
    (3 ≤ c1.dimension → normal points c0 c1 = .error .nameError) := by
  refine ⟨fun hd => ?_, fun p q hd hp hq => ?_, fun hd => ?_⟩
  · unfold normal rawNormal
    simp [h1, h0, hd, unit_zero]
  · unfold normal rawNormal
    simp only [h1, h0, hd, hp, hq, sub_self, unit_zero, Res.bind_ok, Res.pure_eq]
    cases unit (q - p) <;> rfl
  · unfold normal rawNormal
    obtain ⟨k, hk⟩ := Nat.exists_eq_add_of_le hd
    rw [show c1.dimension = k + 3 by omega]
    simp [h1, h0]

/-- The second end of a segment. -/
example : ∃ n, normal [![0, 0, 0], ![2, 0, 0]] ⟨1, 2, none, [0, 1], [[], []]⟩
    ⟨0, 1, none, [1], [[]]⟩ = .ok (some n) ∧ OutwardNormal n [![2, 0, 0]] ![0, 0, 0] := by
  refine C55_vertex (X := fun t => match t with | 0 => ![0, 0, 0] | _ => ![2, 0, 0])
    (o := 0) (a := 1) (List.Perm.refl _) rfl rfl ?_ ?_
  · intro t ht
    simp only [List.mem_cons, List.not_mem_nil, or_false] at ht
    rcases ht with rfl | rfl <;> rfl
  · intro h
    have := congrFun h 0
    simp at this

/-- The side from (1, 0) to (0, 1) of the unit triangle. -/
example : ∃ n, normal [![0, 0, 0], ![1, 0, 0], ![0, 1, 0]] ⟨2, 6, none, [0, 1, 2], [[], [], []]⟩
    ⟨1, 4, none, [1, 2], [[], []]⟩ = .ok (some n) ∧
    OutwardNormal n [![1, 0, 0], ![0, 1, 0]] ![0, 0, 0] := by
  refine C55_edge (X := fun t => match t with
    | 0 => ![0, 0, 0] | 1 => ![1, 0, 0] | _ => ![0, 1, 0]) (o := 0) (a := 1) (b := 2)
    (List.Perm.refl _) rfl rfl ?_ ?_
  · intro t ht
    simp only [List.mem_cons, List.not_mem_nil, or_false] at ht
    rcases ht with rfl | rfl | rfl <;> rfl
  · intro h
    have := congrFun h 2
    simp at this

/-- The face of the unit tetrahedron opposite to the origin. -/
example : ∃ n, normal [![0, 0, 0], ![1, 0, 0], ![0, 1, 0], ![0, 0, 1]]
    ⟨3, 14, none, [0, 1, 2, 3], [[], [], [], []]⟩ ⟨2, 13, none, [1, 2, 3], [[], [], []]⟩ =
    .ok (some n) ∧ OutwardNormal n [![1, 0, 0], ![0, 1, 0], ![0, 0, 1]] ![0, 0, 0] := by
  refine C55_face (X := fun t => match t with
    | 0 => ![0, 0, 0] | 1 => ![1, 0, 0] | 2 => ![0, 1, 0] | _ => ![0, 0, 1])
    (o := 0) (a := 1) (b := 2) (c := 3) (List.Perm.refl _) rfl rfl ?_ ?_
  · intro t ht
    simp only [List.mem_cons, List.not_mem_nil, or_false] at ht
    rcases ht with rfl | rfl | rfl | rfl <;> rfl
  · simp [dot]

#print axioms C55_vertex
#print axioms C55_edge
#print axioms C55_face
#print axioms C55_convex
#print axioms C55_unique
#print axioms C55_degenerate

end Verif.Normal
