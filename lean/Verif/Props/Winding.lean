/-
C95: the winding number that decides which triangles of a polygon that is not convex are kept.
-/
import Verif.Lemmas.Polygon

namespace Verif.Polygon
open Real

/-- The program computes the winding number of the closed polygon, although it leaves the closing edge out. -/
theorem C95_winding {p : ℂ} {polygon : List ℂ} {W : ℤ} (h : Winding p polygon W) :
    windingNumber p polygon = W := by
  obtain ⟨t, θ, h1, h2⟩ := h
  rw [List.isChain_append] at h2
  have hl := h2.2.2 ((t :: θ).getLast (List.cons_ne_nil _ _)) (List.getLast?_eq_some_getLast _) _ rfl
  unfold windingNumber
  rw [sum_of_directions h1 h2.1]
  refine pyRound_near ?_
  have hpi := Real.pi_pos
  rw [abs_lt] at hl ⊢
  constructor
  · rw [lt_sub_iff_add_lt, lt_div_iff₀ (by linarith)]
    linarith
  · rw [sub_lt_iff_lt_add, div_lt_iff₀ (by linarith)]
    linarith

/-- Where the point is on no edge, the winding number is defined. -/
theorem C95_defined {p : ℂ} {polygon : List ℂ} (hne : polygon ≠ []) (h : OffEdges p polygon) :
    Winding p polygon (windingNumber p polygon) := by
  obtain ⟨v, l, rfl⟩ := List.exists_cons_of_ne_nil hne
  obtain ⟨W, hw⟩ := closed_directions h
  rw [C95_winding hw]
  exact hw

/-- Going round the other way, the number changes its sign, so that the choice of triangles does not
depend on the orientation. -/
theorem C95_reverse {p : ℂ} {polygon : List ℂ} {W : ℤ} (h : Winding p polygon W) :
    Winding p polygon.reverse (-W) := by
  obtain ⟨t, θ, h1, h2⟩ := h
  obtain ⟨s, m, e⟩ := List.exists_cons_of_ne_nil (l := (t :: θ).reverse) (by simp)
  have h1' := List.rel_reverse h1
  rw [e] at h1'
  refine ⟨s, m, h1', ?_⟩
  rw [List.isChain_append] at h2 ⊢
  have hlast : (t :: θ).getLast? = some s := by rw [← List.head?_reverse, e]; rfl
  have hfirst : (s :: m).getLast? = some t := by rw [← e, List.getLast?_reverse]; rfl
  refine ⟨?_, by simp, ?_⟩
  · rw [← e, List.isChain_reverse]
    exact h2.1.imp fun a b h => by rwa [abs_sub_comm]
  · intro x hx y hy
    rw [hfirst] at hx
    cases hx
    cases hy
    have := h2.2.2 s hlast _ rfl
    rw [← abs_neg]
    convert this using 2
    push_cast
    ring

/-- A point from which all vertices are in one half plane is outside. -/
theorem C95_outside {p u : ℂ} {polygon : List ℂ} (hne : polygon ≠ [])
    (h : ∀ v ∈ polygon, 0 < (u * (v - p)).re) : Winding p polygon 0 := by
  obtain ⟨v, l, rfl⟩ := List.exists_cons_of_ne_nil hne
  refine ⟨(u * (v - p)).arg - u.arg, l.map fun v => (u * (v - p)).arg - u.arg, ?_, ?_⟩
  · have hd : ∀ x ∈ v :: l, Direction p x ((u * (x - p)).arg - u.arg) := by
      intro x hx
      have hpos := h x hx
      have hu : u ≠ 0 := by rintro rfl; simp at hpos
      have hx0 : x - p ≠ 0 := by intro h0; rw [h0] at hpos; simp at hpos
      have := Complex.arg_mul_coe_angle hu hx0
      rw [← Real.Angle.coe_add, Real.Angle.angle_eq_iff_two_pi_dvd_sub] at this
      obtain ⟨k, hk⟩ := this
      have e : (u * (x - p)).arg - u.arg = (x - p).arg + k * (2 * π) := by linarith
      rw [e]
      exact direction_arg (sub_ne_zero.1 hx0) k
    have : List.Forall₂ (Direction p) (v :: l) ((v :: l).map fun x => (u * (x - p)).arg - u.arg) := by
      rw [List.forall₂_map_right_iff, List.forall₂_same]
      exact hd
    exact this
  · have hm : ∀ x ∈ v :: l, |(u * (x - p)).arg| < π / 2 := fun x hx =>
      Complex.abs_arg_lt_pi_div_two_iff.2 (.inl (h x hx))
    have hall : ∀ a ∈ v :: l ++ [v], ∀ b ∈ v :: l ++ [v],
        |((u * (b - p)).arg - u.arg) - ((u * (a - p)).arg - u.arg)| < π := by
      intro a ha b hb
      have h1 := abs_lt.1 (hm a (by simp at ha ⊢; tauto))
      have h2 := abs_lt.1 (hm b (by simp at hb ⊢; tauto))
      rw [abs_lt]
      constructor <;> linarith
    have e : ((u * (v - p)).arg - u.arg) :: (l.map fun v => (u * (v - p)).arg - u.arg)
        ++ [(u * (v - p)).arg - u.arg + (0 : ℤ) * (2 * π)]
        = (v :: l ++ [v]).map fun x => (u * (x - p)).arg - u.arg := by simp
    rw [e]
    refine List.Pairwise.isChain ?_
    rw [List.pairwise_map]
    exact List.pairwise_of_forall_mem_list hall

/-- A point strictly to the left of every edge is inside: it is turned around at least once, and
less often than half the number of edges. -/
theorem C95_inside {p : ℂ} {polygon : List ℂ} (hne : polygon ≠ []) (h : LeftOfEdges p polygon) :
    ∃ W, Winding p polygon W ∧ 1 ≤ W ∧ 2 * W < polygon.length := by
  obtain ⟨v, l, rfl⟩ := List.exists_cons_of_ne_nil hne
  obtain ⟨W, hw⟩ := closed_directions (p := p) (v := v) (l := l) (h.imp fun _ _ => LeftOf.off)
  refine ⟨W, hw, ?_⟩
  have hs := hw.sum
  have hpi := Real.pi_pos
  obtain ⟨w, m, e⟩ : ∃ w m, l ++ [v] = w :: m := by cases l <;> simp
  have hc : closed (v :: l) = v :: w :: m := by rw [← e]; rfl
  have hlen : (l.length : ℝ) = m.length := by
    have := congrArg List.length e
    simp at this
    exact_mod_cast this
  unfold LeftOfEdges at h
  rw [hc] at hs h
  have := sum_left h
  rw [hs] at this
  constructor
  · have h1 : (0 : ℝ) < W := by
      by_contra hc
      have := mul_nonpos_of_nonpos_of_nonneg (not_lt.1 hc) (by linarith : 0 ≤ 2 * π)
      linarith
    have : 0 < W := by exact_mod_cast h1
    omega
  · have h2 : (2 * W : ℝ) < l.length + 1 := by
      rw [hlen]
      refine lt_of_mul_lt_mul_right (a := π) ?_ hpi.le
      linarith
    rw [List.length_cons]
    exact_mod_cast h2

/-- Triangles and quadrilaterals are turned around once. -/
theorem C95_inside_small {p : ℂ} {polygon : List ℂ} (hne : polygon ≠ []) (hn : polygon.length ≤ 4)
    (h : LeftOfEdges p polygon) : Winding p polygon 1 := by
  obtain ⟨W, hw, h1, h2⟩ := C95_inside hne h
  have : W = 1 := by omega
  rwa [this] at hw

/-- Cutting a polygon along a diagonal that does not meet the point, the numbers of the two parts add up. -/
theorem C95_cut {p a b c : ℂ} {l : List ℂ} {W₁ W₂ : ℤ} (h₁ : Winding p [a, b, c] W₁)
    (h₂ : Winding p (a :: c :: l) W₂) : Winding p (a :: b :: c :: l) (W₁ + W₂) := by
  obtain ⟨t, θ, h1, h2⟩ := h₂
  obtain ⟨s, η, g1, g2⟩ := h₁
  obtain _ | ⟨ha, _ | ⟨hc, hl⟩⟩ := h1
  obtain _ | ⟨ha', _ | ⟨hb', _ | ⟨hc', _ | _⟩⟩⟩ := g1
  rename_i tc θ sb sc
  obtain ⟨k, rfl⟩ := ha'.diff ha
  obtain ⟨n, rfl⟩ := hc'.diff hc
  simp only [List.cons_append, List.nil_append, List.isChain_cons_cons, List.isChain_singleton,
    and_true] at g2 h2
  have hpi := Real.pi_pos
  have hW : W₁ = k - n := by
    have e1 := abs_lt.1 g2.2.2
    have e2 := abs_lt.1 h2.1
    have u1 : ((W₁ - k + n : ℤ) : ℝ) * (2 * π) < 1 * (2 * π) := by push_cast; linarith
    have u2 : (-1) * (2 * π) < ((W₁ - k + n : ℤ) : ℝ) * (2 * π) := by push_cast; linarith
    have u1' := lt_of_mul_lt_mul_right u1 (by linarith)
    have u2' := lt_of_mul_lt_mul_right u2 (by linarith)
    have v1 : W₁ - k + n < 1 := by exact_mod_cast u1'
    have v2 : -1 < W₁ - k + n := by exact_mod_cast u2'
    omega
  refine ⟨s + k * (2 * π), (sb + k * (2 * π)) :: (sc + k * (2 * π))
    :: θ.map fun x => x + W₁ * (2 * π), ?_, ?_⟩
  · refine .cons ha (.cons (hb'.shift k) (.cons (hc'.shift k) ?_))
    rw [List.forall₂_map_right_iff]
    exact hl.imp fun _ _ h => h.shift W₁
  · simp only [List.cons_append, List.isChain_cons_cons]
    refine ⟨by simpa using g2.1, by simpa using g2.2.1, ?_⟩
    have e : (sc + k * (2 * π)) :: ((θ.map fun x => x + W₁ * (2 * π))
        ++ [s + k * (2 * π) + ((W₁ + W₂ : ℤ) : ℝ) * (2 * π)])
        = ((sc + n * (2 * π)) :: (θ ++ [s + k * (2 * π) + W₂ * (2 * π)])).map
          fun x => x + W₁ * (2 * π) := by
      rw [List.map_cons, List.map_append, List.map_singleton, List.cons.injEq]
      refine ⟨by rw [hW]; push_cast; ring, ?_⟩
      congr 2
      push_cast
      ring
    rw [e, List.isChain_map]
    exact h2.2.imp fun a b h => by simpa using h

example : windingNumber ⟨1 / 4, 1 / 4⟩ [⟨0, 0⟩, ⟨1, 0⟩, ⟨0, 1⟩] = 1 := by
  refine C95_winding (C95_inside_small (by simp) (by simp) ?_)
  simp [LeftOfEdges, closed, LeftOf]
  norm_num

example : windingNumber ⟨1 / 4, 1 / 4⟩ [⟨0, 1⟩, ⟨1, 0⟩, ⟨0, 0⟩] = -1 := by
  refine C95_winding (C95_reverse (polygon := [⟨0, 0⟩, ⟨1, 0⟩, ⟨0, 1⟩])
    (C95_inside_small (by simp) (by simp) ?_))
  simp [LeftOfEdges, closed, LeftOf]
  norm_num

example : windingNumber ⟨-1, 1 / 4⟩ [⟨0, 0⟩, ⟨1, 0⟩, ⟨0, 1⟩] = 0 := by
  refine C95_winding (C95_outside (u := 1) (by simp) ?_)
  simp

#print axioms C95_winding
#print axioms C95_defined
#print axioms C95_reverse
#print axioms C95_outside
#print axioms C95_inside
#print axioms C95_inside_small
#print axioms C95_cut

end Verif.Polygon
