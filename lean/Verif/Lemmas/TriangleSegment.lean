/-
Lemmas on `intersect_with_coplanar_segment`.
-/
import Verif.Spec.TriangleTriangle
import Verif.Lemmas.TriangleTriangle
import Verif.Props.TriangleTest

namespace Verif.Geometry
open Trace MeshMetrics
open scoped Classical

/-- What the test of a side says for small tolerances -/
def SideTest (pos : Fin 3 × Fin 3) (a b p q : Pt ℝ) (eps : ℝ) : Prop :=
  (∀ x, x ∈ segment ℝ a b → x ∈ segment ℝ p q → lineLineTest eps pos a b p q = some (x, none)) ∧
  ((∀ x, ¬ (x ∈ segment ℝ a b ∧ x ∈ segment ℝ p q)) → lineLineTest eps pos a b p q = none)

/-- A point that is not a crossing is at a distance from the crossing. -/
theorem side_far {pos : Fin 3 × Fin 3} {a b p q z : Pt ℝ}
    (H : ∃ δ > 0, ∀ eps, 0 < eps → eps < δ → SideTest pos a b p q eps)
    (hz : ¬ (z ∈ segment ℝ a b ∧ z ∈ segment ℝ p q)) :
    ∃ δ > 0, ∀ eps, 0 < eps → eps < δ → SideTest pos a b p q eps ∧
      ∀ y, y ∈ segment ℝ a b → y ∈ segment ℝ p q → eps ≤ norm3 (y - z) := by
  obtain ⟨δ, hδ, H⟩ := H
  by_cases hy : ∃ y, y ∈ segment ℝ a b ∧ y ∈ segment ℝ p q
  · obtain ⟨y, hy1, hy2⟩ := hy
    have hpos : 0 < norm3 (y - z) := by
      refine lt_of_le_of_ne (norm3_nonneg _) fun h0 => hz ?_
      rw [← sub_eq_zero.1 (norm3_eq_zero.1 h0.symm)]
      exact ⟨hy1, hy2⟩
    refine ⟨min δ (norm3 (y - z)), lt_min hδ hpos, fun eps h0 he => ?_⟩
    rw [lt_min_iff] at he
    refine ⟨H eps h0 he.1, fun y' h1 h2 => ?_⟩
    have e1 := (H eps h0 he.1).1 y' h1 h2
    rw [(H eps h0 he.1).1 y hy1 hy2] at e1
    have : y = y' := by simpa using e1
    rw [← this]
    exact he.2.le
  · exact ⟨δ, hδ, fun eps h0 he => ⟨H eps h0 he, fun y h1 h2 => (hy ⟨y, h1, h2⟩).elim⟩⟩

theorem three_indices : ∀ {i j k : Fin 3}, i ≠ j → k ≠ i → k ≠ j → ∀ m, m = i ∨ m = j ∨ m = k := by
  decide

/-- The last crossing -/
theorem lastOther_some {eps : ℝ} {x : Pt ℝ} {r1 r2 r3 : Answer} {Q : Pt ℝ → Prop}
    (h : ∀ r ∈ [r1, r2, r3], r = none ∨ ∃ y, r = some (y, none) ∧ ¬ norm3 (x - y) < eps ∧ Q y)
    (hsome : ∃ r ∈ [r1, r2, r3], r ≠ none) : ∃ y, lastOther eps x [r1, r2, r3] = some y ∧ Q y := by
  unfold lastOther
  simp only [List.mem_cons, List.not_mem_nil, or_false, forall_eq_or_imp, forall_eq, exists_eq_or_imp,
    exists_eq_left] at h hsome
  obtain ⟨h1, h2, h3⟩ := h
  rcases h3 with rfl | ⟨y3, rfl, n3, q3⟩
  · rcases h2 with rfl | ⟨y2, rfl, n2, q2⟩
    · rcases h1 with rfl | ⟨y1, rfl, n1, q1⟩
      · simp at hsome
      · exact ⟨y1, by simp [n1], q1⟩
    · exact ⟨y2, by simp [n2], q2⟩
  · exact ⟨y3, by simp [n3], q3⟩

section
variable {pos : Fin 3 × Fin 3} {n : Pt ℝ} (hn : Keeps pos n) {h : ℝ} {a b c p q : Pt ℝ}
  (ha : dot n a = h) (hb : dot n b = h) (hc : dot n c = h) (hp : dot n p = h) (hq : dot n q = h)
  (hD : det2 (proj pos (b - a)) (proj pos (c - a)) ≠ 0)
include hn ha hb hc hp hq hD

/-- From a point inside to the boundary -/
theorem common_of_inside (hpos : ∀ i, 0 < bary pos a b c p i) {y : Pt ℝ} (hy : y ∈ segment ℝ p q) {i : Fin 3}
    (h0 : bary pos a b c y i = 0) (hin : ∀ j, 0 ≤ bary pos a b c y j) :
    {x | x ∈ segment ℝ p q ∧ InTriangle x a b c} = segment ℝ p y := by
  obtain ⟨t, t0, t1, rfl⟩ := mem_segment_iff.1 hy
  have e : segment ℝ p (p + t • (q - p)) = segment ℝ (p + (0 : ℝ) • (q - p)) (p + t • (q - p)) := by simp
  rw [e, segment_part, min_eq_left t0, max_eq_right t0]
  have hiff : ∀ s, 0 ≤ s → (Inside (bary pos a b c p) (bary pos a b c q) s ↔ s ≤ t) := fun s hs =>
    inside_iff_le hpos t0 (i := i) (by rw [← bary_aff]; exact h0)
      (fun j => by rw [← bary_aff]; exact hin j) hs
  ext x
  rw [Set.mem_ofPred_eq, Set.mem_ofPred_eq, mem_segment_iff]
  constructor
  · rintro ⟨⟨s, s0, s1, rfl⟩, hx⟩
    refine ⟨s, s0, (hiff s s0).1 fun j => ?_, rfl⟩
    rw [← bary_aff]
    exact (inTriangle_iff hn ha hb hc (dot_line hp hq s) hD).1 hx j
  · rintro ⟨s, s0, s1, rfl⟩
    refine ⟨⟨s, s0, s1.trans t1, rfl⟩, (inTriangle_iff hn ha hb hc (dot_line hp hq s) hD).2 fun j => ?_⟩
    rw [bary_aff]
    exact (hiff s s0).2 s1 j

/-- From one point of the boundary to another -/
theorem common_of_two {t u : ℝ} (t0 : 0 ≤ t) (t1 : t ≤ 1) (u0 : 0 ≤ u) (u1 : u ≤ 1) {i j : Fin 3}
    (hi : bary pos a b c (p + t • (q - p)) i = 0) (hj : bary pos a b c (p + u • (q - p)) j = 0)
    (ht : Inside (bary pos a b c p) (bary pos a b c q) t) (hu : Inside (bary pos a b c p) (bary pos a b c q) u)
    (hi' : bary pos a b c (p + u • (q - p)) i ≠ 0) (hj' : bary pos a b c (p + t • (q - p)) j ≠ 0) :
    {x | x ∈ segment ℝ p q ∧ InTriangle x a b c} = segment ℝ (p + t • (q - p)) (p + u • (q - p)) := by
  rw [bary_aff] at hi hj hi' hj'
  rw [segment_part]
  ext x
  rw [Set.mem_ofPred_eq, Set.mem_ofPred_eq, mem_segment_iff]
  constructor
  · rintro ⟨⟨s, s0, s1, rfl⟩, hx⟩
    have := (inside_iff_between hi hj ht hu hi' hj' (s := s)).1 fun k => by
      rw [← bary_aff]
      exact (inTriangle_iff hn ha hb hc (dot_line hp hq s) hD).1 hx k
    exact ⟨s, this.1, this.2, rfl⟩
  · rintro ⟨s, s0, s1, rfl⟩
    refine ⟨⟨s, (le_min t0 u0).trans s0, s1.trans (max_le t1 u1), rfl⟩,
      (inTriangle_iff hn ha hb hc (dot_line hp hq s) hD).2 fun k => ?_⟩
    rw [bary_aff]
    exact (inside_iff_between hi hj ht hu hi' hj').2 ⟨s0, s1⟩ k

omit hp hq in
/-- The corners are where two coordinates vanish. -/
theorem corner_of {x : Pt ℝ} (hx : dot n x = h) {i j : Fin 3} (hij : i ≠ j) (hi : bary pos a b c x i = 0)
    (hj : bary pos a b c x j = 0) : x = a ∨ x = b ∨ x = c := by
  have e := eq_of_bary hn ha hb hc hx hD
  have s := bary_sum hD x
  have two : ∀ {u v : ℝ}, bary pos a b c x 1 = u → bary pos a b c x 2 = v → x = a + u • (b - a) + v • (c - a) := by
    intro u v hu hv
    rw [hu, hv] at e
    exact e
  fin_cases i <;> fin_cases j <;> simp at hij hi hj
  · right; right; exact (two hj (by linarith : _ = (1 : ℝ))).trans (by module)
  · right; left; exact (two (by linarith : _ = (1 : ℝ)) hj).trans (by module)
  · right; right; exact (two hi (by linarith : _ = (1 : ℝ))).trans (by module)
  · left; exact (two hi hj).trans (by module)
  · right; left; exact (two (by linarith : _ = (1 : ℝ)) hi).trans (by module)
  · left; exact (two hj hi).trans (by module)

/-- What the code computes once the tests of the points and the sides are right -/
theorem coplanarSegment_describes {eps : ℝ} (g : General pos a b c p q)
    (hab : SideTest pos a b p q eps) (hbc : SideTest pos b c p q eps) (hca : SideTest pos c a p q eps)
    (hoff : ∀ z ∈ [p, q], eps ≤ colinearTest pos a b z ∧ eps ≤ colinearTest pos b c z ∧
      eps ≤ colinearTest pos c a z)
    (hin : ∀ z ∈ [p, q], pointInTriangle eps pos a b c z = true ↔ InTriangle z a b c)
    (hfar : ∀ z ∈ [p, q, ![1, 1, 1]], ∀ y, y ∈ segment ℝ p q →
      y ∈ segment ℝ a b ∨ y ∈ segment ℝ b c ∨ y ∈ segment ℝ c a → eps ≤ norm3 (y - z)) :
    Describes (coplanarSegment eps pos (a, b, c) p q) {x | x ∈ segment ℝ p q ∧ InTriangle x a b c} := by
  have hline : ∀ t, dot n (p + t • (q - p)) = h := dot_line hp hq
  have tri := fun {x} (hx : dot n x = h) => inTriangle_iff hn ha hb hc hx hD
  have mab := fun {x} (hx : dot n x = h) => mem_ab hn ha hb hc hx hD
  have mbc := fun {x} (hx : dot n x = h) => mem_bc hn ha hb hc hx hD
  have mca := fun {x} (hx : dot n x = h) => mem_ca hn ha hb hc hx hD
  have hseg : ∀ {x}, x ∈ segment ℝ p q → dot n x = h := by
    intro x hx
    obtain ⟨t, -, -, rfl⟩ := mem_segment_iff.1 hx
    exact hline t
  have hne : ∀ z, det2 (proj pos (a - z)) (proj pos (b - z)) ≠ 0 → det2 (proj pos (b - z)) (proj pos (c - z)) ≠ 0 →
      det2 (proj pos (c - z)) (proj pos (a - z)) ≠ 0 → ∀ i, bary pos a b c z i ≠ 0 := by
    intro z h1 h2 h3 i
    unfold bary
    refine div_ne_zero ?_ hD
    fin_cases i
    · exact h2
    · exact h3
    · exact h1
  have hneP := hne p g.abP g.bcP g.caP
  have hneQ := hne q g.abQ g.bcQ g.caQ
  have off := hoff p (by simp)
  have offp : ∀ {x y}, eps ≤ colinearTest pos x y p → ¬ |colinearTest pos x y p| < eps := fun h1 =>
    not_lt.2 (h1.trans (le_abs_self _))
  -- the crossings
  have cross : ∀ {x y : Pt ℝ}, SideTest pos x y p q eps → lineLineTest eps pos x y p q = none ∨
      ∃ z, lineLineTest eps pos x y p q = some (z, none) ∧ z ∈ segment ℝ p q ∧ z ∈ segment ℝ x y := by
    intro x y hxy
    by_cases hz : ∃ z, z ∈ segment ℝ x y ∧ z ∈ segment ℝ p q
    · obtain ⟨z, h1, h2⟩ := hz
      exact Or.inr ⟨z, hxy.1 z h1 h2, h2, h1⟩
    · exact Or.inl (hxy.2 fun z hz' => hz ⟨z, hz'⟩)
  -- one end inside, the other one outside
  have one : ∀ {x x' : Pt ℝ}, (x = p ∧ x' = q ∨ x = q ∧ x' = p) → InTriangle x a b c → ¬ InTriangle x' a b c →
      Describes (match lastOther eps x [lineLineTest eps pos a b p q, lineLineTest eps pos b c p q,
        lineLineTest eps pos c a p q] with
        | none => none
        | some y => some (x, some y)) {x | x ∈ segment ℝ p q ∧ InTriangle x a b c} := by
    intro x x' hxx hx hx'
    have hdx : dot n x = h ∧ dot n x' = h := by rcases hxx with ⟨rfl, rfl⟩ | ⟨rfl, rfl⟩ <;> exact ⟨‹_›, ‹_›⟩
    have hs : segment ℝ x x' = segment ℝ p q := by
      rcases hxx with ⟨rfl, rfl⟩ | ⟨rfl, rfl⟩
      · rfl
      · exact segment_symm ℝ _ _
    have hxm : x ∈ [p, q, ![1, 1, 1]] := by rcases hxx with ⟨rfl, rfl⟩ | ⟨rfl, rfl⟩ <;> simp
    have hpos : ∀ i, 0 < bary pos a b c x i := fun i => by
      refine lt_of_le_of_ne ((tri hdx.1).1 hx i) (Ne.symm ?_)
      rcases hxx with ⟨rfl, rfl⟩ | ⟨rfl, rfl⟩
      · exact hneP i
      · exact hneQ i
    have far : ∀ y, y ∈ segment ℝ p q → y ∈ segment ℝ a b ∨ y ∈ segment ℝ b c ∨ y ∈ segment ℝ c a →
        ¬ norm3 (x - y) < eps := fun y h1 h2 => by
      rw [norm3_sub_comm]
      exact not_lt.2 (hfar x hxm y h1 h2)
    obtain ⟨y, hy, hyQ⟩ := lastOther_some (eps := eps) (x := x)
      (Q := fun y => y ∈ segment ℝ p q ∧ (y ∈ segment ℝ a b ∨ y ∈ segment ℝ b c ∨ y ∈ segment ℝ c a))
      (r1 := lineLineTest eps pos a b p q) (r2 := lineLineTest eps pos b c p q)
      (r3 := lineLineTest eps pos c a p q) (by
        intro r hr
        simp only [List.mem_cons, List.not_mem_nil, or_false] at hr
        rcases hr with rfl | rfl | rfl
        · rcases cross hab with h0 | ⟨z, h0, h1, h2⟩
          · exact Or.inl h0
          · exact Or.inr ⟨z, h0, far z h1 (Or.inl h2), h1, Or.inl h2⟩
        · rcases cross hbc with h0 | ⟨z, h0, h1, h2⟩
          · exact Or.inl h0
          · exact Or.inr ⟨z, h0, far z h1 (Or.inr (Or.inl h2)), h1, Or.inr (Or.inl h2)⟩
        · rcases cross hca with h0 | ⟨z, h0, h1, h2⟩
          · exact Or.inl h0
          · exact Or.inr ⟨z, h0, far z h1 (Or.inr (Or.inr h2)), h1, Or.inr (Or.inr h2)⟩) (by
        have hx1 : ¬ Inside (bary pos a b c x) (bary pos a b c x') 1 := fun h1 => hx' <| by
          rw [tri hdx.2]
          intro i
          have := h1 i
          unfold aff at this
          linarith
        obtain ⟨i, t, t0, t1, hz, hins, -⟩ := exists_exit (f0 := bary pos a b c x) (f1 := bary pos a b c x')
          (z := 0) (fun i => by unfold aff; have := hpos i; linarith) zero_le_one hx1
        have hzx : dot n (x + t • (x' - x)) = h := dot_line hdx.1 hdx.2 t
        rw [← bary_aff] at hz
        have hins' : ∀ i, 0 ≤ bary pos a b c (x + t • (x' - x)) i := fun i => by
          rw [bary_aff]; exact hins i
        have hmem : x + t • (x' - x) ∈ segment ℝ p q := by
          rw [← hs]; exact mem_segment_iff.2 ⟨t, t0, t1, rfl⟩
        fin_cases i
        · exact ⟨lineLineTest eps pos b c p q, by simp, by rw [hbc.1 _ ((mbc hzx).2 ⟨hz, hins'⟩) hmem]; simp⟩
        · exact ⟨lineLineTest eps pos c a p q, by simp, by rw [hca.1 _ ((mca hzx).2 ⟨hz, hins'⟩) hmem]; simp⟩
        · exact ⟨lineLineTest eps pos a b p q, by simp, by rw [hab.1 _ ((mab hzx).2 ⟨hz, hins'⟩) hmem]; simp⟩)
    rw [hy]
    show _ = segment ℝ x y
    have hyd := hseg hyQ.1
    rw [← hs]
    have hyx : y ∈ segment ℝ x x' := by rw [hs]; exact hyQ.1
    rcases hyQ.2 with h1 | h1 | h1
    · obtain ⟨h2, h3⟩ := (mab hyd).1 h1
      exact common_of_inside hn ha hb hc hdx.1 hdx.2 hD hpos hyx h2 h3
    · obtain ⟨h2, h3⟩ := (mbc hyd).1 h1
      exact common_of_inside hn ha hb hc hdx.1 hdx.2 hD hpos hyx h2 h3
    · obtain ⟨h2, h3⟩ := (mca hyd).1 h1
      exact common_of_inside hn ha hb hc hdx.1 hdx.2 hD hpos hyx h2 h3
  unfold coplanarSegment
  simp only
  rw [if_neg fun h0 => offp off.1 h0.1, if_neg fun h0 => offp off.2.1 h0.1, if_neg fun h0 => offp off.2.2 h0.1]
  have Ip := hin p (by simp)
  have Iq := hin q (by simp)
  by_cases hpI : InTriangle p a b c <;> by_cases hqI : InTriangle q a b c
  · rw [if_pos ⟨Ip.2 hpI, Iq.2 hqI⟩]
    show _ = segment ℝ p q
    ext x
    rw [Set.mem_ofPred_eq]
    refine ⟨fun hx => hx.1, fun hx => ⟨hx, ?_⟩⟩
    obtain ⟨t, t0, t1, rfl⟩ := mem_segment_iff.1 hx
    rw [tri (hline t)]
    have e : Inside (bary pos a b c p) (bary pos a b c q) t := by
      refine Inside.between (s := 0) (u := 1) ?_ ?_ t0 t1
      · intro i; have := (tri hp).1 hpI i; unfold aff; linarith
      · intro i; have := (tri hq).1 hqI i; unfold aff; linarith
    intro i
    rw [bary_aff]
    exact e i
  · rw [if_neg fun h0 => hqI (Iq.1 h0.2), if_neg fun h0 => h0.1 (Ip.2 hpI), if_pos (Ip.2 hpI)]
    exact one (Or.inl ⟨rfl, rfl⟩) hpI hqI
  · rw [if_neg fun h0 => hpI (Ip.1 h0.1), if_neg fun h0 => h0.2 (Iq.2 hqI), if_neg fun h0 => hpI (Ip.1 h0)]
    exact one (Or.inr ⟨rfl, rfl⟩) hqI hpI
  · rw [if_neg fun h0 => hpI (Ip.1 h0.1), if_pos ⟨fun h0 => hpI (Ip.1 h0), fun h0 => hqI (Iq.1 h0)⟩]
    have ho0 : ¬ Inside (bary pos a b c p) (bary pos a b c q) 0 := fun h1 => hpI <| by
      rw [tri hp]; intro i; have := h1 i; unfold aff at this; linarith
    have ho1 : ¬ Inside (bary pos a b c p) (bary pos a b c q) 1 := fun h1 => hqI <| by
      rw [tri hq]; intro i; have := h1 i; unfold aff at this; linarith
    have hv : ∀ t, 0 ≤ t → t ≤ 1 → Inside (bary pos a b c p) (bary pos a b c q) t → ∀ i j, i ≠ j →
        aff (bary pos a b c p i) (bary pos a b c q i) t = 0 →
        aff (bary pos a b c p j) (bary pos a b c q j) t ≠ 0 := by
      intro t t0 t1 _ i j hij hi hj
      rw [← bary_aff] at hi hj
      have hmem : p + t • (q - p) ∈ segment ℝ p q := mem_segment_iff.2 ⟨t, t0, t1, rfl⟩
      rcases corner_of hn ha hb hc hD (hline t) hij hi hj with h1 | h1 | h1
      · rw [h1] at hmem; exact g.cornerA hmem
      · rw [h1] at hmem; exact g.cornerB hmem
      · rw [h1] at hmem; exact g.cornerC hmem
    -- a crossing for every parameter where a coordinate vanishes
    let T : Fin 3 → Answer := ![lineLineTest eps pos b c p q, lineLineTest eps pos c a p q,
      lineLineTest eps pos a b p q]
    have hT : ∀ i t, 0 ≤ t → t ≤ 1 → aff (bary pos a b c p i) (bary pos a b c q i) t = 0 →
        Inside (bary pos a b c p) (bary pos a b c q) t → T i = some (p + t • (q - p), none) := by
      intro i t t0 t1 hz hins
      rw [← bary_aff] at hz
      have hins' : ∀ i, 0 ≤ bary pos a b c (p + t • (q - p)) i := fun i => by rw [bary_aff]; exact hins i
      have hmem : p + t • (q - p) ∈ segment ℝ p q := mem_segment_iff.2 ⟨t, t0, t1, rfl⟩
      fin_cases i
      · exact hbc.1 _ ((mbc (hline t)).2 ⟨hz, hins'⟩) hmem
      · exact hca.1 _ ((mca (hline t)).2 ⟨hz, hins'⟩) hmem
      · exact hab.1 _ ((mab (hline t)).2 ⟨hz, hins'⟩) hmem
    have hT' : ∀ i, T i = none ∨ ∃ t, 0 ≤ t ∧ t ≤ 1 ∧ aff (bary pos a b c p i) (bary pos a b c q i) t = 0 ∧
        Inside (bary pos a b c p) (bary pos a b c q) t := by
      intro i
      have conv : ∀ z, z ∈ segment ℝ p q → bary pos a b c z i = 0 → (∀ j, 0 ≤ bary pos a b c z j) →
          ∃ t, 0 ≤ t ∧ t ≤ 1 ∧ aff (bary pos a b c p i) (bary pos a b c q i) t = 0 ∧
            Inside (bary pos a b c p) (bary pos a b c q) t := by
        intro z hz h1 h2
        obtain ⟨t, t0, t1, rfl⟩ := mem_segment_iff.1 hz
        exact ⟨t, t0, t1, by rw [← bary_aff]; exact h1, fun j => by rw [← bary_aff]; exact h2 j⟩
      fin_cases i
      · rcases cross hbc with h0 | ⟨z, -, h1, h2⟩
        · exact Or.inl h0
        · exact Or.inr (conv z h1 ((mbc (hseg h1)).1 h2).1 ((mbc (hseg h1)).1 h2).2)
      · rcases cross hca with h0 | ⟨z, -, h1, h2⟩
        · exact Or.inl h0
        · exact Or.inr (conv z h1 ((mca (hseg h1)).1 h2).1 ((mca (hseg h1)).1 h2).2)
      · rcases cross hab with h0 | ⟨z, -, h1, h2⟩
        · exact Or.inl h0
        · exact Or.inr (conv z h1 ((mab (hseg h1)).1 h2).1 ((mab (hseg h1)).1 h2).2)
    show Describes (match [T 2, T 0, T 1].filterMap (Option.map Prod.fst) with
      | [x, y] => if norm3 (x - ![1, 1, 1]) < eps then none else some (x, some y)
      | _ => none) _
    by_cases hS : ∃ z, 0 ≤ z ∧ z ≤ 1 ∧ Inside (bary pos a b c p) (bary pos a b c q) z
    · obtain ⟨z, z0, z1, hz⟩ := hS
      obtain ⟨i, j, t, u, hij, t0, tz, zu, u1, hi, hj, hti, hui⟩ := exists_two hz z0 z1 ho0 ho1
      have t1 : t ≤ 1 := tz.trans z1
      have u0 : 0 ≤ u := z0.trans zu
      have hi' := hv u u0 u1 hui j i hij.symm hj
      have hj' := hv t t0 t1 hti i j hij hi
      have hthird : ∀ k, k ≠ i → k ≠ j → T k = none := by
        intro k hki hkj
        rcases hT' k with h0 | ⟨w, w0, w1, hw, hwi⟩
        · exact h0
        · exfalso
          have hall : ∀ m : Fin 3, m = i ∨ m = j ∨ m = k := by
            intro m; exact three_indices hij hki hkj m
          refine not_three hv (fun m => if m = i then t else if m = j then u else w) ?_ ?_ ?_ ?_
          · intro m; split_ifs <;> assumption
          · intro m; split_ifs <;> assumption
          · intro m
            split_ifs with e1 e2
            · rw [e1]; exact hi
            · rw [e2]; exact hj
            · rcases hall m with e | e | e
              · exact absurd e e1
              · exact absurd e e2
              · rw [e]; exact hw
          · intro m; split_ifs <;> assumption
      have hcom : {x | x ∈ segment ℝ p q ∧ InTriangle x a b c} =
          segment ℝ (p + t • (q - p)) (p + u • (q - p)) :=
        common_of_two hn ha hb hc hp hq hD t0 t1 u0 u1 (by rw [bary_aff]; exact hi)
          (by rw [bary_aff]; exact hj) hti hui (by rw [bary_aff]; exact hi') (by rw [bary_aff]; exact hj')
      have hfar' : ∀ s, 0 ≤ s → s ≤ 1 → ∀ m, aff (bary pos a b c p m) (bary pos a b c q m) s = 0 →
          Inside (bary pos a b c p) (bary pos a b c q) s → ¬ norm3 (p + s • (q - p) - ![1, 1, 1]) < eps := by
        intro s s0 s1 m hm hins
        rw [← bary_aff] at hm
        have hins' : ∀ i, 0 ≤ bary pos a b c (p + s • (q - p)) i := fun i => by rw [bary_aff]; exact hins i
        have hmem : p + s • (q - p) ∈ segment ℝ p q := mem_segment_iff.2 ⟨s, s0, s1, rfl⟩
        refine not_lt.2 (hfar _ (by simp) _ hmem ?_)
        fin_cases m
        · exact Or.inr (Or.inl ((mbc (hline s)).2 ⟨hm, hins'⟩))
        · exact Or.inr (Or.inr ((mca (hline s)).2 ⟨hm, hins'⟩))
        · exact Or.inl ((mab (hline s)).2 ⟨hm, hins'⟩)
      have nt := hfar' t t0 t1 i hi hti
      have nu := hfar' u u0 u1 j hj hui
      have ei := hT i t t0 t1 hi hti
      have ej := hT j u u0 u1 hj hui
      have hcom' := hcom.trans (segment_symm ℝ _ _)
      fin_cases i <;> fin_cases j <;> simp only [Fin.zero_eta, Fin.mk_one, Fin.reduceFinMk, ne_eq,
        not_true_eq_false] at hij ei ej
      · rw [ei, ej, hthird 2 (by decide) (by decide)]
        simp only [List.filterMap_cons, Option.map_some, Option.map_none, List.filterMap_nil]
        rw [if_neg nt]; exact hcom
      · rw [ei, ej, hthird 1 (by decide) (by decide)]
        simp only [List.filterMap_cons, Option.map_some, Option.map_none, List.filterMap_nil]
        rw [if_neg nu]; exact hcom'
      · rw [ei, ej, hthird 2 (by decide) (by decide)]
        simp only [List.filterMap_cons, Option.map_some, Option.map_none, List.filterMap_nil]
        rw [if_neg nu]; exact hcom'
      · rw [ei, ej, hthird 0 (by decide) (by decide)]
        simp only [List.filterMap_cons, Option.map_some, Option.map_none, List.filterMap_nil]
        rw [if_neg nu]; exact hcom'
      · rw [ei, ej, hthird 1 (by decide) (by decide)]
        simp only [List.filterMap_cons, Option.map_some, Option.map_none, List.filterMap_nil]
        rw [if_neg nt]; exact hcom
      · rw [ei, ej, hthird 0 (by decide) (by decide)]
        simp only [List.filterMap_cons, Option.map_some, Option.map_none, List.filterMap_nil]
        rw [if_neg nt]; exact hcom
    · have hnone : ∀ i, T i = none := fun i => by
        rcases hT' i with h0 | ⟨t, t0, t1, -, hins⟩
        · exact h0
        · exact absurd ⟨t, t0, t1, hins⟩ hS
      rw [hnone, hnone, hnone]
      show _ = ∅
      ext x
      simp only [Set.mem_ofPred_eq, Set.mem_empty_iff_false, iff_false, not_and]
      intro hx hxI
      obtain ⟨t, t0, t1, rfl⟩ := mem_segment_iff.1 hx
      refine hS ⟨t, t0, t1, fun i => ?_⟩
      rw [← bary_aff]
      exact (tri (hline t)).1 hxI i

end

end Verif.Geometry
