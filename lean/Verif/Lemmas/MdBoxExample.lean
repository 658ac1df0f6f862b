/-
Examples for C96: the unit square with a fracture that ends on a side.
-/
import Verif.Lemmas.MdBoxMake

namespace Verif.MdBox
open MeshBuild MeshGraph Trace MeshMetrics Geometry VertexOps DomainOps Topology Shape
open scoped Classical

/-- The corners of the unit square. -/
def exPoints : List (Pt ℝ) := [![0, 0, 0], ![1, 0, 0], ![1, 1, 0], ![0, 1, 0]]

/-- The sides. -/
def exRock : List Edg :=
  [⟨0, some 2, ⟨0, none, ![0, 0, 0]⟩, ⟨1, none, ![1, 0, 0]⟩⟩,
    ⟨1, some 3, ⟨1, none, ![1, 0, 0]⟩, ⟨2, none, ![1, 1, 0]⟩⟩,
    ⟨2, some 4, ⟨2, none, ![1, 1, 0]⟩, ⟨3, none, ![0, 1, 0]⟩⟩,
    ⟨3, some 5, ⟨0, none, ![0, 0, 0]⟩, ⟨3, none, ![0, 1, 0]⟩⟩]

/-- The two triangles. -/
def exTriangles : List Triangle :=
  [(![0, 0, 0], ![1, 0, 0], ![1, 1, 0]), (![0, 0, 0], ![1, 1, 0], ![0, 1, 0])]

noncomputable def exEnv (argsort : List ℝ → List Nat) (argsortTag : List Int → List Nat)
    (lstsq : Pt ℝ → Pt ℝ → Pt ℝ → ℝ × ℝ) : Env :=
  ⟨⟨fun l => List.range l.length, argsort, 1 / 10 ^ 10, 1 / 10 ^ 10⟩,
    ⟨1 / 10 ^ 10, 1 / 10 ^ 10⟩, lstsq, fun l => l, fun _ t => t, argsortTag,
    fun _ => .ok exTriangles, 1 / 10 ^ 10⟩

/-- The centre, at which the fractures of the examples end. -/
noncomputable def exMid : Pt ℝ := ![1 / 2, 1 / 2, 0]

/-- The fracture from `p` to the centre. -/
noncomputable def exFracture (p : Pt ℝ) : Edg := ⟨8, some 100, ⟨6, some 200, p⟩, ⟨7, some 200, exMid⟩⟩

theorem ex_box : IsBox exPoints defaultTags2 exRock := by
  refine ⟨rfl, fun i e he => ?_⟩
  match i, he with
  | 0, he =>
    cases he
    exact ⟨rfl, by decide +kernel, _, _, rfl, rfl, rfl, rfl⟩
  | 1, he =>
    cases he
    exact ⟨rfl, by decide +kernel, _, _, rfl, rfl, rfl, rfl⟩
  | 2, he =>
    cases he
    exact ⟨rfl, by decide +kernel, _, _, rfl, rfl, rfl, rfl⟩
  | 3, he =>
    cases he
    exact ⟨rfl, by decide +kernel, _, _, rfl, rfl, rfl, rfl⟩
  | i + 4, he => simp [exRock] at he

theorem pointLine_off {p a b : Pt ℝ} (h1 : ¬ Close (1 / 10 ^ 10) (1 / 10 ^ 10) a p)
    (h2 : ¬ Close (1 / 10 ^ 10) (1 / 10 ^ 10) b p) (h : 1 / 4 ≤ |cross (p - b) (a - b) 2|) :
    pointLineIntersection (1 / 10 ^ 10) p a b (1 / 10 ^ 10) = none := by
  unfold pointLineIntersection
  rw [if_neg h1, if_neg h2, if_neg]
  intro h3
  unfold PointLineIncidence IsClose colinearMeasurement at h3
  have h4 := abs_le_norm3 (cross (p - b) (a - b)) 2
  rw [sub_zero, abs_of_nonneg (by linarith [norm3_nonneg (cross (p - b) (a - b))]), abs_zero] at h3
  have h5 : (1 : ℝ) / 10 ^ 10 < 1 / 8 := by norm_num
  linarith

theorem pointLine_on {p a b : Pt ℝ} (h1 : ¬ Close (1 / 10 ^ 10) (1 / 10 ^ 10) a p)
    (h2 : ¬ Close (1 / 10 ^ 10) (1 / 10 ^ 10) b p) (h : p ∈ segment ℝ a b) :
    pointLineIntersection (1 / 10 ^ 10) p a b (1 / 10 ^ 10) = some p := by
  obtain ⟨x, hx, -⟩ := pointLine_complete h (ctol := 1 / 10 ^ 10) (eps := 1 / 10 ^ 10) (by norm_num)
  unfold pointLineIntersection at hx ⊢
  rw [if_neg h1, if_neg h2] at hx ⊢
  split at hx
  · rename_i h3
    rw [if_pos h3]
    simp only at hx ⊢
    split at hx
    · rename_i h4
      rw [if_pos h4]
    · cases hx
  · cases hx

/-- What is used of the start of the fracture. -/
structure ExStart (p : Pt ℝ) (j : Int) (lstsq : Pt ℝ → Pt ℝ → Pt ℝ → ℝ × ℝ) : Prop where
  on : ∀ e ∈ exRock, e.tag = j →
    pointLineIntersection (1 / 10 ^ 10) p e.first.point e.second.point (1 / 10 ^ 10) = some p
  off : ∀ e ∈ exRock, e.tag ≠ j →
    pointLineIntersection (1 / 10 ^ 10) p e.first.point e.second.point (1 / 10 ^ 10) = none
  segment : ∀ e ∈ exRock, e.tag = j → p ∈ segment ℝ e.first.point e.second.point
  mid : ∀ e ∈ exRock,
    pointLineIntersection (1 / 10 ^ 10) exMid e.first.point e.second.point (1 / 10 ^ 10) = none
  cross : ∀ e ∈ exRock, e.tag ≠ j → lineLineIntersection ⟨1 / 10 ^ 10, 1 / 10 ^ 10⟩ lstsq p exMid
    e.first.point e.second.point (1 / 10 ^ 10) = .ok .none
  far : ∀ x ∈ exMid :: exPoints, p ≠ x ∧ ∃ k : Fin 3, 1 / 2 ≤ |p k - x k| ∧ |x k| ≤ 1 ∧ |p k| ≤ 1

theorem ExStart.notClose {p : Pt ℝ} {j : Int} {lstsq : Pt ℝ → Pt ℝ → Pt ℝ → ℝ × ℝ}
    (h : ExStart p j lstsq) {x : Pt ℝ} (hx : x ∈ exMid :: exPoints) {r t : ℝ} (hr : r ≤ 1 / 8)
    (ht : t ≤ 1 / 8) : ¬ Close r t p x ∧ ¬ Close r t x p := by
  obtain ⟨-, k, h1, h2, h3⟩ := h.far x hx
  have key : ∀ y : ℝ, |y| ≤ 1 → t + r * |y| < 1 / 2 := by
    intro y hy
    nlinarith [abs_nonneg y, mul_le_mul_of_nonneg_right hr (abs_nonneg y)]
  refine ⟨not_close k (lt_of_lt_of_le (key _ h2) h1), not_close k ?_⟩
  rw [abs_sub_comm]
  exact lt_of_lt_of_le (key _ h3) h1

theorem exRock_ends {e : Edg} (he : e ∈ exRock) :
    e.first.point ∈ exMid :: exPoints ∧ e.second.point ∈ exMid :: exPoints ∧
      e.first.point ≠ e.second.point := by
  simp only [exRock, List.mem_cons, List.not_mem_nil, or_false] at he
  rcases he with rfl | rfl | rfl | rfl <;>
  · refine ⟨by simp [exPoints], by simp [exPoints], fun h => ?_⟩
    have h0 := congrFun h 0
    have h1 := congrFun h 1
    simp at h0 h1

theorem ex_tools {p : Pt ℝ} {j : Int} {lstsq : Pt ℝ → Pt ℝ → Pt ℝ → ℝ × ℝ} (h : ExStart p j lstsq)
    {argsort : List ℝ → List Nat} {argsortTag : List Int → List Nat} {e0 : Edg} (he0 : e0 ∈ exRock)
    (hj : e0.tag = j) :
    tools (exEnv argsort argsortTag lstsq) exRock [(p, exMid)] defaultFractureTags 5 =
      .ok [⟨5, e0.physical, p⟩] := by
  have hself : ∀ x : Pt ℝ, Close (1 / 10 ^ 5) (1 / 10 ^ 8) x x := by
    intro x k
    simp only [IsClose, sub_self, abs_zero]
    positivity
  have hobj : ∀ e ∈ exRock, linesLineIntersection ⟨1 / 10 ^ 10, 1 / 10 ^ 10⟩ lstsq
      (([(p, exMid)] : List Line).filter fun t => ¬ (Close (1 / 10 ^ 5) (1 / 10 ^ 8) t.1 e.first.point ∧
        Close (1 / 10 ^ 5) (1 / 10 ^ 8) t.2 e.second.point)) e.first.point e.second.point
        (1 / 10 ^ 10) = .ok (if e.tag = j then [[p]] else []) := by
    intro e he
    have hn := (h.notClose (exRock_ends he).1 (r := 1 / 10 ^ 5) (t := 1 / 10 ^ 8) (by norm_num)
      (by norm_num)).1
    have hfil : (([(p, exMid)] : List Line).filter fun t =>
        ¬ (Close (1 / 10 ^ 5) (1 / 10 ^ 8) t.1 e.first.point ∧
        Close (1 / 10 ^ 5) (1 / 10 ^ 8) t.2 e.second.point)) = [(p, exMid)] := by
      rw [List.filter_cons, if_pos, List.filter_nil]
      rw [decide_eq_true_eq]
      exact fun h => hn h.1
    rw [hfil]
    unfold linesLineIntersection
    by_cases hej : e.tag = j
    · have : lineLineIntersection ⟨1 / 10 ^ 10, 1 / 10 ^ 10⟩ lstsq p exMid e.first.point
          e.second.point (1 / 10 ^ 10) = .ok (.points [p]) := by
        unfold lineLineIntersection
        have h1 : pointsLineIntersection (1 / 10 ^ 10) [p, exMid] e.first.point e.second.point
            (1 / 10 ^ 10) = ([.array p], [true, false]) := by
          simp only [pointsLineIntersection, List.map_cons, List.map_nil, h.on e he hej, h.mid e he]
          rfl
        simp only [h1]
        rw [if_pos ⟨by simp [Out.toOption], by simp⟩, if_neg (by simp), if_pos]
        · rfl
        · intro x hx
          have : x = (p, p) := by simpa [maskFilter, Out.toOption] using hx
          rw [this]
          exact hself p
      simp only [mapRes, this, Res.bind_ok, if_pos hej]
      rfl
    · simp only [mapRes, h.cross e he hej, Res.bind_ok, if_neg hej]
      rfl
  have hb : linesLinesPoints ⟨1 / 10 ^ 10, 1 / 10 ^ 10⟩ lstsq (fun l => l) [(p, exMid)]
      (exRock.map ends) (1 / 10 ^ 10) = .ok [p] := by
    have hm : mapRes (fun (o : Line) => linesLineIntersection ⟨1 / 10 ^ 10, 1 / 10 ^ 10⟩ lstsq
        (([(p, exMid)] : List Line).filter fun t => ¬ (Close (1 / 10 ^ 5) (1 / 10 ^ 8) t.1 o.1 ∧
          Close (1 / 10 ^ 5) (1 / 10 ^ 8) t.2 o.2)) o.1 o.2 (1 / 10 ^ 10)) (exRock.map ends) =
        .ok (exRock.map fun e => if e.tag = j then [[p]] else []) := by
      rw [mapRes_iff, List.forall₂_map_left_iff, List.forall₂_map_right_iff, List.forall₂_same]
      exact hobj
    unfold linesLinesPoints linesLinesIntersection
    rw [hm]
    simp only [Res.bind_ok, Res.pure_eq]
    congr 1
    simp only [exRock, List.mem_cons, List.not_mem_nil, or_false] at he0
    rcases he0 with rfl | rfl | rfl | rfl <;> subst hj <;> simp [exRock]
  have hf : linesLinesPoints ⟨1 / 10 ^ 10, 1 / 10 ^ 10⟩ lstsq (fun l => l) [(p, exMid)]
      [(p, exMid)] (1 / 10 ^ 10) = .ok [] := by
    unfold linesLinesPoints linesLinesIntersection
    have hfil : (([(p, exMid)] : List Line).filter fun t =>
        ¬ (Close (1 / 10 ^ 5) (1 / 10 ^ 8) t.1 p ∧ Close (1 / 10 ^ 5) (1 / 10 ^ 8) t.2 exMid)) =
        [] := by
      rw [List.filter_eq_nil_iff]
      intro t ht
      rw [List.mem_singleton] at ht
      subst ht
      rw [decide_eq_true_eq, not_not]
      exact ⟨hself p, hself exMid⟩
    simp only [mapRes, hfil]
    rfl
  have hraw : rawVertices (exEnv argsort argsortTag lstsq) exRock [p] =
      [⟨minTag, e0.physical, p⟩] := by
    have : ∀ e ∈ exRock, ((pointsLineIntersection (1 / 10 ^ 10) [p] e.first.point e.second.point
        (1 / 10 ^ 10)).1.filterMap Out.toOption).map (fun x => (⟨minTag, e.physical, x⟩ : Vtx)) =
        if e.tag = j then [⟨minTag, e.physical, p⟩] else [] := by
      intro e he
      by_cases hej : e.tag = j
      · simp only [pointsLineIntersection, List.map_cons, List.map_nil, h.on e he hej, withMask,
          Out.ofOption, if_pos hej]
        rfl
      · simp only [pointsLineIntersection, List.map_cons, List.map_nil, h.off e he hej, withMask,
          Out.ofOption, if_neg hej]
        rfl
    unfold rawVertices
    simp only [exEnv]
    rw [List.flatMap_congr this]
    simp only [exRock, List.mem_cons, List.not_mem_nil, or_false] at he0
    rcases he0 with rfl | rfl | rfl | rfl <;> subst hj <;> simp [exRock]
  unfold tools
  simp only [exEnv] at hraw ⊢
  simp only [hb, hf, Res.bind_ok, hraw]
  simp [pointVertices, mapRes, uniqueVertices, retag]

theorem ex_setup {p : Pt ℝ} {j : Int} {lstsq : Pt ℝ → Pt ℝ → Pt ℝ → ℝ × ℝ} (h : ExStart p j lstsq)
    {argsort : List ℝ → List Nat} (hs : Fracture.IsArgsort argsort)
    {argsortTag : List Int → List Nat} (ha : IsArgsort argsortTag) {e0 : Edg} (he0 : e0 ∈ exRock)
    (hj : e0.tag = j) :
    IsSetup (exEnv argsort argsortTag lstsq) exPoints defaultTags2 defaultFractureTags
      [(p, exMid)] exRock [exFracture p] [⟨5, e0.physical, p⟩] := by
  have hbc : defaultFractureTags.getItem "internal_bc" = .ok 200 := by rfl
  have hln : defaultFractureTags.getItem "line" = .ok 100 := by rfl
  refine ⟨by simp [exPoints], ha, ex_box, ex_tools h he0 hj, ?_, ⟨?_, ?_, ?_, ?_, ?_⟩, ⟨?_, ?_⟩⟩
  · simp only [fractureEdges, hbc, hln, Res.bind_ok, Res.pure_eq]
    rfl
  · intro e he
    have hends : e.first.point ≠ e.second.point := by
      rcases List.mem_append.1 he with he | he
      · exact (exRock_ends he).2.2
      · rw [List.mem_singleton] at he
        subst he
        exact (h.far exMid (by simp)).1
    refine ⟨hends, by norm_num [exEnv], by norm_num [exEnv], ⟨?_, ?_, ?_⟩, hs, ?_, ?_, ?_⟩
    · simp [exEnv]
    · simp [exEnv]
    · simp [exEnv]
    · intro v hv hoff
      rw [List.mem_singleton] at hv
      subst hv
      rcases List.mem_append.1 he with he | he
      · by_cases hej : e.tag = j
        · exact absurd (h.segment e he hej) hoff
        · exact h.off e he hej
      · rw [List.mem_singleton] at he
        subst he
        exact absurd (left_mem_segment ..) hoff
    · intro v hv hne
      rw [List.mem_singleton] at hv
      subst hv
      have hx : e.first.point ∈ exMid :: exPoints := by
        rcases List.mem_append.1 he with he | he
        · exact (exRock_ends he).1
        · rw [List.mem_singleton] at he
          subst he
          exact absurd rfl hne
      exact ⟨(h.notClose hx (by norm_num) (by norm_num)).1,
        (h.notClose hx (by norm_num [exEnv]) (by norm_num [exEnv])).1,
        (h.notClose hx (by norm_num [exEnv]) (by norm_num [exEnv])).2⟩
    · intro v hv hne
      rw [List.mem_singleton] at hv
      subst hv
      have hx : e.second.point ∈ exMid :: exPoints := by
        rcases List.mem_append.1 he with he | he
        · exact (exRock_ends he).2.1
        · rw [List.mem_singleton] at he
          subst he
          simp [exFracture]
      exact ⟨(h.notClose hx (by norm_num) (by norm_num)).1,
        (h.notClose hx (by norm_num [exEnv]) (by norm_num [exEnv])).1,
        (h.notClose hx (by norm_num [exEnv]) (by norm_num [exEnv])).2⟩
  · refine ⟨by norm_num [exEnv], ?_, ?_⟩
    · intro w hw v hv hc
      rw [List.mem_singleton] at hv
      subst hv
      have far : ∀ x ∈ exMid :: exPoints, w.point = x → w.point = p := by
        intro x hx hwx
        rw [hwx] at hc
        exact absurd hc (h.notClose hx (by norm_num [exEnv]) (by norm_num [exEnv])).2
      rcases hw with hw | ⟨e, he, hw⟩
      · rw [List.mem_singleton] at hw
        rw [hw]
      · rcases List.mem_append.1 he with he | he
        · rcases hw with rfl | rfl
          · exact far _ (exRock_ends he).1 rfl
          · exact far _ (exRock_ends he).2.1 rfl
        · rw [List.mem_singleton] at he
          subst he
          rcases hw with rfl | rfl
          · rfl
          · exact far exMid (by simp) rfl
    · intro v hv w hw _
      rw [List.mem_singleton] at hv hw
      rw [hv, hw]
  · intro v _ w _ h
    exact h
  · intro d _
    exact ⟨fun v w _ _ h => h, fun e _ e' _ h => h⟩
  · refine ⟨exTriangles, rfl, fun e he x hx => ?_⟩
    obtain ⟨t, h0, h1, rfl⟩ := mem_segment_iff.1 hx
    simp only [exRock, List.mem_cons, List.not_mem_nil, or_false] at he
    rcases he with rfl | rfl | rfl | rfl
    · refine ⟨_, List.mem_cons_self, t, 0, h0, le_refl _, by linarith, ?_⟩
      refine pt_ext ?_ ?_ ?_ <;> simp
    · refine ⟨_, List.mem_cons_self, 1 - t, t, by linarith, h0, by linarith, ?_⟩
      refine pt_ext ?_ ?_ ?_ <;> simp
    · refine ⟨_, List.mem_cons_of_mem _ List.mem_cons_self, 1 - t, t, by linarith, h0, by linarith, ?_⟩
      refine pt_ext ?_ ?_ ?_ <;> simp <;> ring
    · refine ⟨_, List.mem_cons_of_mem _ List.mem_cons_self, 0, t, le_refl _, h0, by linarith, ?_⟩
      refine pt_ext ?_ ?_ ?_ <;> simp
  · simp [exRock]
  · intro e he f hf
    rw [List.mem_singleton] at hf
    subst hf
    simp only [exRock, List.mem_cons, List.not_mem_nil, or_false] at he
    rcases he with rfl | rfl | rfl | rfl <;> simp [exFracture]

/-- Segments in two planes apart do not meet, whatever the least squares solution. -/
theorem lineLine_apart {lstsq : Pt ℝ → Pt ℝ → Pt ℝ → ℝ × ℝ} {a b c d : Pt ℝ}
    (ha : pointLineIntersection (1 / 10 ^ 10) a c d (1 / 10 ^ 10) = none)
    (hb : pointLineIntersection (1 / 10 ^ 10) b c d (1 / 10 ^ 10) = none) (k : Fin 3)
    (hab : a k = b k) (hcd : c k = d k) (h1 : |c k| ≤ 1) (h : 1 / 2 ≤ |a k - c k|) :
    lineLineIntersection ⟨1 / 10 ^ 10, 1 / 10 ^ 10⟩ lstsq a b c d (1 / 10 ^ 10) = .ok .none := by
  unfold lineLineIntersection
  have h2 : pointsLineIntersection (1 / 10 ^ 10) [a, b] c d (1 / 10 ^ 10) = ([], [false, false]) := by
    simp only [pointsLineIntersection, List.map_cons, List.map_nil, ha, hb]
    rfl
  simp only [h2]
  rw [if_neg (by simp), if_neg]
  rintro ⟨hc, -⟩
  refine not_close k ?_ hc
  simp only [Pi.add_apply, Pi.smul_apply, Pi.sub_apply, hab, hcd, sub_self, smul_eq_mul, mul_zero,
    add_zero]
  rw [hab, hcd] at h
  rw [hcd] at h1
  have : (1 : ℝ) / 10 ^ 10 ≤ 1 / 8 := by norm_num
  nlinarith [abs_nonneg (d k)]

/-- A segment that ends half way to the plane of another does not meet it. -/
theorem lineLine_short {lstsq : Pt ℝ → Pt ℝ → Pt ℝ → ℝ × ℝ} {a b c d : Pt ℝ}
    (ha : pointLineIntersection (1 / 10 ^ 10) a c d (1 / 10 ^ 10) = none)
    (hb : pointLineIntersection (1 / 10 ^ 10) b c d (1 / 10 ^ 10) = none) (k : Fin 3)
    (hak : a k = 0) (hbk : b k = 1 / 2) (hc : c k = 1) (hd : d k = 1) :
    lineLineIntersection ⟨1 / 10 ^ 10, 1 / 10 ^ 10⟩ lstsq a b c d (1 / 10 ^ 10) = .ok .none := by
  unfold lineLineIntersection
  have h2 : pointsLineIntersection (1 / 10 ^ 10) [a, b] c d (1 / 10 ^ 10) = ([], [false, false]) := by
    simp only [pointsLineIntersection, List.map_cons, List.map_nil, ha, hb]
    rfl
  simp only [h2]
  rw [if_neg (by simp), if_neg]
  generalize lstsq (b - a) (d - c) (c - a) = ts
  rintro ⟨hcl, ⟨-, ht⟩, -⟩
  have hk := hcl k
  simp only [IsClose, Pi.add_apply, Pi.smul_apply, Pi.sub_apply, hak, hbk, hc, hd, sub_self,
    smul_eq_mul, mul_zero, add_zero, zero_add, sub_zero, abs_one] at hk
  have hk := (abs_le.1 hk).1
  have e1 : (1 : ℝ) / 10 ^ 10 ≤ 1 / 16 := by norm_num
  rcases ht with ht | ht
  · linarith
  · have := (abs_le.1 ht).2
    rw [abs_one] at this
    linarith

theorem ex_mid_off : ∀ e ∈ exRock,
    pointLineIntersection (1 / 10 ^ 10) exMid e.first.point e.second.point (1 / 10 ^ 10) = none := by
  intro e he
  simp only [exRock, List.mem_cons, List.not_mem_nil, or_false] at he
  rcases he with rfl | rfl | rfl | rfl
  · refine pointLine_off (not_close 0 ?_) (not_close 0 ?_) ?_
    · norm_num [exMid]
    · norm_num [exMid]
    · rw [cross_2]; simp [exMid]; norm_num
  · refine pointLine_off (not_close 0 ?_) (not_close 0 ?_) ?_
    · norm_num [exMid]
    · norm_num [exMid]
    · rw [cross_2]; simp [exMid]; norm_num
  · refine pointLine_off (not_close 0 ?_) (not_close 0 ?_) ?_
    · norm_num [exMid]
    · norm_num [exMid]
    · rw [cross_2]; simp [exMid]; norm_num
  · refine pointLine_off (not_close 0 ?_) (not_close 0 ?_) ?_
    · norm_num [exMid]
    · norm_num [exMid]
    · rw [cross_2]; simp [exMid]; norm_num

theorem ex_start_first (lstsq : Pt ℝ → Pt ℝ → Pt ℝ → ℝ × ℝ) : ExStart ![1 / 2, 0, 0] 0 lstsq := by
  have hseg : (![1 / 2, 0, 0] : Pt ℝ) ∈ segment ℝ (![0, 0, 0] : Pt ℝ) ![1, 0, 0] := by
    refine mem_segment_iff.2 ⟨1 / 2, by norm_num, by norm_num, ?_⟩
    refine pt_ext ?_ ?_ ?_ <;> simp
  have hoff : ∀ e ∈ exRock, e.tag ≠ 0 → pointLineIntersection (1 / 10 ^ 10) ![1 / 2, 0, 0]
      e.first.point e.second.point (1 / 10 ^ 10) = none := by
    intro e he hne
    simp only [exRock, List.mem_cons, List.not_mem_nil, or_false] at he
    rcases he with rfl | rfl | rfl | rfl
    · exact absurd rfl hne
    · refine pointLine_off (not_close 0 ?_) (not_close 0 ?_) ?_
      · norm_num
      · norm_num
      · rw [cross_2]; simp; norm_num
    · refine pointLine_off (not_close 0 ?_) (not_close 0 ?_) ?_
      · norm_num
      · norm_num
      · rw [cross_2]; simp; norm_num
    · refine pointLine_off (not_close 0 ?_) (not_close 0 ?_) ?_
      · norm_num
      · norm_num
      · rw [cross_2]; simp; norm_num
  refine ⟨?_, hoff, ?_, ex_mid_off, ?_, ?_⟩
  · intro e he hj
    simp only [exRock, List.mem_cons, List.not_mem_nil, or_false] at he
    rcases he with rfl | rfl | rfl | rfl
    · exact pointLine_on (not_close 0 (by norm_num)) (not_close 0 (by norm_num)) hseg
    all_goals simp at hj
  · intro e he hj
    simp only [exRock, List.mem_cons, List.not_mem_nil, or_false] at he
    rcases he with rfl | rfl | rfl | rfl
    · exact hseg
    all_goals simp at hj
  · intro e he hj
    have h1 := hoff e he hj
    have h2 := ex_mid_off e he
    simp only [exRock, List.mem_cons, List.not_mem_nil, or_false] at he
    rcases he with rfl | rfl | rfl | rfl
    · exact absurd rfl hj
    · exact lineLine_apart h1 h2 0 (by simp [exMid]) (by simp) (by simp) (by norm_num)
    · exact lineLine_short h1 h2 1 (by simp) (by simp [exMid]) (by simp) (by simp)
    · exact lineLine_apart h1 h2 0 (by simp [exMid]) (by simp) (by simp) (by norm_num)
  · intro x hx
    simp only [exPoints, List.mem_cons, List.not_mem_nil, or_false] at hx
    rcases hx with rfl | rfl | rfl | rfl | rfl
    · refine ⟨fun h => ?_, 1, by norm_num [exMid], by norm_num [exMid, abs_le], by norm_num⟩
      have := congrFun h 1
      simp [exMid] at this
    all_goals
      refine ⟨fun h => ?_, 0, by norm_num [abs_of_pos], by norm_num, by norm_num [abs_le]⟩
      have := congrFun h 0
      norm_num at this

theorem ex_start_last (lstsq : Pt ℝ → Pt ℝ → Pt ℝ → ℝ × ℝ) : ExStart ![0, 1 / 2, 0] 3 lstsq := by
  have hseg : (![0, 1 / 2, 0] : Pt ℝ) ∈ segment ℝ (![0, 0, 0] : Pt ℝ) ![0, 1, 0] := by
    refine mem_segment_iff.2 ⟨1 / 2, by norm_num, by norm_num, ?_⟩
    refine pt_ext ?_ ?_ ?_ <;> simp
  have hoff : ∀ e ∈ exRock, e.tag ≠ 3 → pointLineIntersection (1 / 10 ^ 10) ![0, 1 / 2, 0]
      e.first.point e.second.point (1 / 10 ^ 10) = none := by
    intro e he hne
    simp only [exRock, List.mem_cons, List.not_mem_nil, or_false] at he
    rcases he with rfl | rfl | rfl | rfl
    · refine pointLine_off (not_close 1 ?_) (not_close 1 ?_) ?_
      · norm_num
      · norm_num
      · rw [cross_2]; simp; norm_num
    · refine pointLine_off (not_close 1 ?_) (not_close 1 ?_) ?_
      · norm_num
      · norm_num
      · rw [cross_2]; simp; norm_num
    · refine pointLine_off (not_close 1 ?_) (not_close 1 ?_) ?_
      · norm_num
      · norm_num
      · rw [cross_2]; simp; norm_num
    · exact absurd rfl hne
  refine ⟨?_, hoff, ?_, ex_mid_off, ?_, ?_⟩
  · intro e he hj
    simp only [exRock, List.mem_cons, List.not_mem_nil, or_false] at he
    rcases he with rfl | rfl | rfl | rfl
    iterate 3 simp at hj
    exact pointLine_on (not_close 1 (by norm_num)) (not_close 1 (by norm_num)) hseg
  · intro e he hj
    simp only [exRock, List.mem_cons, List.not_mem_nil, or_false] at he
    rcases he with rfl | rfl | rfl | rfl
    iterate 3 simp at hj
    exact hseg
  · intro e he hj
    have h1 := hoff e he hj
    have h2 := ex_mid_off e he
    simp only [exRock, List.mem_cons, List.not_mem_nil, or_false] at he
    rcases he with rfl | rfl | rfl | rfl
    · exact lineLine_apart h1 h2 1 (by simp [exMid]) (by simp) (by simp) (by norm_num)
    · exact lineLine_short h1 h2 0 (by simp) (by simp [exMid]) (by simp) (by simp)
    · exact lineLine_apart h1 h2 1 (by simp [exMid]) (by simp) (by simp) (by norm_num)
    · exact absurd rfl hj
  · intro x hx
    simp only [exPoints, List.mem_cons, List.not_mem_nil, or_false] at hx
    rcases hx with rfl | rfl | rfl | rfl | rfl
    · refine ⟨fun h => ?_, 0, by norm_num [exMid], by norm_num [exMid, abs_le], by norm_num⟩
      have := congrFun h 0
      simp [exMid] at this
    all_goals
      refine ⟨fun h => ?_, 1, by norm_num [abs_of_pos], by norm_num, by norm_num [abs_le]⟩
      have := congrFun h 1
      norm_num at this

end Verif.MdBox
