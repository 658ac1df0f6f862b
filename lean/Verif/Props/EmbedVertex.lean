/-
Property theorem C99: vertices embedded in an edge (`embed_vertex_in_edge`,
src/topology/shape_manipulation.py:115-194).
-/
import Verif.Lemmas.EmbedVertex
import Mathlib.Analysis.Convex.Basic

namespace Verif.VertexOps
open MeshBuild MeshGraph Trace MeshMetrics Geometry
open scoped Classical

/-- **C99**.  Unless a vertex is within the tolerances of an end or of the distance between the ends, the function
chooses one vertex at each point nearer to the first end than the second end is, puts vertices that are at the ends
there, and adds edges from the first end through all chosen vertices to the second end. -/
theorem C99_split_partial {argsort : List ℝ → List Nat} (hs : Fracture.IsArgsort argsort) {vs : List Vtx}
    {first second : Vtx} (h : Separated vs first.point second.point) (parts : List Edg) (tag : Int) :
    ∃ e new, embedVertex argsort vs first second parts tag = .ok e ∧ e.parts = parts ++ new ∧
      IsNewEnd vs first e.first ∧ IsNewEnd vs second e.second ∧
      IsChoice vs first.point second.point e.chosen ∧ AreParts e tag new := by
  set us := (uniqueVertices vs).zipIdx with hus
  have hmem : ∀ x ∈ us, IsFirst vs x.1 := fun x hx => mem_unique.1 (by
    obtain ⟨-, -, hx⟩ := List.mem_zipIdx (x := x.1) (i := x.2) hx
    rw [hx]
    exact List.getElem_mem _)
  have hin : ∀ x ∈ us, x.1 ∈ vs := fun x hx => (hmem x hx).mem
  have E := ends_fold h.ne us [] ⟨first, second, []⟩
    ⟨⟨rfl, Or.inr ⟨rfl, by simp⟩⟩, ⟨rfl, Or.inr ⟨rfl, by simp⟩⟩, by simp⟩
    (fun x hx => h.first _ (hin x hx)) (fun x hx => h.second _ (hin x hx))
  rw [List.nil_append] at E
  set s := us.foldl endStep ⟨first, second, []⟩ with hsdef
  obtain ⟨f1, f2⟩ := E.first
  obtain ⟨s1, s2⟩ := E.second
  have some_index : ∀ {v}, IsFirst vs v → ∃ i, (v, i) ∈ us := by
    intro v hv
    obtain ⟨i, hi, e⟩ := List.mem_iff_getElem.1 (mem_unique.2 hv)
    exact ⟨i, List.mk_mem_zipIdx_iff_getElem?.2 (by rw [List.getElem?_eq_getElem hi, e])⟩
  have same_index : ∀ {x y : Vtx × Nat}, x ∈ us → y ∈ us → x.2 = y.2 → x = y := by
    rintro ⟨x, i⟩ ⟨y, j⟩ hx hy (rfl : i = j)
    have h1 := List.mk_mem_zipIdx_iff_getElem?.1 hx
    have h2 := List.mk_mem_zipIdx_iff_getElem?.1 hy
    rw [h1] at h2
    rw [Option.some.inj h2]
  set chosen := (us.filter (inside s)).map Prod.fst with hch
  have hchosen : ∀ v, v ∈ chosen ↔ IsFirst vs v ∧ v.point ≠ first.point ∧
      norm3 (v.point - first.point) < norm3 (second.point - first.point) := by
    intro v
    simp only [hch, List.mem_map, List.mem_filter, inside, f1, s1, sub_self, norm3_zero, decide_eq_true_eq]
    constructor
    · rintro ⟨x, ⟨hx, -, ⟨h1, h2⟩, -⟩, rfl⟩
      refine ⟨hmem x hx, ?_, h2⟩
      intro e
      rw [e, sub_self, norm3_zero] at h1
      exact lt_irrefl _ h1
    · rintro ⟨hf, hne, hlt⟩
      obtain ⟨i, hi⟩ := some_index hf
      have hpos : 0 < norm3 (v.point - first.point) :=
        lt_of_le_of_ne (norm3_nonneg _) fun e => hne (sub_eq_zero.1 (norm3_eq_zero.1 e.symm))
      refine ⟨(v, i), ⟨hi, ?_, ⟨hpos, hlt⟩, h.near v hf.mem hne, h.far v hf.mem hlt.ne⟩, rfl⟩
      intro hbc
      obtain ⟨x, hx, e, hp⟩ := (E.onBc i).1 hbc
      have := same_index hx hi e
      subst this
      rcases hp with hp | hp
      · exact hne hp
      · exact absurd hlt (by rw [show v.point = second.point from hp]; exact lt_irrefl _)
  have honce : chosen.Pairwise fun v w => LexLe v.point w.point ∧ v.point ≠ w.point := by
    refine (unique_once vs).sublist ?_
    have : chosen.Sublist (us.map Prod.fst) := List.filter_sublist.map _
    rwa [hus, List.zipIdx_map_fst] at this
  have end1 : IsNewEnd vs first s.first := ⟨f1, f2.imp (fun ⟨i, hi⟩ => hmem _ hi) fun ⟨e, hn⟩ => ⟨e, fun v hv e' => by
    obtain ⟨w, hw, hwv⟩ := exists_first hv
    obtain ⟨i, hi⟩ := some_index hw
    exact hn _ hi (hwv.trans e')⟩⟩
  have end2 : IsNewEnd vs second s.second := ⟨s1, s2.imp (fun ⟨i, hi⟩ => hmem _ hi) fun ⟨e, hn⟩ => ⟨e, fun v hv e' => by
    obtain ⟨w, hw, hwv⟩ := exists_first hv
    obtain ⟨i, hi⟩ := some_index hw
    exact hn _ hi (hwv.trans e')⟩⟩
  by_cases hempty : chosen = []
  · refine ⟨⟨s.first, s.second, parts, chosen⟩, [], ?_, by simp, end1, end2, ⟨hchosen, honce⟩,
      by unfold AreParts; rw [if_pos hempty]⟩
    unfold embedVertex
    simp only
    rw [if_neg (by rw [← hus, ← hsdef, ← hch, hempty]; simp)]
    rfl
  · obtain ⟨sorted, g1, -, g3⟩ := Fracture.argsort_spec hs (D := fun v : Vtx => norm3 (v.point - s.first.point))
      ([s.first, s.second] ++ chosen)
    have g2 := argsort_perm hs _ g1
    have dpos : ∀ x ∈ chosen, norm3 (s.first.point - s.first.point) < norm3 (x.point - s.first.point) := by
      intro x hx
      rw [sub_self, norm3_zero, f1]
      exact lt_of_le_of_ne (norm3_nonneg _) fun e =>
        ((hchosen x).1 hx).2.1 (sub_eq_zero.1 (norm3_eq_zero.1 e.symm))
    have dlt : ∀ x ∈ chosen, norm3 (x.point - s.first.point) < norm3 (s.second.point - s.first.point) := by
      intro x hx
      rw [f1, s1]
      exact ((hchosen x).1 hx).2.2
    obtain ⟨x, hx⟩ := List.exists_mem_of_ne_nil _ hempty
    obtain ⟨inner, hsorted, hperm⟩ := sorted_ends (D := fun v : Vtx => norm3 (v.point - s.first.point)) g2 g3 dpos dlt
      ((dpos x hx).trans (dlt x hx))
    refine ⟨⟨s.first, s.second, parts ++ partsOf tag sorted, chosen⟩, partsOf tag sorted, ?_, rfl, end1, end2,
      ⟨hchosen, honce⟩, ?_⟩
    · unfold embedVertex
      simp only
      rw [if_pos (by
        rw [← hus, ← hsdef, ← hch]
        have := List.length_pos_of_ne_nil hempty
        simp only [List.length_map, List.length_append, List.length_cons, List.length_nil]
        omega), ← hus, ← hsdef, ← hch, g1]
      rfl
    · unfold AreParts
      rw [if_neg hempty]
      refine ⟨inner, hperm, ?_, hsorted ▸ joins_partsOf sorted tag (by rw [hsorted]; simp)⟩
      rw [hsorted] at g3
      exact (List.pairwise_append.1 (List.pairwise_cons.1 g3).2).1

/-- **C99**.  If moreover all vertices are on the edge, each of them is at an end or among the chosen ones, and the
new edges cover the edge, and nothing else. -/
theorem C99_edge_partial {argsort : List ℝ → List Nat} (hs : Fracture.IsArgsort argsort) {vs : List Vtx}
    {first second : Vtx} (h : Separated vs first.point second.point)
    (hon : ∀ v ∈ vs, v.point ∈ segment ℝ first.point second.point) (parts : List Edg) (tag : Int) :
    ∃ e new, embedVertex argsort vs first second parts tag = .ok e ∧ e.parts = parts ++ new ∧
      (∀ v ∈ vs, v.point = first.point ∨ v.point = second.point ∨ ∃ w ∈ e.chosen, w.point = v.point) ∧
      (e.chosen ≠ [] → ∀ z, z ∈ segment ℝ first.point second.point ↔
        ∃ p ∈ new, z ∈ segment ℝ p.first.point p.second.point) := by
  obtain ⟨e, new, h1, h2, h3, h4, h5, h6⟩ := C99_split_partial hs h parts tag
  refine ⟨e, new, h1, h2, fun v hv => ?_, fun hne z => ?_⟩
  · by_cases hf : v.point = first.point
    · exact Or.inl hf
    by_cases hse : v.point = second.point
    · exact Or.inr (Or.inl hse)
    obtain ⟨w, hw, hwv⟩ := exists_first hv
    refine Or.inr (Or.inr ⟨w, (h5.mem w).2 ⟨hw, by rw [hwv]; exact hf, ?_⟩, hwv⟩)
    obtain ⟨t, t0, t1, ht⟩ := mem_segment_iff.1 (hon v hv)
    rw [hwv, ht, add_sub_cancel_left, norm3_smul, abs_of_nonneg t0]
    have hpos : 0 < norm3 (second.point - first.point) :=
      lt_of_le_of_ne (norm3_nonneg _) fun e => h.ne (sub_eq_zero.1 (norm3_eq_zero.1 e.symm)).symm
    have : t ≠ 1 := by
      rintro rfl
      exact hse (by rw [ht]; simp)
    nlinarith [lt_of_le_of_ne t1 this]
  · unfold AreParts at h6
    rw [if_neg hne] at h6
    obtain ⟨inner, k1, k2, k3⟩ := h6
    have onseg : ∀ v ∈ e.first :: inner ++ [e.second], v.point ∈ segment ℝ first.point second.point := by
      intro v hv
      simp only [List.cons_append, List.mem_cons, List.mem_append, List.not_mem_nil, or_false] at hv
      rcases hv with rfl | hv | rfl
      · rw [h3.1]; exact left_mem_segment ℝ _ _
      · exact hon v ((h5.mem v).1 (k1.mem_iff.1 hv)).1.mem
      · rw [h4.1]; exact right_mem_segment ℝ _ _
    constructor
    · intro hz
      obtain ⟨t, t0, t1, rfl⟩ := mem_segment_iff.1 hz
      exact chain_covers _ tag new _ _ inner rfl k3
        (fun v hv => by
          obtain ⟨t, -, -, ht⟩ := mem_segment_iff.1 (onseg v hv)
          exact ⟨t, ht⟩) 0 1 t (by rw [h3.1]; simp) (by rw [h4.1]; simp) t0 t1
    · rintro ⟨p, hp, hz⟩
      obtain ⟨i, hi, rfl⟩ := List.mem_iff_getElem.1 hp
      obtain ⟨-, -, -, v, w, hv, hw, he⟩ := k3.joined i _ (List.getElem?_eq_getElem hi)
      have m1 := onseg v (List.mem_of_getElem? hv)
      have m2 := onseg w (List.mem_of_getElem? hw)
      have c : Convex ℝ (segment ℝ first.point second.point) := convex_segment _ _
      rcases he with ⟨e1, e2⟩ | ⟨e1, e2⟩
      · rw [e1, e2] at hz; exact c.segment_subset m1 m2 hz
      · rw [e1, e2] at hz; exact c.segment_subset m2 m1 hz

/-- An edge from the origin to (2, 0, 0), a vertex behind its first end and one beside it -/
def origin : Vtx := ⟨0, none, ![0, 0, 0]⟩
def two : Vtx := ⟨1, none, ![2, 0, 0]⟩
def behind : Vtx := ⟨2, none, ![-1, 0, 0]⟩
def beside : Vtx := ⟨3, none, ![0, 1, 0]⟩

theorem separated_off : Separated [behind, beside] origin.point two.point := by
  have n1 : norm3 (behind.point - origin.point) = 1 := by simp [norm3, behind, origin]
  have n2 : norm3 (beside.point - origin.point) = 1 := by simp [norm3, beside, origin]
  have n3 : norm3 (two.point - origin.point) = 2 := by
    rw [show two.point - origin.point = (2 : ℝ) • ![1, 0, 0] by
      refine pt_ext ?_ ?_ ?_ <;> simp [two, origin], norm3_smul]
    simp [norm3]
  refine ⟨fun e => ?_, fun v hv _ => ?_, fun v hv _ => ?_, fun v hv _ => ?_, fun v hv _ => ?_⟩
  · have := congrFun e 0
    simp [origin, two] at this
  all_goals
    simp only [List.mem_cons, List.not_mem_nil, or_false] at hv
  · rcases hv with rfl | rfl
    · intro h
      have := h 0
      norm_num [IsClose, behind, origin] at this
    · intro h
      have := h 1
      norm_num [IsClose, beside, origin] at this
  · rcases hv with rfl | rfl
    · intro h
      have := h 0
      norm_num [IsClose, behind, two] at this
    · intro h
      have := h 1
      norm_num [IsClose, beside, two] at this
  · rcases hv with rfl | rfl
    · rw [n1]; norm_num [IsClose]
    · rw [n2]; norm_num [IsClose]
  · rcases hv with rfl | rfl
    · rw [n1, n3]; norm_num [IsClose]
    · rw [n2, n3]; norm_num [IsClose]

/-- **C99 is violated**: only the distance from the first end is looked at, so that a vertex behind the first end
and one beside the line are embedded. -/
theorem C99_off_violated : behind.point ∉ segment ℝ origin.point two.point ∧
    beside.point ∉ segment ℝ origin.point two.point ∧
    ∀ argsort, Fracture.IsArgsort argsort → ∀ parts tag,
      ∃ e, embedVertex argsort [behind, beside] origin two parts tag = .ok e ∧ behind ∈ e.chosen ∧
        beside ∈ e.chosen := by
  have n1 : norm3 (behind.point - origin.point) = 1 := by simp [norm3, behind, origin]
  have n2 : norm3 (beside.point - origin.point) = 1 := by simp [norm3, beside, origin]
  have n3 : norm3 (two.point - origin.point) = 2 := by
    rw [show two.point - origin.point = (2 : ℝ) • ![1, 0, 0] by
      refine pt_ext ?_ ?_ ?_ <;> simp [two, origin], norm3_smul]
    simp [norm3]
  refine ⟨fun h => ?_, fun h => ?_, fun argsort hs parts tag => ?_⟩
  · obtain ⟨t, t0, -, h⟩ := mem_segment_iff.1 h
    have := congrFun h 0
    simp [behind, origin, two] at this
    linarith
  · obtain ⟨t, t0, -, h⟩ := mem_segment_iff.1 h
    have := congrFun h 1
    simp [beside, origin, two] at this
  · obtain ⟨e, new, h1, -, -, -, h5, -⟩ := C99_split_partial hs separated_off parts tag
    refine ⟨e, h1, (h5.mem _).2 ⟨?_, fun e => ?_, ?_⟩, (h5.mem _).2 ⟨?_, fun e => ?_, ?_⟩⟩
    · simp [IsFirst]
    · have := congrFun e 0
      simp [behind, origin] at this
    · rw [n1, n3]; norm_num
    · have : behind.point ≠ beside.point := fun e => by
        have := congrFun e 0
        simp [behind, beside] at this
      simp [IsFirst, this]
    · have := congrFun e 1
      simp [beside, origin] at this
    · rw [n2, n3]; norm_num

/-- **C99 is violated**: the tolerance for the distance from the first end grows with the length of the edge, the
one for the ends does not; a vertex on the edge that is between the two is left out. -/
theorem C99_lost_violated : ∃ v a b : Vtx, v.point ∈ segment ℝ a.point b.point ∧ v.point ≠ a.point ∧
    v.point ≠ b.point ∧ ∀ argsort parts tag,
      embedVertex argsort [v] a b parts tag = .ok ⟨a, b, parts, []⟩ := by
  refine ⟨⟨2, none, ![-1 / 20000, 0, 0]⟩, ⟨0, none, ![-10, 0, 0]⟩, ⟨1, none, ![0, 0, 0]⟩, ?_, fun e => ?_,
    fun e => ?_, fun argsort parts tag => ?_⟩
  · refine mem_segment_iff.2 ⟨1 - 1 / 200000, by norm_num, by norm_num, ?_⟩
    refine pt_ext ?_ ?_ ?_ <;> simp <;> norm_num
  · have := congrFun e 0
    norm_num at this
  · have := congrFun e 0
    norm_num at this
  · have n1 : norm3 ((![-1 / 20000, 0, 0] : Pt ℝ) - ![-10, 0, 0]) = 199999 / 20000 := by
      rw [show (![-1 / 20000, 0, 0] : Pt ℝ) - ![-10, 0, 0] = (199999 / 20000 : ℝ) • ![1, 0, 0] by
        refine pt_ext ?_ ?_ ?_ <;> simp <;> norm_num, norm3_smul, abs_of_pos (by norm_num)]
      simp [norm3]
    have n2 : norm3 ((![0, 0, 0] : Pt ℝ) - ![-10, 0, 0]) = 10 := by
      rw [show (![0, 0, 0] : Pt ℝ) - ![-10, 0, 0] = (10 : ℝ) • ![1, 0, 0] by
        refine pt_ext ?_ ?_ ?_ <;> simp, norm3_smul, abs_of_pos (by norm_num)]
      simp [norm3]
    have c1 : ¬ DefaultClose (![-1 / 20000, 0, 0] : Pt ℝ) ![-10, 0, 0] := by
      intro h
      have := h 0
      norm_num [IsClose] at this
    have c2 : ¬ DefaultClose (![-1 / 20000, 0, 0] : Pt ℝ) ![0, 0, 0] := by
      intro h
      have := h 0
      norm_num [IsClose] at this
    have hu : uniqueVertices [⟨2, none, ![-1 / 20000, 0, 0]⟩] = [⟨2, none, ![-1 / 20000, 0, 0]⟩] := by
      simp [uniqueVertices, firstOnes]
    have hstep : [((⟨2, none, ![-1 / 20000, 0, 0]⟩ : Vtx), 0)].foldl endStep
        ⟨⟨0, none, ![-10, 0, 0]⟩, ⟨1, none, ![0, 0, 0]⟩, []⟩ =
        ⟨⟨0, none, ![-10, 0, 0]⟩, ⟨1, none, ![0, 0, 0]⟩, []⟩ := by
      simp only [List.foldl_cons, List.foldl_nil, endStep]
      rw [if_neg c1, if_neg c2]
    have hin : inside ⟨⟨0, none, ![-10, 0, 0]⟩, ⟨1, none, ![0, 0, 0]⟩, []⟩
        ((⟨2, none, ![-1 / 20000, 0, 0]⟩ : Vtx), 0) = false := by
      unfold inside
      simp only [n1, n2]
      refine decide_eq_false ?_
      rintro ⟨-, -, -, h⟩
      exact h (by unfold IsClose; norm_num [abs_of_pos, abs_of_neg])
    have hz : (uniqueVertices [⟨2, none, ![-1 / 20000, 0, 0]⟩]).zipIdx =
        [((⟨2, none, ![-1 / 20000, 0, 0]⟩ : Vtx), 0)] := by rw [hu]; rfl
    unfold embedVertex
    simp only [hz, hstep, List.filter_cons, hin, List.filter_nil]
    simp

/-- The hypotheses of `C99_edge_partial` hold for two vertices on an edge, one of them at its end. -/
example : ∃ vs : List Vtx, vs.length = 2 ∧ Separated vs origin.point two.point ∧
    ∀ v ∈ vs, v.point ∈ segment ℝ origin.point two.point := by
  have n1 : norm3 ((![1, 0, 0] : Pt ℝ) - origin.point) = 1 := by simp [norm3, origin]
  have n3 : norm3 (two.point - origin.point) = 2 := by
    rw [show two.point - origin.point = (2 : ℝ) • ![1, 0, 0] by
      refine pt_ext ?_ ?_ ?_ <;> simp [two, origin], norm3_smul]
    simp [norm3]
  refine ⟨[⟨2, none, ![1, 0, 0]⟩, two], rfl, ⟨fun e => ?_, fun v hv h => ?_, fun v hv h => ?_, fun v hv h => ?_,
    fun v hv h => ?_⟩, fun v hv => ?_⟩
  · have := congrFun e 0
    simp [origin, two] at this
  all_goals
    simp only [List.mem_cons, List.not_mem_nil, or_false] at hv
  · rcases hv with rfl | rfl
    · intro h
      have := h 0
      norm_num [IsClose, origin] at this
    · intro h
      have := h 0
      norm_num [IsClose, two, origin] at this
  · rcases hv with rfl | rfl
    · intro h
      have := h 0
      norm_num [IsClose, two] at this
    · exact absurd rfl h
  · rcases hv with rfl | rfl
    · rw [n1]; norm_num [IsClose]
    · rw [n3]; norm_num [IsClose]
  · rcases hv with rfl | rfl
    · rw [n1, n3]; norm_num [IsClose]
    · exact absurd rfl h
  · rcases hv with rfl | rfl
    · refine mem_segment_iff.2 ⟨1 / 2, by norm_num, by norm_num, ?_⟩
      refine pt_ext ?_ ?_ ?_ <;> simp [origin, two]
    · exact right_mem_segment ℝ _ _

#print axioms C99_split_partial
#print axioms C99_edge_partial
#print axioms C99_off_violated
#print axioms C99_lost_violated

end Verif.VertexOps
