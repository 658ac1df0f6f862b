/-
Property theorem C100: the intersection of edges (`intersect_edges`, src/topology/shape_manipulation.py:197-289).
-/
import Verif.Lemmas.IntersectEdges

namespace Verif.VertexOps
open MeshBuild MeshGraph Trace MeshMetrics Geometry
open scoped Classical

/-- **C100**.  Unless something is within the tolerances, the vertices that `intersect_edges` returns are one at
each point which two edges have in common without having a common vertex there, every edge is cut at these points,
and the edges returned are the parts. -/
theorem C100_cut_partial {argsort : List ℝ → List Nat} (hs : Fracture.IsArgsort argsort) {items : List Item}
    {axis : Int} (hD : Drawing (axesOf axis) items) (etag vtag ptag : Int) :
    ∃ out, intersectEdges argsort items axis etag vtag ptag = .ok out ∧
      IsFragments (fun i => {z | CutAt items i z}) items etag vtag ptag out :=
  run_done hs (fun _ _ => cutAt_iff hD) (fun i e z hi hz => hD.clear i e z hi (CutAt.meets hz))
    (fun _ _ _ hi hz => CutAt.mem hz hi) hD.fresh

/-- **C100**.  After that two edges have in common only vertices that are ends of the pieces of both, two pieces of
one edge only the vertex between them, and the pieces of an edge cover it, and nothing else. -/
theorem C100_conforming_partial {argsort : List ℝ → List Nat} (hs : Fracture.IsArgsort argsort) {items : List Item}
    {axis : Int} (hD : Drawing (axesOf axis) items) (etag vtag ptag : Int) :
    ∃ out, intersectEdges argsort items axis etag vtag ptag = .ok out ∧
      (∀ (i j : Nat) (e f : LEdge), i ≠ j → out.items[i]? = some (some e) → out.items[j]? = some (some f) →
        ∀ p ∈ e.pieces, ∀ q ∈ f.pieces, MeetAtEnds p q) ∧
      (∀ (i : Nat) (e : LEdge), out.items[i]? = some (some e) → e.pieces.Pairwise MeetAtEnds) ∧
      ∀ (i : Nat) (e e' : LEdge), items[i]? = some (some e) → out.items[i]? = some (some e') →
        ∀ z, z ∈ e.span ↔ ∃ p ∈ e'.pieces, z ∈ segment ℝ p.first.point p.second.point := by
  obtain ⟨out, run, F⟩ := C100_cut_partial hs hD etag vtag ptag
  have once : Once out.vertices := F.sorted.imp fun h => h.2
  have old : ∀ {i : Nat} {e' : LEdge}, out.items[i]? = some (some e') → ∃ e, items[i]? = some (some e) ∧
      ∃ t, IsCut out.vertices {z | CutAt items i z} e e' t := by
    intro i e' h
    have hi : i < items.length := by
      rw [← F.length]
      exact (List.getElem?_eq_some_iff.1 h).1
    cases hx : items[i] with
    | none =>
      have := F.wires i (by rw [List.getElem?_eq_getElem hi, hx])
      rw [h] at this
      simp at this
    | some e =>
      have he : items[i]? = some (some e) := by rw [List.getElem?_eq_getElem hi, hx]
      obtain ⟨e'', h1, h2⟩ := F.cut i e he
      rw [h] at h1
      obtain rfl := Option.some.inj (Option.some.inj h1)
      exact ⟨e, he, _, h2⟩
  -- the vertex of an edge at a point where it is cut
  have atCut : ∀ {i : Nat} {e e' : LEdge} {t : Int}, items[i]? = some (some e) →
      IsCut out.vertices {z | CutAt items i z} e e' t → ∀ {z}, CutAt items i z → ∀ {p}, p ∈ e'.pieces →
      z ∈ segment ℝ p.first.point p.second.point → ∃ v ∈ out.vertices, v.point = z ∧ v ∈ [p.first, p.second] := by
    intro i e e' t he hc z hz p hp hzp
    obtain ⟨inner, k1, k2, k3, -⟩ := along_of_cut hc (fun z hz => CutAt.mem hz he)
    have : ∃ v ∈ out.vertices, v.point = z ∧ v ∈ e'.first :: inner ++ [e'.second] := by
      by_cases h1 : z = e.first.point
      · exact ⟨e'.first, hc.first.2.1 (h1 ▸ hz), hc.first.1.trans h1.symm, by simp⟩
      by_cases h2 : z = e.second.point
      · exact ⟨e'.second, hc.second.2.1 (h2 ▸ hz), hc.second.1.trans h2.symm, by simp⟩
      obtain ⟨v, hv, hvz⟩ := (k2 z).2 ⟨hz, h1, h2⟩
      exact ⟨v, k1 v hv, hvz, by simp [hv]⟩
    obtain ⟨v, h1, h2, h3⟩ := this
    exact ⟨v, h1, h2, k3.at_end hp h3 (by rw [h2]; exact hzp)⟩
  -- the vertex of an edge at an end where it is not cut
  have atEnd : ∀ {i : Nat} {e e' : LEdge} {t : Int}, items[i]? = some (some e) →
      IsCut out.vertices {z | CutAt items i z} e e' t → ∀ {v}, v ∈ [e.first, e.second] → ¬ CutAt items i v.point →
      ∀ {p}, p ∈ e'.pieces → v.point ∈ segment ℝ p.first.point p.second.point → v ∈ [p.first, p.second] := by
    intro i e e' t he hc v hv hn p hp hzp
    obtain ⟨inner, -, -, k3, -⟩ := along_of_cut hc (fun z hz => CutAt.mem hz he)
    refine k3.at_end hp ?_ hzp
    simp only [List.mem_cons, List.not_mem_nil, or_false] at hv
    rcases hv with rfl | rfl
    · rw [hc.first.2.2 hn]; simp
    · rw [hc.second.2.2 hn]; simp
  have inSpan : ∀ {i : Nat} {e e' : LEdge} {t : Int}, items[i]? = some (some e) →
      IsCut out.vertices {z | CutAt items i z} e e' t → ∀ {p}, p ∈ e'.pieces → ∀ {z},
      z ∈ segment ℝ p.first.point p.second.point → z ∈ e.span := by
    intro i e e' t he hc p hp z hz
    obtain ⟨inner, -, -, k3, -⟩ := along_of_cut hc (fun z hz => CutAt.mem hz he)
    obtain ⟨k, hk⟩ := List.mem_iff_getElem?.1 hp
    exact (k3.piece hk hz).1
  -- linked edges are cut at the same points
  have same : ∀ {i j : Nat} {e f : LEdge}, i ≠ j → items[i]? = some (some e) → items[j]? = some (some f) →
      ∀ {z}, z ∈ f.span → Linked e f z → CutAt items i z → CutAt items j z := by
    rintro i j e f hij he hf z hzf hl ⟨e₁, k, g, h1, h2, h3, h4, h5, h6⟩
    rw [he] at h1
    obtain rfl := Option.some.inj (Option.some.inj h1)
    by_cases hk : k = j
    · subst hk
      rw [hf] at h2
      obtain rfl := Option.some.inj (Option.some.inj h2)
      exact absurd hl h6
    · refine ⟨f, k, g, hf, h2, hk, hzf, h5, fun hfg => h6 ?_⟩
      obtain ⟨v, hv, w, hw, p1, p2, p3⟩ := hl
      obtain ⟨w', hw', u, hu, p4, p5, p6⟩ := hfg
      have : w = w' := by
        have hne := (hD.fresh f (List.mem_of_getElem? hf)).2
        simp only [List.mem_cons, List.not_mem_nil, or_false] at hw hw'
        rcases hw with rfl | rfl <;> rcases hw' with rfl | rfl
        · rfl
        · exact absurd (p2.trans p4.symm) hne
        · exact absurd (p4.trans p2.symm) hne
        · rfl
      subst this
      exact ⟨v, hv, u, hu, p1, p5, p3.trans p6⟩
  refine ⟨out, run, ?_, ?_, ?_⟩
  · intro i j e' f' hij he' hf' p hp q hq z hzp hzq
    obtain ⟨e, he, t, hce⟩ := old he'
    obtain ⟨f, hf, s, hcf⟩ := old hf'
    have ze := inSpan he hce hp hzp
    have zf := inSpan hf hcf hq hzq
    have both : CutAt items i z → CutAt items j z → ∃ v ∈ [p.first, p.second], ∃ w ∈ [q.first, q.second],
        v.point = z ∧ w.point = z ∧ v.tag = w.tag := by
      intro ci cj
      obtain ⟨v, v1, v2, v3⟩ := atCut he hce ci hp hzp
      obtain ⟨w, w1, w2, w3⟩ := atCut hf hcf cj hq hzq
      exact ⟨v, v3, w, w3, v2, w2, by rw [once.eq v1 w1 (v2.trans w2.symm)]⟩
    by_cases hl : Linked e f z
    · by_cases ci : CutAt items i z
      · exact both ci (same hij he hf zf hl ci)
      · have cj : ¬ CutAt items j z := fun cj => ci (same hij.symm hf he ze (linked_symm hl) cj)
        obtain ⟨v, hv, w, hw, p1, p2, p3⟩ := hl
        exact ⟨v, atEnd he hce hv (p1 ▸ ci) hp (p1 ▸ hzp), w, atEnd hf hcf hw (p2 ▸ cj) hq (p2 ▸ hzq), p1, p2, p3⟩
    · exact both ⟨e, j, f, he, hf, hij.symm, ze, zf, hl⟩ ⟨f, i, e, hf, he, hij, zf, ze, fun h => hl (linked_symm h)⟩
  · intro i e' he'
    obtain ⟨e, he, t, hce⟩ := old he'
    obtain ⟨inner, -, -, k3, -⟩ := along_of_cut hce (fun z hz => CutAt.mem hz he)
    rw [List.pairwise_iff_getElem]
    intro k l hk hl hkl z hz hz'
    obtain ⟨v, h1, h2, h3⟩ := k3.apart (hD.fresh e (List.mem_of_getElem? he)).2 hkl (List.getElem?_eq_getElem hk)
      (List.getElem?_eq_getElem hl) hz hz'
    exact ⟨v, h2, v, h3, h1, h1, rfl⟩
  · intro i e e' he he' z
    obtain ⟨e₁, he₁, t, hce⟩ := old he'
    rw [he] at he₁
    obtain rfl := Option.some.inj (Option.some.inj he₁)
    obtain ⟨inner, -, -, -, k4⟩ := along_of_cut hce (fun z hz => CutAt.mem hz he)
    exact ⟨k4 z, fun ⟨p, hp, hz⟩ => inSpan he hce hp hz⟩

/-! ### Examples -/

theorem norm3_x (x : ℝ) : norm3 ![x, 0, 0] = |x| := by
  rw [show (![x, 0, 0] : Pt ℝ) = x • ![1, 0, 0] by refine pt_ext ?_ ?_ ?_ <;> simp, norm3_smul]
  simp [norm3]

theorem norm3_y (y : ℝ) : norm3 ![0, y, 0] = |y| := by
  rw [show (![0, y, 0] : Pt ℝ) = y • ![0, 1, 0] by refine pt_ext ?_ ?_ ?_ <;> simp, norm3_smul]
  simp [norm3]

/-- Edges on a line in the direction of the first axis, and a point of the line -/
theorem separated_x {x a b y : ℝ} (ha : x = a ∨ 1 ≤ |x - a|) (hb : x = b ∨ 1 ≤ |x - b|) (hab : a ≠ b)
    (h3 : |a| ≤ 9 ∧ |b| ≤ 9) (hd : |x - a| = |b - a| ∨ 1 ≤ abs (|x - a| - |b - a|)) (h4 : |b - a| ≤ 9) :
    Separated [⟨0, none, ![x, y, 0]⟩] ![a, y, 0] ![b, y, 0] := by
  have n1 : norm3 (![x, y, 0] - ![a, y, 0]) = |x - a| := by
    rw [← norm3_x]; congr 1; refine pt_ext ?_ ?_ ?_ <;> simp
  have n2 : norm3 (![b, y, 0] - ![a, y, 0]) = |b - a| := by
    rw [← norm3_x]; congr 1; refine pt_ext ?_ ?_ ?_ <;> simp
  refine ⟨fun e => hab (by simpa using congrFun e 0), fun v hv hne => ?_, fun v hv hne => ?_, fun v hv hne => ?_,
    fun v hv hne => ?_⟩ <;> obtain rfl := List.mem_singleton.1 hv
  · rcases ha with ha | ha
    · rw [ha] at hne; exact absurd rfl hne
    · intro h
      have := h 0
      simp only [IsClose, Matrix.cons_val_zero] at this
      linarith [h3.1]
  · rcases hb with hb | hb
    · rw [hb] at hne; exact absurd rfl hne
    · intro h
      have := h 0
      simp only [IsClose, Matrix.cons_val_zero] at this
      linarith [h3.2]
  · rcases ha with ha | ha
    · rw [ha] at hne; exact absurd rfl hne
    · rw [n1]
      intro h
      simp only [IsClose, sub_zero, abs_abs, abs_zero] at h
      linarith
  · rw [n1, n2] at *
    rcases hd with hd | hd
    · exact absurd hd hne
    · intro h
      simp only [IsClose, abs_abs] at h
      linarith

/-- The same in the direction of the second axis -/
theorem separated_y {x a b y : ℝ} (ha : x = a ∨ 1 ≤ |x - a|) (hb : x = b ∨ 1 ≤ |x - b|) (hab : a ≠ b)
    (h3 : |a| ≤ 9 ∧ |b| ≤ 9) (hd : |x - a| = |b - a| ∨ 1 ≤ abs (|x - a| - |b - a|)) (h4 : |b - a| ≤ 9) :
    Separated [⟨0, none, ![y, x, 0]⟩] ![y, a, 0] ![y, b, 0] := by
  have n1 : norm3 (![y, x, 0] - ![y, a, 0]) = |x - a| := by
    rw [← norm3_y]; congr 1; refine pt_ext ?_ ?_ ?_ <;> simp
  have n2 : norm3 (![y, b, 0] - ![y, a, 0]) = |b - a| := by
    rw [← norm3_y]; congr 1; refine pt_ext ?_ ?_ ?_ <;> simp
  refine ⟨fun e => hab (by simpa using congrFun e 1), fun v hv hne => ?_, fun v hv hne => ?_, fun v hv hne => ?_,
    fun v hv hne => ?_⟩ <;> obtain rfl := List.mem_singleton.1 hv
  · rcases ha with ha | ha
    · rw [ha] at hne; exact absurd rfl hne
    · intro h
      have := h 1
      simp only [IsClose, Matrix.cons_val_one, Matrix.cons_val_zero] at this
      linarith [h3.1]
  · rcases hb with hb | hb
    · rw [hb] at hne; exact absurd rfl hne
    · intro h
      have := h 1
      simp only [IsClose, Matrix.cons_val_one, Matrix.cons_val_zero] at this
      linarith [h3.2]
  · rcases ha with ha | ha
    · rw [ha] at hne; exact absurd rfl hne
    · rw [n1]
      intro h
      simp only [IsClose, sub_zero, abs_abs, abs_zero] at h
      linarith
  · rw [n1, n2] at *
    rcases hd with hd | hd
    · exact absurd hd hne
    · intro h
      simp only [IsClose, abs_abs] at h
      linarith

/-- An edge, one that crosses it, a wire, and one that has an end in common with it -/
def lower : LEdge := ⟨0, none, ⟨0, none, ![0, 0, 0]⟩, ⟨1, none, ![2, 0, 0]⟩, []⟩
def middle : LEdge := ⟨1, none, ⟨2, none, ![1, -1, 0]⟩, ⟨3, none, ![1, 1, 0]⟩, []⟩
def right : LEdge := ⟨2, none, ⟨1, none, ![2, 0, 0]⟩, ⟨4, none, ![2, 1, 0]⟩, []⟩
def drawing : List Item := [some lower, some middle, none, some right]

theorem mem_lower {z : Pt ℝ} : z ∈ lower.span ↔ (0 ≤ z 0 ∧ z 0 ≤ 2) ∧ z 1 = 0 ∧ z 2 = 0 := by
  unfold LEdge.span
  rw [mem_segment_iff]
  constructor
  · rintro ⟨t, t0, t1, rfl⟩
    simp [lower]
    constructor <;> linarith
  · rintro ⟨⟨h0, h1⟩, h2, h3⟩
    exact ⟨z 0 / 2, by linarith, by linarith, by refine pt_ext ?_ ?_ ?_ <;> simp [lower, h2, h3]⟩

theorem mem_middle {z : Pt ℝ} : z ∈ middle.span ↔ z 0 = 1 ∧ (-1 ≤ z 1 ∧ z 1 ≤ 1) ∧ z 2 = 0 := by
  unfold LEdge.span
  rw [mem_segment_iff]
  constructor
  · rintro ⟨t, t0, t1, rfl⟩
    simp [middle]
    constructor <;> linarith
  · rintro ⟨h1, ⟨h2, h2'⟩, h3⟩
    refine ⟨(z 1 + 1) / 2, by linarith, by linarith, by refine pt_ext ?_ ?_ ?_ <;> simp [middle, h1, h3] <;> ring⟩

theorem mem_right {z : Pt ℝ} : z ∈ right.span ↔ z 0 = 2 ∧ (0 ≤ z 1 ∧ z 1 ≤ 1) ∧ z 2 = 0 := by
  unfold LEdge.span
  rw [mem_segment_iff]
  constructor
  · rintro ⟨t, t0, t1, rfl⟩
    simp [right, t0, t1]
  · rintro ⟨h1, ⟨h2, h2'⟩, h3⟩
    exact ⟨z 1, h2, h2', by refine pt_ext ?_ ?_ ?_ <;> simp [right, h1, h3]⟩

theorem drawing_get {i : Nat} {e : LEdge} (h : drawing[i]? = some (some e)) :
    i = 0 ∧ e = lower ∨ i = 1 ∧ e = middle ∨ i = 3 ∧ e = right := by
  match i, h with
  | 0, h => exact Or.inl ⟨rfl, by simpa [drawing] using h.symm⟩
  | 1, h => exact Or.inr (Or.inl ⟨rfl, by simpa [drawing] using h.symm⟩)
  | 2, h => simp [drawing] at h
  | 3, h => exact Or.inr (Or.inr ⟨rfl, by simpa [drawing] using h.symm⟩)
  | i + 4, h => simp [drawing] at h

theorem drawing_meets {i : Nat} {z : Pt ℝ} (h : Meets drawing i z) :
    (i = 0 ∧ z = ![1, 0, 0]) ∨ (i = 1 ∧ z = ![1, 0, 0]) ∨ (i = 0 ∧ z = ![2, 0, 0]) ∨ (i = 3 ∧ z = ![2, 0, 0]) := by
  obtain ⟨e, j, f, h1, h2, h3, h4, h5⟩ := h
  rcases drawing_get h1 with ⟨rfl, rfl⟩ | ⟨rfl, rfl⟩ | ⟨rfl, rfl⟩ <;>
    rcases drawing_get h2 with ⟨rfl, rfl⟩ | ⟨rfl, rfl⟩ | ⟨rfl, rfl⟩ <;>
    first | exact absurd rfl h3 | skip
  all_goals simp only [mem_lower, mem_middle, mem_right] at h4 h5
  · exact Or.inl ⟨rfl, by refine pt_ext ?_ ?_ ?_ <;> simp [h4, h5]⟩
  · exact Or.inr (Or.inr (Or.inl ⟨rfl, by refine pt_ext ?_ ?_ ?_ <;> simp [h4, h5]⟩))
  · exact Or.inr (Or.inl ⟨rfl, by refine pt_ext ?_ ?_ ?_ <;> simp [h4, h5]⟩)
  · linarith [h4.1, h5.1]
  · exact Or.inr (Or.inr (Or.inr ⟨rfl, by refine pt_ext ?_ ?_ ?_ <;> simp [h4, h5]⟩))
  · linarith [h4.1, h5.1]

theorem drawing_cut {i : Nat} {z : Pt ℝ} (h : CutAt drawing i z) : z = ![1, 0, 0] := by
  rcases drawing_meets h.meets with h' | h' | h' | h'
  · exact h'.2
  · exact h'.2
  all_goals
    exfalso
    obtain ⟨hi, hz⟩ := h'
    obtain ⟨e, j, f, h1, h2, h3, h4, h5, h6⟩ := h
    rcases drawing_get h1 with ⟨rfl, rfl⟩ | ⟨rfl, rfl⟩ | ⟨rfl, rfl⟩ <;> simp only [reduceCtorEq, OfNat.ofNat_ne_zero,
      OfNat.zero_ne_ofNat, one_ne_zero, OfNat.one_ne_ofNat] at hi
    rcases drawing_get h2 with ⟨rfl, rfl⟩ | ⟨rfl, rfl⟩ | ⟨rfl, rfl⟩ <;> first | exact h3 rfl | skip
  · simp [mem_middle, hz] at h5
  · exact h6 ⟨⟨1, none, ![2, 0, 0]⟩, by simp [lower], ⟨1, none, ![2, 0, 0]⟩, by simp [right], hz.symm, hz.symm, rfl⟩
  · exact h6 ⟨⟨1, none, ![2, 0, 0]⟩, by simp [right], ⟨1, none, ![2, 0, 0]⟩, by simp [lower], hz.symm, hz.symm, rfl⟩
  · simp [mem_middle, hz] at h5

theorem drawing_ok : Drawing (axesOf 2) drawing where
  plane := by
    refine ⟨![0, 0, 1], 0, ⟨by decide, fun k h1 h2 => ?_⟩, fun e he => ?_⟩
    · have : k = 2 := by
        match k with
        | 0 => exact absurd rfl h1
        | 1 => exact absurd rfl h2
        | 2 => rfl
      rw [this]
      simp
    · simp only [drawing, List.mem_cons, Option.some.injEq, reduceCtorEq, List.not_mem_nil, or_false, false_or] at he
      rcases he with rfl | rfl | rfl <;> simp [lower, middle, right, dot]
  tested i j e f hij he hf := by
    rcases drawing_get he with ⟨rfl, rfl⟩ | ⟨rfl, rfl⟩ | ⟨rfl, rfl⟩ <;>
      rcases drawing_get hf with ⟨rfl, rfl⟩ | ⟨rfl, rfl⟩ | ⟨rfl, rfl⟩ <;>
      first | exact absurd hij (by decide) | skip
    · left; simp [axesOf, det2, proj, lower, middle]; norm_num
    · left; simp [axesOf, det2, proj, lower, right]; norm_num
    · right
      refine ⟨?_, ?_, ?_⟩
      · simp [axesOf, det2, proj, middle, right]
      · simp [axesOf, det2, proj, middle, right, colinearTest]; norm_num
      · simp [axesOf, det2, proj, middle, right, colinearTest]; norm_num
  apart i j z z' h h' _ := by rw [drawing_cut h, drawing_cut h']
  clear i e z he hm := by
    rcases drawing_meets hm with ⟨rfl, rfl⟩ | ⟨rfl, rfl⟩ | ⟨rfl, rfl⟩ | ⟨rfl, rfl⟩ <;>
      simp only [drawing, List.getElem?_cons_zero, List.getElem?_cons_succ, Option.some.injEq] at he <;> subst he
    · exact separated_x (by norm_num) (by norm_num) (by norm_num) (by norm_num) (by norm_num) (by norm_num)
    · exact separated_y (by norm_num) (by norm_num) (by norm_num) (by norm_num) (by norm_num) (by norm_num)
    · exact separated_x (by norm_num) (by norm_num) (by norm_num) (by norm_num) (by norm_num) (by norm_num)
    · exact separated_y (by norm_num) (by norm_num) (by norm_num) (by norm_num) (by norm_num) (by norm_num)
  fresh e he := by
    simp only [drawing, List.mem_cons, Option.some.injEq, reduceCtorEq, List.not_mem_nil, or_false, false_or] at he
    rcases he with rfl | rfl | rfl
    · exact ⟨rfl, fun e => by simpa [lower] using congrFun e 0⟩
    · exact ⟨rfl, fun e => by
        have := congrFun e 1
        norm_num [middle] at this⟩
    · exact ⟨rfl, fun e => by simpa [right] using congrFun e 1⟩

/-- The hypotheses of C100 are satisfiable, and there is something to cut: one vertex is made. -/
example {argsort : List ℝ → List Nat} (hs : Fracture.IsArgsort argsort) :
    ∃ out, intersectEdges argsort drawing 2 10 20 30 = .ok out ∧ ∃ v ∈ out.vertices, v.point = ![1, 0, 0] := by
  obtain ⟨out, h, F⟩ := C100_cut_partial hs drawing_ok 10 20 30
  refine ⟨out, h, (F.points _).2 ⟨0, lower, 1, middle, rfl, rfl, by decide, ?_, ?_, ?_⟩⟩
  · rw [mem_lower]; simp
  · rw [mem_middle]; simp
  · rintro ⟨v, hv, w, hw, h1, -⟩
    simp only [lower, List.mem_cons, List.not_mem_nil, or_false] at hv
    rcases hv with rfl | rfl
    · simpa using congrFun h1 0
    · simpa using congrFun h1 0

/-! ### Edges on one line -/

/-- Two edges that overlap -/
def left2 : LEdge := ⟨0, none, ⟨0, none, ![0, 0, 0]⟩, ⟨1, none, ![2, 0, 0]⟩, []⟩
def right2 : LEdge := ⟨1, none, ⟨2, none, ![1, 0, 0]⟩, ⟨3, none, ![3, 0, 0]⟩, []⟩

theorem overlap_rows : (edgePairs [some left2, some right2]).foldl (rowStep (axesOf 2)) [] =
    [(![1, 0, 0], (0, 1))] := by
  have ht : lineLineTest (1 / 10 ^ 12) (axesOf 2) left2.first.point left2.second.point right2.first.point
      right2.second.point = some (![1, 0, 0], some ![2, 0, 0]) := by
    unfold lineLineTest
    rw [if_pos (by simp [det2, proj, axesOf, left2, right2]), if_neg (by
      simp [colinearTest, det2, proj, axesOf, left2, right2])]
    simp [proj, axesOf, left2, right2]
    norm_num
  have he : endAt ![1, 0, 0] left2 = none := by
    unfold endAt
    rw [if_neg, if_neg]
    · intro h
      have := h 0
      norm_num [IsClose, left2] at this
    · intro h
      have := h 0
      norm_num [IsClose, left2] at this
  have hc : crossing (axesOf 2) ((0, left2), (1, right2)) = some ![1, 0, 0] := by
    unfold crossing
    simp only
    rw [ht]
    simp only
    rw [he]
  have hp : edgePairs [some left2, some right2] = [((0, left2), (1, right2))] := by
    simp [edgePairs, numbered]
  rw [hp, List.foldl_cons, List.foldl_nil, rowStep, hc]
  rfl

/-- **C100 (violated)**.  Of edges that overlap only one end of the common part is found: `right2` is not cut at the
end of `left2`, and afterwards there are two pieces which have a point in common that is not an end of both. -/
theorem C100_overlap_violated {argsort : List ℝ → List Nat} (hs : Fracture.IsArgsort argsort) (etag vtag ptag : Int) :
    ∃ out e f, intersectEdges argsort [some left2, some right2] 2 etag vtag ptag = .ok out ∧
      out.items = [some e, some f] ∧ ∃ p ∈ e.pieces, ∃ q ∈ f.pieces, ¬ MeetAtEnds p q := by
  set N : Nat → Set (Pt ℝ) := fun i => {z | (i = 0 ∨ i = 1) ∧ z = ![1, 0, 0]} with hN
  have get : ∀ {i : Nat} {e : LEdge}, [some left2, some right2][i]? = some (some e) →
      i = 0 ∧ e = left2 ∨ i = 1 ∧ e = right2 := by
    intro i e h
    match i, h with
    | 0, h => exact Or.inl ⟨rfl, by simpa using h.symm⟩
    | 1, h => exact Or.inr ⟨rfl, by simpa using h.symm⟩
    | i + 2, h => simp at h
  have on : ∀ (i : Nat) (e : LEdge) (z : Pt ℝ), [some left2, some right2][i]? = some (some e) → z ∈ N i →
      z ∈ e.span := by
    rintro i e z he ⟨-, rfl⟩
    rcases get he with ⟨-, rfl⟩ | ⟨-, rfl⟩
    · refine mem_segment_iff.2 ⟨1 / 2, by norm_num, by norm_num, ?_⟩
      refine pt_ext ?_ ?_ ?_ <;> simp [left2]
    · exact left_mem_segment ℝ _ _
  obtain ⟨out, run, F⟩ := run_done hs (items := [some left2, some right2]) (N := N) (axis := 2) (etag := etag)
    (vtag := vtag) (ptag := ptag) (by
      intro i z
      rw [overlap_rows]
      simp only [hN, Set.mem_ofPred_eq, List.mem_singleton, exists_eq_left]
      rw [eq_comm (a := z), eq_comm (a := i), eq_comm (a := i) (b := 1)])
    (by
      rintro i e z he ⟨-, rfl⟩
      rcases get he with ⟨-, rfl⟩ | ⟨-, rfl⟩
      · exact separated_x (by norm_num) (by norm_num) (by norm_num) (by norm_num) (by norm_num) (by norm_num)
      · exact separated_x (by norm_num) (by norm_num) (by norm_num) (by norm_num) (by norm_num) (by norm_num))
    on
    (by
      intro e he
      simp only [List.mem_cons, Option.some.injEq, List.not_mem_nil, or_false] at he
      rcases he with rfl | rfl
      · exact ⟨rfl, fun e => by simpa [left2] using congrFun e 0⟩
      · exact ⟨rfl, fun e => by
          have := congrFun e 0
          norm_num [right2] at this⟩)
  obtain ⟨e, he, ce⟩ := F.cut 0 left2 rfl
  obtain ⟨f, hf, cf⟩ := F.cut 1 right2 rfl
  refine ⟨out, e, f, run, ?_, ?_⟩
  · have hl := F.length
    match h : out.items, hl with
    | [x, y], _ =>
      rw [h] at he hf
      simp only [List.getElem?_cons_zero, List.getElem?_cons_succ, Option.some.injEq] at he hf
      rw [he, hf]
  obtain ⟨-, -, -, -, cover⟩ := along_of_cut ce (fun z hz => on 0 left2 z rfl hz)
  obtain ⟨inner, -, k2, -, cover'⟩ := along_of_cut cf (fun z hz => on 1 right2 z rfl hz)
  obtain ⟨p, hp, hzp⟩ := cover ![3 / 2, 0, 0] (mem_segment_iff.2 ⟨3 / 4, by norm_num, by norm_num, by
    refine pt_ext ?_ ?_ ?_ <;> simp [left2]; norm_num⟩)
  obtain ⟨q, hq, hzq⟩ := cover' ![3 / 2, 0, 0] (mem_segment_iff.2 ⟨1 / 4, by norm_num, by norm_num, by
    refine pt_ext ?_ ?_ ?_ <;> simp [right2]; norm_num⟩)
  refine ⟨p, hp, q, hq, fun h => ?_⟩
  obtain ⟨-, -, w, hw, -, hwz, -⟩ := h _ hzp hzq
  have hparts : f.parts = [] := by
    obtain ⟨inner', -, i2, -, i4⟩ := cf.chain
    have : inner' = [] := by
      rw [List.eq_nil_iff_forall_not_mem]
      intro v hv
      have := (i2 v.point).1 ⟨v, hv, rfl⟩
      exact this.2.1 this.1.2
    rwa [if_pos this] at i4
  unfold LEdge.pieces at hq
  rw [if_pos hparts, List.mem_singleton] at hq
  rw [hq] at hw
  simp only [List.mem_cons, List.not_mem_nil, or_false] at hw
  rcases hw with rfl | rfl
  · rw [cf.first.1] at hwz
    have := congrFun hwz 0
    norm_num [right2] at this
  · rw [cf.second.1] at hwz
    have := congrFun hwz 0
    norm_num [right2] at this

theorem separated_at {v : Vtx} {a b : Pt ℝ} (h : Separated [⟨0, none, v.point⟩] a b) : Separated [v] a b := by
  have m : (⟨0, none, v.point⟩ : Vtx) ∈ [(⟨0, none, v.point⟩ : Vtx)] := List.mem_singleton.2 rfl
  refine ⟨h.ne, fun w hw => ?_, fun w hw => ?_, fun w hw => ?_, fun w hw => ?_⟩ <;> rw [List.mem_singleton.1 hw]
  · exact h.first ⟨0, none, v.point⟩ m
  · exact h.second ⟨0, none, v.point⟩ m
  · exact h.near ⟨0, none, v.point⟩ m
  · exact h.far ⟨0, none, v.point⟩ m

/-- Two edges on one line that are apart -/
def near2 : LEdge := ⟨0, none, ⟨0, none, ![0, 0, 0]⟩, ⟨1, none, ![1, 0, 0]⟩, []⟩
def far2 : LEdge := ⟨1, none, ⟨2, none, ![2, 0, 0]⟩, ⟨3, none, ![3, 0, 0]⟩, []⟩

/-- **C100 (violated)**.  Edges on one line that have no point in common are taken to intersect: a vertex is made,
and is put at the end of the second one. -/
theorem C100_apart_violated {argsort : List ℝ → List Nat} (hs : Fracture.IsArgsort argsort) (etag vtag ptag : Int) :
    (∀ z, ¬ (z ∈ near2.span ∧ z ∈ far2.span)) ∧
    ∃ out e f, intersectEdges argsort [some near2, some far2] 2 etag vtag ptag = .ok out ∧
      out.items = [some e, some f] ∧ out.vertices = [⟨vtag, some (ptag + 1), ![2, 0, 0]⟩] ∧
      f.first = ⟨vtag, some (ptag + 1), ![2, 0, 0]⟩ := by
  obtain ⟨t1, t2⟩ := C52_test_collinear_disjoint (eps := 1 / 10 ^ 12) (by positivity)
  refine ⟨t2, ?_⟩
  have he : endAt ![2, 0, 0] near2 = none := by
    unfold endAt
    rw [if_neg, if_neg]
    · intro h
      have := h 0
      norm_num [IsClose, near2] at this
    · intro h
      have := h 0
      norm_num [IsClose, near2] at this
  have hrows : (edgePairs [some near2, some far2]).foldl (rowStep (axesOf 2)) [] = [(![2, 0, 0], (0, 1))] := by
    have hc : crossing (axesOf 2) ((0, near2), (1, far2)) = some ![2, 0, 0] := by
      unfold crossing
      rw [show lineLineTest (1 / 10 ^ 12) (axesOf 2) near2.first.point near2.second.point far2.first.point
        far2.second.point = _ from t1]
      simp only
      rw [he]
    have hp : edgePairs [some near2, some far2] = [((0, near2), (1, far2))] := by simp [edgePairs, numbered]
    rw [hp, List.foldl_cons, List.foldl_nil, rowStep, hc]
    rfl
  set v : Vtx := ⟨vtag, some (ptag + 1), ![2, 0, 0]⟩ with hv
  have hvs : newVertices vtag ptag (uniquePoints (([(![2, 0, 0], (0, 1))] : List Row).map Prod.fst)) = [v] := by
    simp [newVertices, uniquePoints, uniqueVertices, firstOnes, hv]
  have hat : mapRes (fun r : Row => vertexAt [v] r.1) [(![2, 0, 0], (0, 1))] = .ok [v] := by
    simp [mapRes, vertexAt, hv]
  have sep1 : Separated [v] near2.first.point near2.second.point := by
    have := separated_x (x := 2) (a := 0) (b := 1) (y := 0) (by norm_num) (by norm_num) (by norm_num) (by norm_num)
      (by norm_num) (by norm_num)
    exact separated_at this
  have sep2 : Separated [v] far2.first.point far2.second.point := by
    have := separated_x (x := 2) (a := 2) (b := 3) (y := 0) (by norm_num) (by norm_num) (by norm_num) (by norm_num)
      (by norm_num) (by norm_num)
    exact separated_at this
  have none : ∀ {e : Embedded} {a b : Pt ℝ}, IsChoice [v] a b e.chosen →
      (v.point = a ∨ norm3 (b - a) ≤ norm3 (v.point - a)) → e.chosen = [] := by
    intro e a b hc h
    rw [List.eq_nil_iff_forall_not_mem]
    intro w hw
    obtain ⟨h1, h2, h3⟩ := (hc.mem w).1 hw
    obtain rfl := List.mem_singleton.1 h1.mem
    rcases h with h | h
    · exact h2 h
    · exact absurd h3 (not_lt.2 h)
  obtain ⟨c1, new1, a1, a2, a3, a4, a5, a6⟩ := C99_split_partial hs sep1 [] etag
  obtain ⟨c2, new2, b1, b2, b3, b4, b5, b6⟩ := C99_split_partial hs sep2 [] etag
  unfold AreParts at a6 b6
  rw [if_pos (none a5 (Or.inr (by
    rw [show near2.second.point - near2.first.point = ![1, 0, 0] by refine pt_ext ?_ ?_ ?_ <;> simp [near2],
      show v.point - near2.first.point = ![2, 0, 0] by refine pt_ext ?_ ?_ ?_ <;> simp [near2, hv], norm3_x, norm3_x]
    norm_num)))] at a6
  rw [if_pos (none b5 (Or.inl rfl))] at b6
  rw [a6, List.append_nil] at a2
  rw [b6, List.append_nil] at b2
  have hf : c2.first = v := by
    rcases b3.2 with h | ⟨-, h⟩
    · exact List.mem_singleton.1 h.mem
    · exact absurd rfl (h v (List.mem_singleton.2 rfl))
  have hcut : cutEdges argsort [(![2, 0, 0], (0, 1))] [v] etag 0 [some near2, some far2] =
      .ok ([some ⟨0, .none, c1.first, c1.second, c1.parts⟩, some ⟨1, .none, c2.first, c2.second, c2.parts⟩], []) := by
    have r1 : ([(![2, 0, 0], (0, 1))] : List Row).filter (fun r => decide (r.2.1 = 0 ∨ r.2.2 = 0)) =
      [(![2, 0, 0], (0, 1))] := by simp
    have r2 : ([(![2, 0, 0], (0, 1))] : List Row).filter (fun r => decide (r.2.1 = 0 + 1 ∨ r.2.2 = 0 + 1)) =
      [(![2, 0, 0], (0, 1))] := by simp
    rw [cutEdges, cutEdges]
    simp only
    rw [r1, r2, if_neg (by simp), hat, Res.bind_ok, if_neg (by simp), Res.bind_ok,
      show embedVertex argsort [v] near2.first near2.second near2.parts etag = _ from a1, Res.bind_ok,
      if_neg (by rw [a2]; simp),
      show embedVertex argsort [v] far2.first far2.second far2.parts etag = _ from b1, Res.bind_ok,
      if_neg (by rw [b2]; simp)]
    rfl
  refine ⟨⟨[some ⟨0, .none, c1.first, c1.second, c1.parts⟩, some ⟨1, .none, c2.first, c2.second, c2.parts⟩], [], [v]⟩,
    ⟨0, .none, c1.first, c1.second, c1.parts⟩, ⟨1, .none, c2.first, c2.second, c2.parts⟩, ?_, rfl, rfl, hf⟩
  · unfold intersectEdges
    simp only
    rw [hrows, if_pos (by simp), hvs, hcut]
    rfl

#print axioms C100_cut_partial
#print axioms C100_conforming_partial
#print axioms C100_overlap_violated
#print axioms C100_apart_violated

end Verif.VertexOps

#print axioms Verif.VertexOps.C100_cut_partial
#print axioms Verif.VertexOps.C100_conforming_partial
#print axioms Verif.VertexOps.C100_overlap_violated
#print axioms Verif.VertexOps.C100_apart_violated
