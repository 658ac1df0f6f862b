/-
C159: the tests of domains without lines (tests/test_geometry/test_geometry.py).
-/
import Verif.Model.GeometryTests
import Verif.Props.EmbedVertex
import Verif.Props.VertexOps
import Verif.Props.FractureNetwork

namespace Verif.GeometryTests
open Verif.Topology Verif.Topology.Shape Verif.VertexOps
open Trace MeshBuild MeshMetrics Geometry

theorem box_eq {P : Type} (x y : P) : buildBox1D ShapeTests.argsort [x, y] none =
    .ok ⟨1, [[.vertex 0 (some 2) x, .vertex 1 (some 3) y],
      [.composed .edge 0 (some 1) [.vertex 0 (some 2) x, .vertex 1 (some 3) y] []]]⟩ := by
  have t0 : defaultTags1.get? "bc_0" = some 2 := by decide
  have t1 : defaultTags1.get? "bc_1" = some 3 := by decide
  have t2 : defaultTags1.get? "line" = some 1 := by decide
  have ha : ShapeTests.argsort [0, 1] = [0, 1] := by decide +kernel
  unfold buildBox1D
  dsimp only [Option.getD_none]
  rw [t0, t1, t2]
  simp [Domain.append, Domain.new, newVertices, Shape.dimension, getIdx, Shape.tagged, Domain.pick, Topology.pick,
    MeshGraph.mapRes, mkSimple, setBoundary, Shape.tag, ha, bind, Except.bind, pure, Except.pure, List.zipIdx]
  rw [if_pos ⟨by simp [Kind.admissible], by simp [Kind.admissible]⟩]
  rfl

/-- C159.  The test of the line passes, wherever its two points are. -/
theorem C159_line {P : Type} (x y : P) : test1d x y = .ok [true, true, true] := by
  unfold test1d
  rw [box_eq]
  rfl

/-- C159.  The test of the square passes. -/
theorem C159_square : (test2d 2).toOption = some [true, true, true, true, true] := by
  decide +kernel

/-- C159, disagreement.  What the test calls the face is a vertex; it passes because both have the tag 0. -/
theorem C159_face_violated : (test2d 0).toOption = (test2d 2).toOption ∧
    (do let d ← buildBox2D closePoints ShapeTests.argsort square none
        let f ← shapeAt d 0 0
        pure f.dimension : Res Nat).toOption = some 0 := by
  decide +kernel

theorem norm_axis {x : ℝ} (h : 0 ≤ x) : norm3 (onAxis x - onAxis 0) = x := by
  simp [norm3, onAxis, Real.sqrt_sq h]

/-- The ends of the edge and the vertices of the test -/
def va : Vtx := ⟨0, some 2, onAxis 0⟩
def vb : Vtx := ⟨1, some 3, onAxis 1⟩
noncomputable def v2 : Vtx := ⟨2, some 4, onAxis (1 / 4)⟩
noncomputable def v3 : Vtx := ⟨3, some 5, onAxis (3 / 4)⟩
noncomputable def v4 : Vtx := ⟨4, some 6, onAxis (7 / 4)⟩

theorem newOnes_eq : newOnes 2 [1 / 4, 3 / 4, 7 / 4] [4, 5, 6, 7, 8] = [v2, v3, v4] := rfl

theorem axis_ne {x y : ℝ} (h : x ≠ y) : onAxis x ≠ onAxis y := fun e => h (by simpa [onAxis] using congrFun e 0)

theorem separated : Separated [v2, v3, v4] va.point vb.point := by
  have n1 : norm3 (onAxis 1 - onAxis 0) = 1 := norm_axis (by norm_num)
  have m1 : norm3 (onAxis (1 / 4) - onAxis 0) = 1 / 4 := norm_axis (by norm_num)
  have m2 : norm3 (onAxis (3 / 4) - onAxis 0) = 3 / 4 := norm_axis (by norm_num)
  have m3 : norm3 (onAxis (7 / 4) - onAxis 0) = 7 / 4 := norm_axis (by norm_num)
  refine ⟨axis_ne (by norm_num), ?_, ?_, ?_, ?_⟩ <;> intro v hv _ <;>
    simp only [List.mem_cons, List.not_mem_nil, or_false] at hv <;>
    rcases hv with rfl | rfl | rfl <;> simp only [v2, v3, v4, va, vb, m1, m2, m3, n1, DefaultClose]
  all_goals first
    | exact not_close 0 (by norm_num [onAxis])
    | norm_num [IsClose, abs_of_nonneg, abs_of_nonpos]

theorem mem_first {v : Vtx} : IsFirst [v2, v3, v4] v ↔ v = v2 ∨ v = v3 ∨ v = v4 := by
  classical
  have d1 : onAxis (1 / 4) ≠ onAxis (3 / 4) := axis_ne (by norm_num)
  have d2 : onAxis (1 / 4) ≠ onAxis (7 / 4) := axis_ne (by norm_num)
  have d3 : onAxis (3 / 4) ≠ onAxis (7 / 4) := axis_ne (by norm_num)
  constructor
  · intro h
    have := List.mem_of_find?_eq_some h
    simpa using this
  · unfold IsFirst
    rintro (rfl | rfl | rfl)
    · rw [List.find?_cons_of_pos (by simp)]
    · rw [List.find?_cons_of_neg (by intro h; exact d1 (of_decide_eq_true h)), List.find?_cons_of_pos (by simp)]
    · rw [List.find?_cons_of_neg (by intro h; exact d2 (of_decide_eq_true h)), List.find?_cons_of_neg (by intro h; exact d3 (of_decide_eq_true h)),
        List.find?_cons_of_pos (by simp)]

theorem pair_of {α : Type} {l : List α} {a b : α} (hab : a ≠ b) (hn : l.Nodup) (hm : ∀ v, v ∈ l ↔ v = a ∨ v = b) :
    l = [a, b] ∨ l = [b, a] := by
  have hp : l.Perm [a, b] := (List.perm_ext_iff_of_nodup hn (by simpa using hab)).2 (by simpa using hm)
  have hl := hp.length_eq
  match l, hl with
  | [x, y], _ =>
    have hx := (hm x).1 (by simp)
    have hy := (hm y).1 (by simp)
    have hxy : x ≠ y := by simpa using hn
    rcases hx with rfl | rfl <;> rcases hy with rfl | rfl
    · exact absurd rfl hxy
    · exact Or.inl rfl
    · exact Or.inr rfl
    · exact absurd rfl hxy

theorem v2_ne : v2 ≠ v3 := fun e => absurd (congrArg Vtx.tag e) (by decide)

theorem chosen_eq {l : List Vtx} (h : IsChoice [v2, v3, v4] va.point vb.point l) : l = [v2, v3] := by
  have hm : ∀ v, v ∈ l ↔ v = v2 ∨ v = v3 := by
    intro v
    rw [h.mem, mem_first]
    have n1 : norm3 (onAxis 1 - onAxis 0) = 1 := norm_axis (by norm_num)
    constructor
    · rintro ⟨rfl | rfl | rfl, -, hlt⟩
      · exact Or.inl rfl
      · exact Or.inr rfl
      · simp only [v4, va, vb, n1] at hlt
        rw [norm_axis (by norm_num)] at hlt
        norm_num at hlt
    · rintro (rfl | rfl)
      · refine ⟨Or.inl rfl, axis_ne (by norm_num), ?_⟩
        simp only [v2, va, vb, n1]
        rw [norm_axis (by norm_num)]
        norm_num
      · refine ⟨Or.inr (Or.inl rfl), axis_ne (by norm_num), ?_⟩
        simp only [v3, va, vb, n1]
        rw [norm_axis (by norm_num)]
        norm_num
  rcases pair_of v2_ne (h.once.imp fun {a b} hab e => hab.2 (congrArg Vtx.point e)) hm with e | e
  · exact e
  · have := h.once
    rw [e] at this
    simp only [List.pairwise_cons, List.mem_cons, List.not_mem_nil, or_false, forall_eq] at this
    have h1 := this.1.1
    norm_num [LexLe, v2, v3, onAxis] at h1

theorem end_eq {old new : Vtx} (h : IsNewEnd [v2, v3, v4] old new)
    (hn : ∀ v ∈ [v2, v3, v4], v.point ≠ old.point) : new = old := by
  rcases h.2 with hf | he
  · exact absurd h.1 (hn new (by rw [mem_first] at hf; simpa using hf))
  · exact he.1

/-- C159.  The vertices that are embedded in the edge are those inside it, and its parts lead through them. -/
theorem C159_embed {argsort : List ℝ → List Nat} (hs : Fracture.IsArgsort argsort) :
    embedVertex argsort [v2, v3, v4] va vb [] 1 =
      .ok ⟨va, vb, [⟨1, none, va, v2⟩, ⟨2, none, v2, v3⟩, ⟨3, none, vb, v3⟩], [v2, v3]⟩ := by
  obtain ⟨e, new, he, hp, ha, hb, hc, hj⟩ := C99_split_partial hs separated [] 1
  have hfirst : e.first = va := end_eq ha (by
    intro v hv
    simp only [List.mem_cons, List.not_mem_nil, or_false] at hv
    rcases hv with rfl | rfl | rfl <;> exact axis_ne (by norm_num))
  have hsecond : e.second = vb := end_eq hb (by
    intro v hv
    simp only [List.mem_cons, List.not_mem_nil, or_false] at hv
    rcases hv with rfl | rfl | rfl <;> exact axis_ne (by norm_num))
  have hchosen := chosen_eq hc
  rw [List.nil_append] at hp
  unfold AreParts at hj
  rw [if_neg (by rw [hchosen]; simp), hchosen, hfirst, hsecond] at hj
  obtain ⟨inner, hperm, hsorted, hjoin⟩ := hj
  have hinner : inner = [v2, v3] := by
    rcases pair_of v2_ne (hperm.nodup_iff.2 (by simpa using v2_ne)) (fun v => by rw [hperm.mem_iff]; simp) with h | h
    · exact h
    · rw [h] at hsorted
      simp only [List.pairwise_cons, List.mem_cons, List.not_mem_nil, or_false, forall_eq] at hsorted
      have h1 := hsorted.1
      simp only [v2, v3, va] at h1
      rw [norm_axis (by norm_num), norm_axis (by norm_num)] at h1
      norm_num at h1
  subst hinner
  have hlen : new.length = 3 := by have := hjoin.count; simpa using this
  have key : ∀ (i : Nat) (v w : Vtx), [va, v2, v3, vb][i]? = some v → [va, v2, v3, vb][i + 1]? = some w →
      v.tag < w.tag ∨ w.tag < v.tag → i < 3 →
      new[i]? = some (if v.tag < w.tag then ⟨1 + i, none, v, w⟩ else ⟨1 + i, none, w, v⟩) := by
    intro i v w hv hw hvw hi
    obtain ⟨x, hx⟩ : ∃ x, new[i]? = some x := ⟨new[i], List.getElem?_eq_getElem (by omega)⟩
    obtain ⟨q1, q2, q3, v', w', hv', hw', q⟩ := hjoin.joined i x hx
    have e1 : v' = v := by
      have := hv'.symm.trans hv
      exact Option.some.inj this
    have e2 : w' = w := Option.some.inj (hw'.symm.trans hw)
    subst e1
    subst e2
    rw [hx]
    obtain ⟨t, ph, f, s⟩ := x
    simp only at q1 q2 q3 q
    subst q1
    subst q2
    rcases q with ⟨rfl, rfl⟩ | ⟨rfl, rfl⟩
    · rw [if_pos (by omega)]
    · rw [if_neg (by omega)]
  have k0 := key 0 va v2 rfl rfl (by decide) (by decide)
  have k1 := key 1 v2 v3 rfl rfl (by decide) (by decide)
  have k2 := key 2 v3 vb rfl rfl (by decide) (by decide)
  rw [if_pos (by decide)] at k0 k1
  rw [if_neg (by decide)] at k2
  match new, hlen, k0, k1, k2 with
  | [x, y, z], _, k0, k1, k2 =>
    simp only [List.getElem?_cons_zero, List.getElem?_cons_succ, Option.some.injEq] at k0 k1 k2
    rw [he]
    obtain ⟨f, s, p, c⟩ := e
    simp only at hp hfirst hsecond hchosen
    subst hp hfirst hsecond hchosen k0 k1 k2
    rfl

set_option maxRecDepth 20000 in
/-- C159.  The test of the vertices embedded in an edge passes, for every way to sort. -/
theorem C159_vertex_in_edge {argsort : List ℝ → List Nat} (hs : Fracture.IsArgsort argsort) :
    testVertexInEdge argsort = .ok (List.replicate 12 true) := by
  have hd : domainWith argsort [1 / 4, 3 / 4, 7 / 4] =
      .ok ⟨1, [[ofVtx va, ofVtx vb, ofVtx v2, ofVtx v3],
        [.composed .edge 0 (some 1) [ofVtx va, ofVtx vb]
          [ofEdg ⟨1, none, va, v2⟩, ofEdg ⟨2, none, v2, v3⟩, ofEdg ⟨3, none, vb, v3⟩],
          ofEdg ⟨1, none, va, v2⟩, ofEdg ⟨2, none, v2, v3⟩, ofEdg ⟨3, none, vb, v3⟩]]⟩ := by
    unfold domainWith
    rw [box_eq, Res.bind_ok]
    simp only [getIdx, List.getElem?_cons_zero, List.getElem?_cons_succ, Res.bind_ok, Shape.boundary, toVtx,
      List.length_cons, List.length_nil]
    rw [newOnes_eq]
    have := C159_embed hs
    simp only [va, vb] at this
    rw [show ((0 + 1 : Nat) : Int) = 1 from rfl, this]
    rfl
  unfold testVertexInEdge
  rw [hd]
  rfl

example : ∃ argsort, Fracture.IsArgsort argsort := Fracture.exists_argsort

#print axioms C159_line

#print axioms C159_square
#print axioms C159_face_violated
#print axioms C159_embed
#print axioms C159_vertex_in_edge

end Verif.GeometryTests
