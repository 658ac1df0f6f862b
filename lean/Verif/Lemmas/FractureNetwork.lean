/-
Lemmas on fracture networks: insertion of vertices and intersection of pairs.
-/
import Verif.Spec.FractureNetwork
import Verif.Lemmas.Trace
import Verif.Lemmas.Vec
import Verif.Lemmas.Graph
import Verif.Props.TriangleTest

namespace Verif.Fracture
open MeshBuild MeshGraph Trace MeshMetrics Geometry
open scoped Classical

theorem HasVertex.unique {net : Net} {v : Nat} {x y : Pt ℝ} (hx : HasVertex net v x)
    (hy : HasVertex net v y) : x = y := by
  obtain ⟨c, k, h1, -, h2, h3⟩ := hx
  obtain ⟨d, l, g1, -, g2, g3⟩ := hy
  rw [h1] at g1; cases g1
  rw [h2] at g2; cases g2
  rw [h3] at g3; cases g3
  rfl

theorem Apart.inj {eps : ℝ} (he : 0 < eps) {l : List (Pt ℝ)} (h : Apart eps l) {i j : Nat}
    {x : Pt ℝ} (hi : l[i]? = some x) (hj : l[j]? = some x) : i = j := by
  obtain ⟨hi', ei⟩ := List.getElem?_eq_some_iff.1 hi
  obtain ⟨hj', ej⟩ := List.getElem?_eq_some_iff.1 hj
  have key := List.pairwise_iff_getElem.1 h
  have no : ¬ eps ≤ norm3 (x - x) := by rw [sub_self, norm3_zero]; exact not_le.2 he
  rcases lt_trichotomy i j with hlt | rfl | hlt
  · exact absurd (by simpa [ei, ej] using key i j hi' hj' hlt) no
  · rfl
  · exact absurd (by simpa [ei, ej] using key j i hj' hi' hlt) no

/-- Different vertices are at different points. -/
theorem HasVertex.inj {net : Net} (hok : NetOK net) {eps : ℝ} (he : 0 < eps)
    (ha : Apart eps net.points) {v w : Nat} {x : Pt ℝ} (hx : HasVertex net v x)
    (hy : HasVertex net w x) : v = w := by
  obtain ⟨c, k, h1, hc, h2, h3⟩ := hx
  obtain ⟨d, l, g1, hd, g2, g3⟩ := hy
  have := ha.inj he h3 g3
  subst this
  exact hok.unique v w c d h1 g1 hc hd (h2.trans g2.symm)

/-- `net'` is `net` with additional points and cells and other immersed cells. -/
structure Extends (net net' : Net) : Prop where
  points : net.points <+: net'.points
  cells : ∀ (i : Nat) (c : FCell), net.cells[i]? = some c →
    ∃ imm, net'.cells[i]? = some { c with immersed := imm }

theorem Extends.refl (net : Net) : Extends net net :=
  ⟨List.prefix_refl _, fun _ c h => ⟨c.immersed, h⟩⟩

theorem Extends.trans {a b c : Net} (h : Extends a b) (h' : Extends b c) : Extends a c := by
  refine ⟨h.points.trans h'.points, fun i x hx => ?_⟩
  obtain ⟨imm, h1⟩ := h.cells i x hx
  obtain ⟨imm', h2⟩ := h'.cells i _ h1
  exact ⟨imm', h2⟩

theorem prefix_getElem? {α : Type} {l m : List α} (h : l <+: m) {i : Nat} {x : α}
    (hx : l[i]? = some x) : m[i]? = some x := by
  obtain ⟨t, rfl⟩ := h
  obtain ⟨hi, rfl⟩ := List.getElem?_eq_some_iff.1 hx
  rw [List.getElem?_append_left hi]
  exact hx

theorem Extends.hasVertex {net net' : Net} (h : Extends net net') {v : Nat} {x : Pt ℝ}
    (hx : HasVertex net v x) : HasVertex net' v x := by
  obtain ⟨c, k, h1, hc, h2, h3⟩ := hx
  obtain ⟨imm, h4⟩ := h.cells v c h1
  exact ⟨_, k, h4, hc, h2, prefix_getElem? h.points h3⟩

theorem getElem?_append_singleton {α : Type} {l : List α} {x : α} {i : Nat} {y : α} :
    (l ++ [x])[i]? = some y ↔ l[i]? = some y ∨ (i = l.length ∧ x = y) := by
  rcases lt_trichotomy i l.length with h | h | h
  · rw [List.getElem?_append_left h]
    constructor
    · exact Or.inl
    · rintro (h' | h')
      · exact h'
      · omega
  · subst h
    simp
  · rw [List.getElem?_append_right (by omega)]
    constructor
    · intro h'
      have := (List.getElem?_eq_some_iff.1 h').1
      simp at this
      omega
    · rintro (h' | h')
      · have := (List.getElem?_eq_some_iff.1 h').1
        omega
      · omega

theorem mem_nearPoints {eps : ℝ} {points : List (Pt ℝ)} {point : Pt ℝ} {i : Nat} :
    i ∈ nearPoints eps points point ↔ ∃ x, points[i]? = some x ∧ norm3 (x - point) < eps := by
  unfold nearPoints
  rw [List.mem_filter, List.mem_range]
  constructor
  · rintro ⟨hi, h⟩
    rw [List.getElem?_eq_getElem hi] at h
    exact ⟨_, List.getElem?_eq_getElem hi, by simpa using h⟩
  · rintro ⟨x, hx, h⟩
    refine ⟨(List.getElem?_eq_some_iff.1 hx).1, ?_⟩
    rw [hx]
    simpa using h

/-- Insertion of a vertex. -/
theorem insertVertex_spec {eps : ℝ} (he : 0 < eps) {net : Net} (hok : NetOK net) (point : Pt ℝ)
    (physical : Nat) :
    ∃ net' v x, insertVertex eps net point physical = (net', some v) ∧ NetOK net' ∧
      HasVertex net' v x ∧ norm3 (x - point) < eps ∧
      ((net' = net ∧ x ∈ net.points) ∨
        (x = point ∧ (∀ y ∈ net.points, eps ≤ norm3 (y - point)) ∧
          net'.points = net.points ++ [point] ∧
          net'.cells = net.cells ++ [vertexCell net.cells.length net.points.length physical])) := by
  unfold insertVertex
  split
  · rename_i hnil
    refine ⟨_, _, point, rfl, ?_, ?_, by rw [sub_self, norm3_zero]; exact he, Or.inr ⟨rfl, ?_,
      rfl, rfl⟩⟩
    · constructor
      · intro i c h
        rcases getElem?_append_singleton.1 h with h | ⟨rfl, rfl⟩
        · exact hok.ids i c h
        · rfl
      · intro i c h hc
        rcases getElem?_append_singleton.1 h with h | ⟨rfl, rfl⟩
        · obtain ⟨k, h1, h2⟩ := hok.point i c h hc
          exact ⟨k, h1, by simp; omega⟩
        · exact ⟨_, rfl, by simp⟩
      · intro k hk
        simp only [List.length_append, List.length_cons, List.length_nil] at hk
        rcases Nat.lt_or_ge k net.points.length with h | h
        · obtain ⟨i, c, h1, h2, h3⟩ := hok.vertex k h
          exact ⟨i, c, getElem?_append_singleton.2 (Or.inl h1), h2, h3⟩
        · have : k = net.points.length := by omega
          subst this
          exact ⟨_, _, getElem?_append_singleton.2 (Or.inr ⟨rfl, rfl⟩), rfl, rfl⟩
      · intro i j c d hi hj hc hd hcd
        rcases getElem?_append_singleton.1 hi with hi | ⟨rfl, rfl⟩
        · obtain ⟨k, h1, h2⟩ := hok.point i c hi hc
          rcases getElem?_append_singleton.1 hj with hj | ⟨rfl, rfl⟩
          · exact hok.unique i j c d hi hj hc hd hcd
          · rw [h1] at hcd
            simp only [vertexCell, Option.some.injEq] at hcd
            omega
        · rcases getElem?_append_singleton.1 hj with hj | ⟨rfl, rfl⟩
          · obtain ⟨k, h1, h2⟩ := hok.point j d hj hd
            rw [h1] at hcd
            simp only [vertexCell, Option.some.injEq] at hcd
            omega
          · rfl
    · exact ⟨_, _, getElem?_append_singleton.2 (Or.inr ⟨rfl, rfl⟩), rfl, rfl,
        getElem?_append_singleton.2 (Or.inr ⟨rfl, rfl⟩)⟩
    · intro y hy
      by_contra hlt
      obtain ⟨i, hi, rfl⟩ := List.getElem_of_mem hy
      have : i ∈ nearPoints eps net.points point :=
        mem_nearPoints.2 ⟨_, List.getElem?_eq_getElem hi, not_le.1 hlt⟩
      rw [hnil] at this
      simp at this
  · rename_i target rest hcons
    obtain ⟨x, hx', hx⟩ := mem_nearPoints.1
      (show target ∈ nearPoints eps net.points point by rw [hcons]; simp)
    obtain ⟨ht, rfl⟩ := List.getElem?_eq_some_iff.1 hx'
    obtain ⟨i, c, h1, h2, h3⟩ := hok.vertex target ht
    have hci : c ∈ net.cells := List.mem_of_getElem? h1
    cases hf : net.cells.find? fun c => c.dimension = 0 ∧ c.pointId = some target with
    | none =>
      have := List.find?_eq_none.1 hf c hci
      simp [h2, h3] at this
    | some d =>
      have hd := List.find?_some hf
      have hdm := List.mem_of_find?_eq_some hf
      obtain ⟨j, hj, hjd⟩ := List.getElem_of_mem hdm
      have hj' : net.cells[j]? = some d := by rw [List.getElem?_eq_getElem hj, hjd]
      have hid := hok.ids j d hj'
      simp only [decide_eq_true_eq] at hd
      refine ⟨net, d.id, net.points[target], rfl, hok, ?_, hx, Or.inl ⟨rfl, by simp⟩⟩
      rw [hid]
      exact ⟨d, target, hj', hd.1, hd.2, List.getElem?_eq_getElem ht⟩

theorem extends_insert {net net' : Net} {point : Pt ℝ} {physical : Nat}
    (h : net'.points = net.points ++ [point])
    (h' : net'.cells = net.cells ++ [vertexCell net.cells.length net.points.length physical]) :
    Extends net net' := by
  refine ⟨⟨_, h.symm⟩, fun i c hc => ⟨c.immersed, ?_⟩⟩
  rw [h', getElem?_append_singleton]
  exact Or.inl hc

/-- Changing immersed cells. -/
theorem addImmersed_spec {net : Net} (hok : NetOK net) {id v : Nat} {c : FCell}
    (hc : net.cells[id]? = some c) :
    ∃ net', addImmersed net id v = .ok net' ∧ NetOK net' ∧ Extends net net' ∧
      net'.points = net.points ∧ net'.cells.length = net.cells.length ∧
      net'.cells[id]? = some { c with immersed := c.immersed ++ [v] } ∧
      ∀ j, j ≠ id → net'.cells[j]? = net.cells[j]? := by
  obtain ⟨hid, rfl⟩ := List.getElem?_eq_some_iff.1 hc
  have get : ∀ j, (net.cells.set id { net.cells[id] with
      immersed := net.cells[id].immersed ++ [v] })[j]? =
      if id = j then some { net.cells[id] with immersed := net.cells[id].immersed ++ [v] }
      else net.cells[j]? := by
    intro j
    rw [List.getElem?_set]
    split
    · rename_i h; subst h; simp [hid]
    · rfl
  -- the cells are those of `net` up to immersed cells
  have back : ∀ (j : Nat) (d : FCell), (net.cells.set id { net.cells[id] with
      immersed := net.cells[id].immersed ++ [v] })[j]? = some d →
      ∃ d' : FCell, net.cells[j]? = some d' ∧ d.dimension = d'.dimension ∧ d.id = d'.id ∧
        d.pointId = d'.pointId := by
    intro j d hd
    rw [get] at hd
    split at hd
    · rename_i h; subst h
      cases hd
      exact ⟨_, hc, rfl, rfl, rfl⟩
    · exact ⟨d, hd, rfl, rfl, rfl⟩
  have forth : ∀ (j : Nat) (d : FCell), net.cells[j]? = some d → ∃ imm, (net.cells.set id { net.cells[id] with
      immersed := net.cells[id].immersed ++ [v] })[j]? = some { d with immersed := imm } := by
    intro j d hd
    rw [get]
    split
    · rename_i h; subst h
      rw [hc] at hd; cases hd
      exact ⟨_, rfl⟩
    · exact ⟨d.immersed, hd⟩
  refine ⟨⟨net.points, net.cells.set id { net.cells[id] with
    immersed := net.cells[id].immersed ++ [v] }⟩, ?_, ?_, ⟨List.prefix_refl _, forth⟩, rfl, by simp,
    ?_, ?_⟩
  · unfold addImmersed
    rw [getIdx_of hc]
    rfl
  · constructor
    · intro i d hd
      obtain ⟨d', h1, -, h2, -⟩ := back i d hd
      rw [h2]; exact hok.ids i d' h1
    · intro i d hd h0
      obtain ⟨d', h1, h2, -, h3⟩ := back i d hd
      rw [h3]; exact hok.point i d' h1 (h2 ▸ h0)
    · intro k hk
      obtain ⟨i, d, h1, h2, h3⟩ := hok.vertex k hk
      obtain ⟨imm, h4⟩ := forth i d h1
      exact ⟨i, _, h4, h2, h3⟩
    · intro i j d e hi hj hd he hde
      obtain ⟨d', h1, h2, -, h3⟩ := back i d hi
      obtain ⟨e', g1, g2, -, g3⟩ := back j e hj
      exact hok.unique i j d' e' h1 g1 (h2 ▸ hd) (g2 ▸ he) (by rw [← h3, ← g3, hde])
  · show (net.cells.set id _)[id]? = _
    rw [get, if_pos rfl]
  · intro j hj
    show (net.cells.set id _)[j]? = _
    rw [get, if_neg (Ne.symm hj)]

/-- A fracture's edge has its two end vertices. -/
theorem endPoints_spec {net : Net} {c : FCell} {v w : Nat} {a b : Pt ℝ} (hb : c.boundary = [v, w])
    (ha : HasVertex net v a) (hb' : HasVertex net w b) : endPoints net c = .ok (a, b) := by
  obtain ⟨x, k, h1, -, h2, h3⟩ := ha
  obtain ⟨y, l, g1, -, g2, g3⟩ := hb'
  unfold endPoints
  simp [hb, mapRes, cellPoint, getIdx_of h1, getIdx_of g1, h2, g2, getIdx_of h3, getIdx_of g3]

end Verif.Fracture
