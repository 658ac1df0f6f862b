/-
Property theorems C115: the normals of fractures, their opening and the first cut.
-/
import Verif.Lemmas.FractureOpening
import Verif.Props.BoxNetwork
import Mathlib.Tactic.FinCases
import Mathlib.Tactic.NormNum
import Mathlib.Tactic.Linarith
import Mathlib.Tactic.LinearCombination

namespace Verif.FracOpen
open MeshBuild MeshGraph MeshStore Trace MeshMetrics MeshOps EmbedCut Builder Skin

/-- C115: a rotation keeps the product of two vectors and the coordinate of its axis, two rotations about one axis add
their angles, and the quarter turn about the third axis takes `(x, y, z)` to `(-y, x, z)`. -/
theorem C115_rotation (v w : Pt ℝ) (θ φ : ℝ) (axis : Fin 3) :
    ∃ v' w', rotateVector v θ axis.val = some v' ∧ rotateVector w θ axis.val = some w' ∧
      dot3 v' w' = dot3 v w ∧ v' axis = v axis ∧
      rotateVector v' φ axis.val = rotateVector v (θ + φ) axis.val ∧
      rotateVector v (Real.pi / 2) 2 = some ![-v 1, v 0, v 2] := by
  have hq : rotateVector v (Real.pi / 2) 2 = some ![-v 1, v 0, v 2] := by
    show some (zRotation v (Real.pi / 2)) = _
    rw [zRotation_quarter]
  have hc := Real.cos_add θ φ
  have hs := Real.sin_add θ φ
  have h1 := Real.sin_sq_add_cos_sq θ
  fin_cases axis
  · refine ⟨xRotation v θ, xRotation w θ, rfl, rfl, ?_, rfl, ?_, hq⟩
    · show v 0 * w 0 + (Real.cos θ * v 1 - Real.sin θ * v 2) * (Real.cos θ * w 1 - Real.sin θ * w 2) +
        (Real.sin θ * v 1 + Real.cos θ * v 2) * (Real.sin θ * w 1 + Real.cos θ * w 2) =
        v 0 * w 0 + v 1 * w 1 + v 2 * w 2
      linear_combination (v 1 * w 1 + v 2 * w 2) * h1
    · refine congrArg some (funext fun k => ?_)
      fin_cases k
      · rfl
      · show Real.cos φ * (Real.cos θ * v 1 - Real.sin θ * v 2) -
          Real.sin φ * (Real.sin θ * v 1 + Real.cos θ * v 2) =
          Real.cos (θ + φ) * v 1 - Real.sin (θ + φ) * v 2
        rw [hc, hs]
        ring
      · show Real.sin φ * (Real.cos θ * v 1 - Real.sin θ * v 2) +
          Real.cos φ * (Real.sin θ * v 1 + Real.cos θ * v 2) =
          Real.sin (θ + φ) * v 1 + Real.cos (θ + φ) * v 2
        rw [hc, hs]
        ring
  · refine ⟨yRotation v θ, yRotation w θ, rfl, rfl, ?_, rfl, ?_, hq⟩
    · show (Real.cos θ * v 0 + Real.sin θ * v 2) * (Real.cos θ * w 0 + Real.sin θ * w 2) + v 1 * w 1 +
        (-Real.sin θ * v 0 + Real.cos θ * v 2) * (-Real.sin θ * w 0 + Real.cos θ * w 2) =
        v 0 * w 0 + v 1 * w 1 + v 2 * w 2
      linear_combination (v 0 * w 0 + v 2 * w 2) * h1
    · refine congrArg some (funext fun k => ?_)
      fin_cases k
      · show Real.cos φ * (Real.cos θ * v 0 + Real.sin θ * v 2) +
          Real.sin φ * (-Real.sin θ * v 0 + Real.cos θ * v 2) =
          Real.cos (θ + φ) * v 0 + Real.sin (θ + φ) * v 2
        rw [hc, hs]
        ring
      · rfl
      · show -Real.sin φ * (Real.cos θ * v 0 + Real.sin θ * v 2) +
          Real.cos φ * (-Real.sin θ * v 0 + Real.cos θ * v 2) =
          -Real.sin (θ + φ) * v 0 + Real.cos (θ + φ) * v 2
        rw [hc, hs]
        ring
  · refine ⟨zRotation v θ, zRotation w θ, rfl, rfl, ?_, rfl, ?_, hq⟩
    · show (Real.cos θ * v 0 - Real.sin θ * v 1) * (Real.cos θ * w 0 - Real.sin θ * w 1) +
        (Real.sin θ * v 0 + Real.cos θ * v 1) * (Real.sin θ * w 0 + Real.cos θ * w 1) + v 2 * w 2 =
        v 0 * w 0 + v 1 * w 1 + v 2 * w 2
      linear_combination (v 0 * w 0 + v 1 * w 1) * h1
    · refine congrArg some (funext fun k => ?_)
      fin_cases k
      · show Real.cos φ * (Real.cos θ * v 0 - Real.sin θ * v 1) -
          Real.sin φ * (Real.sin θ * v 0 + Real.cos θ * v 1) =
          Real.cos (θ + φ) * v 0 - Real.sin (θ + φ) * v 1
        rw [hc, hs]
        ring
      · show Real.sin φ * (Real.cos θ * v 0 - Real.sin θ * v 1) +
          Real.cos φ * (Real.sin θ * v 0 + Real.cos θ * v 1) =
          Real.sin (θ + φ) * v 0 + Real.cos (θ + φ) * v 1
        rw [hc, hs]
        ring
      · rfl

/-- C115: for any other axis there is no vector. -/
theorem C115_axis (v : Pt ℝ) (θ : ℝ) {axis : Int} (h : ∀ i : Fin 3, axis ≠ i.val) :
    rotateVector v θ axis = none := by
  unfold rotateVector
  rw [if_neg (show axis ≠ 0 from h 0), if_neg (show axis ≠ 1 from h 1), if_neg (show axis ≠ 2 from h 2)]

/-- C115: `sub_cell_index` and `node_tag_index` give the first position of the number, and none if it does not occur. -/
theorem C115_index (ids : List Nat) (t : Nat) :
    (∀ i, indexIn ids t = some i ↔ ids[i]? = some t ∧ ∀ j < i, ids[j]? ≠ some t) ∧
      (indexIn ids t = none ↔ t ∉ ids) := by
  unfold indexIn
  constructor
  · intro i
    rw [List.find?_range_eq_some]
    simp only [decide_eq_true_eq, List.mem_range, Bool.not_eq_true', decide_eq_false_iff_not]
    constructor
    · rintro ⟨h1, -, h3⟩
      exact ⟨h1, h3⟩
    · rintro ⟨h1, h3⟩
      exact ⟨h1, (List.getElem?_eq_some_iff.1 h1).1, h3⟩
  · rw [List.find?_eq_none]
    simp only [List.mem_range, decide_eq_true_eq]
    constructor
    · intro h hm
      obtain ⟨i, hi⟩ := List.mem_iff_getElem?.1 hm
      exact h i (List.getElem?_eq_some_iff.1 hi).1 hi
    · intro h i _ hi
      exact h (List.mem_of_getElem? hi)

/-! ### The normals -/

/-- C115: the normal of a fracture from `a` to `b` in the plane has length one, is at a right angle to the fracture, lies to its
left, and is stored with the middle of the fracture. -/
theorem C115_normal {net : Network (Pt ℝ)} {c vi vj : GCell} {i j pi pj : Nat} {l : List Nat}
    {a b : Pt ℝ} (hc : c.boundary = i :: j :: l) (hi : net.cells[i]? = some vi)
    (hj : net.cells[j]? = some vj) (hpi : vi.pointId = some pi) (hpj : vj.pointId = some pj)
    (ha : net.points[pi]? = some a) (hb : net.points[pj]? = some b) (hab : a ≠ b) (h2 : a 2 = b 2) :
    ∃ n, fractureNormal net c = .ok (n, fun k => (a k + b k) / 2) ∧ LeftNormal a b n := by
  refine ⟨_, fractureNormal_eq hc hi hj hpi hpj ha hb, ?_⟩
  have hs : 0 < (b 0 - a 0) ^ 2 + (b 1 - a 1) ^ 2 + (b 2 - a 2) ^ 2 := by
    rcases (lt_or_eq_of_le (by positivity :
      0 ≤ (b 0 - a 0) ^ 2 + (b 1 - a 1) ^ 2 + (b 2 - a 2) ^ 2)) with h | h
    · exact h
    · exfalso
      refine hab (funext fun k => ?_)
      fin_cases k
      · show a 0 = b 0
        nlinarith [sq_nonneg (b 0 - a 0), sq_nonneg (b 1 - a 1), sq_nonneg (b 2 - a 2)]
      · show a 1 = b 1
        nlinarith [sq_nonneg (b 0 - a 0), sq_nonneg (b 1 - a 1), sq_nonneg (b 2 - a 2)]
      · exact h2
  have hn : 0 < norm3 (b - a) := Real.sqrt_pos.2 hs
  have hsq : norm3 (b - a) ^ 2 = (b 0 - a 0) ^ 2 + (b 1 - a 1) ^ 2 := by
    have : norm3 (b - a) ^ 2 = (b 0 - a 0) ^ 2 + (b 1 - a 1) ^ 2 + (b 2 - a 2) ^ 2 :=
      Real.sq_sqrt hs.le
    rw [this, h2]
    ring
  have e0 : normalDir a b 0 = -((b 1 - a 1) / norm3 (b - a)) := rfl
  have e1 : normalDir a b 1 = (b 0 - a 0) / norm3 (b - a) := rfl
  have e2 : normalDir a b 2 = 0 := by
    show (b 2 - a 2) / norm3 (b - a) = 0
    rw [h2, sub_self, zero_div]
  have hne := hn.ne'
  refine ⟨?_, ?_, ?_⟩
  · unfold dot3
    rw [e0, e1, e2]
    field_simp
    linear_combination -hsq
  · show normalDir a b 0 * (b 0 - a 0) + normalDir a b 1 * (b 1 - a 1) + normalDir a b 2 * (b 2 - a 2) = 0
    rw [e0, e1, e2]
    ring
  · rw [e0, e1]
    have : (b 0 - a 0) * ((b 0 - a 0) / norm3 (b - a)) - (b 1 - a 1) * -((b 1 - a 1) / norm3 (b - a)) =
        norm3 (b - a) := by
      field_simp
      linear_combination -hsq
    rw [this]
    exact hn

/-- C115: the dictionary of normals after the call: every edge of the graph that is not a piece of another one gives an entry under its
tag, the last one if several share the tag; the other entries are as before. -/
theorem C115_normals {net : Network (Pt ℝ)} {nodes : List Nat} {geo main : List GCell}
    {d d' : Dict (Option Int) (Pt ℝ × Pt ℝ)} (hn : nodesOf net.graph = .ok nodes)
    (hg : fancy net.cells nodes = .ok geo) (hm : mainEdges net geo = .ok main)
    (h : fractureNormals 2 net d = .ok d') :
    (∀ c ∈ main, c ∈ geo ∧ c.dimension = 1) ∧
    (∀ t, (∀ c ∈ main, c.physical ≠ t) → d'.get? t = d.get? t) ∧
    ∀ pre c post, main = pre ++ c :: post → (∀ x ∈ post, x.physical ≠ c.physical) →
      ∃ r, fractureNormal net c = .ok r ∧ d'.get? c.physical = some r := by
  have h' : fractureNormals 2 net d = collectNormals net main d := by
    unfold fractureNormals
    rw [if_neg (by simp), hn]
    show (do
      let geo ← fancy net.cells nodes
      let main ← mainEdges net geo
      collectNormals net main d) = _
    rw [hg, Res.bind_ok, hm, Res.bind_ok]
  refine ⟨fun c hc => ?_, collectNormals_spec (h'.symm.trans h)⟩
  unfold mainEdges at hm
  rw [Res.bind_eq_ok] at hm
  obtain ⟨parts, -, hm⟩ := hm
  cases hm
  rw [List.mem_filter] at hc
  exact ⟨hc.1, (of_decide_eq_true hc.2).1⟩

/-- C115 (errors): outside the plane the call fails with `AssertionError`, without a graph with `AttributeError`. -/
theorem C115_errors (net : Network (Pt ℝ)) (d : Dict (Option Int) (Pt ℝ × Pt ℝ)) :
    (∀ dimension, dimension ≠ 2 → fractureNormals dimension net d = .error .assertionError) ∧
      (net.graph = none → fractureNormals 2 net d = .error .attributeError) := by
  refine ⟨fun k hk => ?_, fun h => ?_⟩
  · unfold fractureNormals
    rw [if_pos hk]
    rfl
  · unfold fractureNormals
    rw [if_neg (by simp), h]
    rfl

/-- C115 (errors): an edge with fewer than two ends, one whose end is no cell of the network, one whose end is no vertex
and one whose end has a point outside the array fail with `IndexError`. -/
theorem C115_index_errors (net : Network (Pt ℝ)) (c : GCell) :
    (c.boundary.length < 2 → fractureNormal net c = .error .indexError) ∧
      (∀ i j, getIdx c.boundary 0 = .ok i → getIdx c.boundary 1 = .ok j →
        (net.cells.length ≤ i ∨ net.cells.length ≤ j → fractureNormal net c = .error .indexError) ∧
          ∀ vi vj, getIdx net.cells i = .ok vi → getIdx net.cells j = .ok vj →
            (vi.pointId = none ∨ vj.pointId = none ∨ (∃ k, vi.pointId = some k ∧ net.points.length ≤ k) ∨
              ∃ k, vj.pointId = some k ∧ net.points.length ≤ k) →
            fractureNormal net c = .error .indexError) := by
  have out : ∀ {α : Type} (l : List α) (k : Nat), l.length ≤ k → getIdx l k = .error .indexError := by
    intro α l k h
    unfold getIdx
    rw [List.getElem?_eq_none h]
  have any : ∀ {α : Type} (l : List α) (k : Nat), (∃ v, getIdx l k = .ok v) ∨ getIdx l k = .error .indexError := by
    intro α l k
    rcases Nat.lt_or_ge k l.length with h | h
    · exact Or.inl ⟨l[k], by unfold getIdx; rw [List.getElem?_eq_getElem h]⟩
    · exact Or.inr (out l k h)
  have point : ∀ v : GCell, (v.pointId = none ∨ ∃ k, v.pointId = some k ∧ net.points.length ≤ k) →
      pointOf net v = .error .indexError := by
    rintro v (h | ⟨k, h, hk⟩)
    · unfold pointOf
      rw [h]
    · unfold pointOf
      rw [h]
      exact out _ _ hk
  have points : ∀ v : GCell, (∃ a, pointOf net v = .ok a) ∨ pointOf net v = .error .indexError := by
    intro v
    rcases hv : v.pointId with _ | k
    · exact Or.inr (point v (Or.inl hv))
    · unfold pointOf
      rw [hv]
      exact any _ _
  unfold fractureNormal
  refine ⟨fun h => ?_, fun i j hi hj => ⟨fun h => ?_, fun vi vj hvi hvj h => ?_⟩⟩
  · rcases any c.boundary 0 with ⟨i, hi⟩ | hi
    · rw [hi, out c.boundary 1 (by omega)]
      rfl
    · rw [hi]
      rfl
  · rw [hi, hj]
    simp only [Res.bind_ok]
    rcases any net.cells i with ⟨v, hv⟩ | hv
    · rcases h with h | h
      · rw [out _ _ h] at hv
        cases hv
      · rw [hv, out _ _ h]
        rfl
    · rw [hv]
      rfl
  · rw [hi, hj]
    simp only [Res.bind_ok]
    rw [hvi, hvj]
    simp only [Res.bind_ok]
    rcases points vi with ⟨a, ha⟩ | ha
    · have hb : pointOf net vj = .error .indexError := by
        rcases h with h | h | h | h
        · rw [point vi (Or.inl h)] at ha
          cases ha
        · exact point vj (Or.inl h)
        · rw [point vi (Or.inr h)] at ha
          cases ha
        · exact point vj (Or.inr h)
      rw [ha, hb]
      rfl
    · rw [ha]
      rfl

example : ∃ (net : Network (Pt ℝ)) (c : GCell), fractureNormal net c = .error .indexError :=
  ⟨⟨[], [], none, []⟩, ⟨1, 0, none, none, [], [], []⟩, (C115_index_errors _ _).1 (by simp)⟩

/-- C115: the normals computed after `write_mesh` are those of the network before it was given to the mesher. -/
theorem C115_restore (net : Network (Pt ℝ)) (points cells dimension : Nat)
    (d : Dict (Option Int) (Pt ℝ × Pt ℝ)) :
    fractureNormals dimension ((net.shift points cells).restore points) d =
      fractureNormals dimension net d := by
  rw [C87_write]
  let f : GCell → GCell := fun c => { c with id := c.id + cells }
  let net' : Network (Pt ℝ) := { net with cells := net.cells.map f }
  show fractureNormals dimension net' d = _
  have hnorm : ∀ c, fractureNormal net' (f c) = fractureNormal net c := by
    intro c
    have hp : ∀ v, pointOf net' (f v) = pointOf net v := fun v => rfl
    have hget : ∀ i, getIdx net'.cells i = (getIdx net.cells i).map f := fun i => getIdx_map f _ i
    unfold fractureNormal
    show (do
      let i ← getIdx c.boundary 0
      let j ← getIdx c.boundary 1
      let vi ← getIdx net'.cells i
      let vj ← getIdx net'.cells j
      let a ← pointOf net' vi
      let b ← pointOf net' vj
      let tau : Pt ℝ := fun k => (b k - a k) / norm3 (b - a)
      pure (zRotation tau (Real.pi / 2), midpoint a b)) = _
    cases getIdx c.boundary 0 with
    | error => rfl
    | ok i =>
      cases getIdx c.boundary 1 with
      | error => rfl
      | ok j =>
        simp only [Res.bind_ok, hget]
        cases getIdx net.cells i with
        | error => rfl
        | ok vi =>
          cases getIdx net.cells j with
          | error => rfl
          | ok vj => rfl
  have hcol : ∀ (main : List GCell) d, collectNormals net' (main.map f) d = collectNormals net main d := by
    intro main
    induction main with
    | nil => intro d; rfl
    | cons c main ih =>
      intro d
      simp only [List.map_cons, collectNormals, hnorm, ih]
      rfl
  have hmain : ∀ geo, mainEdges net' (geo.map f) = (mainEdges net geo).map (List.map f) := by
    intro geo
    unfold mainEdges
    have e1 : ((geo.map f).filter fun c => c.dimension = 1 ∧ c.immersed.length > 0).map GCell.immersed =
        (geo.filter fun c => c.dimension = 1 ∧ c.immersed.length > 0).map GCell.immersed := by
      rw [List.filter_map, List.map_map]
      rfl
    have e2 : mapRes (fancy net'.cells)
        ((geo.filter fun c => c.dimension = 1 ∧ c.immersed.length > 0).map GCell.immersed) =
        (mapRes (fancy net.cells)
          ((geo.filter fun c => c.dimension = 1 ∧ c.immersed.length > 0).map GCell.immersed)).map
          (List.map (List.map f)) := by
      rw [← mapRes_map]
      congr 1
      funext idx
      exact fancy_map' f _ idx
    rw [e1, e2]
    cases mapRes (fancy net.cells)
        ((geo.filter fun c => c.dimension = 1 ∧ c.immersed.length > 0).map GCell.immersed) with
    | error => rfl
    | ok parts =>
      show Except.ok _ = Except.ok _
      congr 1
      rw [List.filter_map]
      congr 1
      refine List.filter_congr fun c _ => ?_
      have e3 : (parts.map (List.map f)).flatten.map GCell.id =
          (parts.flatten.map GCell.id).map (· + cells) := by
        rw [← List.map_flatten, List.map_map, List.map_map]
        rfl
      simp only [Function.comp_apply]
      rw [e3]
      congr 1
      refine propext (and_congr_right fun _ => not_congr ?_)
      show c.id + cells ∈ _ ↔ _
      rw [List.mem_map]
      constructor
      · rintro ⟨x, hx, hxe⟩
        rwa [← Nat.add_right_cancel hxe]
      · exact fun hx => ⟨_, hx, rfl⟩
  unfold fractureNormals
  by_cases hd : dimension ≠ 2
  · rw [if_pos hd, if_pos hd]
    rfl
  · rw [if_neg hd, if_neg hd]
    show (do
      let nodes ← nodesOf net.graph
      let geo ← fancy (net.cells.map f) nodes
      let main ← mainEdges net' geo
      collectNormals net' main d) = (do
      let nodes ← nodesOf net.graph
      let geo ← fancy net.cells nodes
      let main ← mainEdges net geo
      collectNormals net main d)
    cases nodesOf net.graph with
    | error => rfl
    | ok nodes =>
      rw [Res.bind_ok, Res.bind_ok, fancy_map']
      cases fancy net.cells nodes with
      | error => rfl
      | ok geo =>
        show (do
          let main ← mainEdges net' (geo.map f)
          collectNormals net' main d) = (do
          let main ← mainEdges net geo
          collectNormals net main d)
        rw [hmain]
        cases mainEdges net geo with
        | error => rfl
        | ok main => exact hcol main d

/-- The fractures from `(0, 0)` to `(4, 0)` and from `(1, -1)` to `(1, 1)`, which cross at `(1, 0)`. -/
noncomputable def cross (all : Bool) : Network (Pt ℝ) :=
  ⟨[![0, 0, 0], ![4, 0, 0], ![1, -1, 0], ![1, 1, 0], ![1, 0, 0]], crossCells 2 1 5,
    (networkGraph 2 all (crossCells 2 1 5)).toOption, [1, 2]⟩

/-- Cells of a crossing by their position. -/
def crossCell (i : Nat) : GCell := (crossCells 2 1 5).getD i ⟨0, 0, none, none, [], [], []⟩

theorem cross_main (all : Bool) : ∃ nodes geo, nodesOf (cross all).graph = .ok nodes ∧
    fancy (cross all).cells nodes = .ok geo ∧
    mainEdges (cross all) geo =
      .ok (if all then [crossCell 2, crossCell 5] else
        [crossCell 7, crossCell 8, crossCell 9, crossCell 10]) := by
  cases all
  · refine ⟨[7, 0, 6, 8, 1, 9, 3, 10, 4],
      [crossCell 7, crossCell 0, crossCell 6, crossCell 8, crossCell 1, crossCell 9, crossCell 3,
        crossCell 10, crossCell 4], ?_, ?_, ?_⟩
    · have : (networkGraph 2 false (crossCells 2 1 5)).toOption.map DiGraph.nodes =
        some [7, 0, 6, 8, 1, 9, 3, 10, 4] := by decide +kernel
      show nodesOf (networkGraph 2 false (crossCells 2 1 5)).toOption = _
      cases hg : (networkGraph 2 false (crossCells 2 1 5)).toOption with
      | none => rw [hg] at this; cases this
      | some g =>
        rw [hg] at this
        exact congrArg Except.ok (Option.some.inj this)
    · rfl
    · rfl
  · refine ⟨[2, 0, 1, 7, 6, 8, 5, 3, 4, 9, 10],
      [crossCell 2, crossCell 0, crossCell 1, crossCell 7, crossCell 6, crossCell 8, crossCell 5,
        crossCell 3, crossCell 4, crossCell 9, crossCell 10], ?_, ?_, ?_⟩
    · have : (networkGraph 2 true (crossCells 2 1 5)).toOption.map DiGraph.nodes =
        some [2, 0, 1, 7, 6, 8, 5, 3, 4, 9, 10] := by decide +kernel
      show nodesOf (networkGraph 2 true (crossCells 2 1 5)).toOption = _
      cases hg : (networkGraph 2 true (crossCells 2 1 5)).toOption with
      | none => rw [hg] at this; cases this
      | some g =>
        rw [hg] at this
        exact congrArg Except.ok (Option.some.inj this)
    · rfl
    · rfl

theorem cross_normals {all : Bool} {d : Dict (Option Int) (Pt ℝ × Pt ℝ)} :
    fractureNormals 2 (cross all) d = collectNormals (cross all) (if all then [crossCell 2, crossCell 5] else
        [crossCell 7, crossCell 8, crossCell 9, crossCell 10]) d := by
  obtain ⟨nodes, geo, h1, h2, h3⟩ := cross_main all
  unfold fractureNormals
  rw [if_neg (by simp), h1]
  show (do
    let geo ← fancy (cross all).cells nodes
    let main ← mainEdges (cross all) geo
    collectNormals (cross all) main d) = _
  rw [h2, Res.bind_ok, h3, Res.bind_ok]

theorem normalDir_x {a b : Pt ℝ} (h0 : a 0 < b 0) (h1 : a 1 = b 1) (h2 : a 2 = b 2) :
    normalDir a b = ![0, 1, 0] := by
  have hn : norm3 (b - a) = b 0 - a 0 := by
    show Real.sqrt ((b 0 - a 0) ^ 2 + (b 1 - a 1) ^ 2 + (b 2 - a 2) ^ 2) = _
    rw [h1, h2, sub_self, sub_self]
    simp only [ne_eq, OfNat.ofNat_ne_zero, not_false_eq_true, zero_pow, add_zero]
    exact Real.sqrt_sq (by linarith)
  show ![-((b 1 - a 1) / norm3 (b - a)), (b 0 - a 0) / norm3 (b - a), (b 2 - a 2) / norm3 (b - a)] = _
  rw [hn, h1, h2, sub_self, sub_self, zero_div, neg_zero, div_self (by linarith)]

/-- With the graph of all cells the entry of the first fracture is its normal and its middle. -/
theorem cross_whole : ∃ d', fractureNormals 2 (cross true) [] = .ok d' ∧
    d'.get? (some 1) = some (![0, 1, 0], ![2, 0, 0]) ∧ d'.length = 2 := by
  have h2 : fractureNormal (cross true) (crossCell 2) =
      .ok (normalDir ![0, 0, 0] ![4, 0, 0], midpoint ![0, 0, 0] ![4, 0, 0]) :=
    fractureNormal_eq (i := 0) (j := 1) (l := []) (pi := 0) (pj := 1) rfl rfl rfl rfl rfl rfl rfl
  have h5 : fractureNormal (cross true) (crossCell 5) =
      .ok (normalDir ![1, -1, 0] ![1, 1, 0], midpoint ![1, -1, 0] ![1, 1, 0]) :=
    fractureNormal_eq (i := 3) (j := 4) (l := []) (pi := 2) (pj := 3) rfl rfl rfl rfl rfl rfl rfl
  refine ⟨[(some 1, normalDir ![0, 0, 0] ![4, 0, 0], midpoint ![0, 0, 0] ![4, 0, 0]),
    (some 2, normalDir ![1, -1, 0] ![1, 1, 0], midpoint ![1, -1, 0] ![1, 1, 0])], ?_, ?_, rfl⟩
  · rw [cross_normals]
    show collectNormals (cross true) [crossCell 2, crossCell 5] [] = _
    simp only [collectNormals, h2, h5, Res.bind_ok]
    rfl
  · show some (normalDir ![0, 0, 0] ![4, 0, 0], midpoint ![0, 0, 0] ![4, 0, 0]) = _
    rw [normalDir_x (a := ![0, 0, 0]) (b := ![4, 0, 0]) (by norm_num) rfl rfl]
    congr 2
    funext k
    fin_cases k <;> simp [MeshOps.midpoint] <;> norm_num

/-- C115 does not hold with the default of `build_grahp`: the middle stored for the first fracture, from `(0, 0)` to `(4, 0)`, is that of its
second piece, from `(1, 0)` to `(4, 0)`. -/
theorem C115_pieces_violated : ∃ d', fractureNormals 2 (cross false) [] = .ok d' ∧
    d'.get? (some 1) = some (![0, 1, 0], ![5 / 2, 0, 0]) := by
  have h7 : fractureNormal (cross false) (crossCell 7) =
      .ok (normalDir ![0, 0, 0] ![1, 0, 0], midpoint ![0, 0, 0] ![1, 0, 0]) :=
    fractureNormal_eq (i := 0) (j := 6) (l := []) (pi := 0) (pj := 4) rfl rfl rfl rfl rfl rfl rfl
  have h8 : fractureNormal (cross false) (crossCell 8) =
      .ok (normalDir ![1, 0, 0] ![4, 0, 0], midpoint ![1, 0, 0] ![4, 0, 0]) :=
    fractureNormal_eq (i := 6) (j := 1) (l := []) (pi := 4) (pj := 1) rfl rfl rfl rfl rfl rfl rfl
  have h9 : fractureNormal (cross false) (crossCell 9) =
      .ok (normalDir ![1, -1, 0] ![1, 0, 0], midpoint ![1, -1, 0] ![1, 0, 0]) :=
    fractureNormal_eq (i := 3) (j := 6) (l := []) (pi := 2) (pj := 4) rfl rfl rfl rfl rfl rfl rfl
  have h10 : fractureNormal (cross false) (crossCell 10) =
      .ok (normalDir ![1, 0, 0] ![1, 1, 0], midpoint ![1, 0, 0] ![1, 1, 0]) :=
    fractureNormal_eq (i := 6) (j := 4) (l := []) (pi := 4) (pj := 3) rfl rfl rfl rfl rfl rfl rfl
  refine ⟨[(some 1, normalDir ![1, 0, 0] ![4, 0, 0], midpoint ![1, 0, 0] ![4, 0, 0]),
    (some 2, normalDir ![1, 0, 0] ![1, 1, 0], midpoint ![1, 0, 0] ![1, 1, 0])], ?_, ?_⟩
  · rw [cross_normals]
    show collectNormals (cross false) [crossCell 7, crossCell 8, crossCell 9, crossCell 10] [] = _
    simp only [collectNormals, h7, h8, h9, h10, Res.bind_ok]
    rfl
  · show some (normalDir ![1, 0, 0] ![4, 0, 0], midpoint ![1, 0, 0] ![4, 0, 0]) = _
    rw [normalDir_x (a := ![1, 0, 0]) (b := ![4, 0, 0]) (by norm_num) rfl rfl]
    congr 2
    funext k
    fin_cases k <;> simp [MeshOps.midpoint] <;> norm_num

/-- C115 does not hold between `set_points` and `write_mesh`: the numbers of the points are still those of the mesher, and the call fails with
`IndexError`. -/
theorem C115_shift_violated (d : Dict (Option Int) (Pt ℝ × Pt ℝ)) :
    fractureNormals 2 ((cross true).shift 4 9) d = .error .indexError := by
  obtain ⟨nodes, geo, h1, h2, h3⟩ := cross_main true
  let g : GCell → GCell := fun c =>
    { c with id := c.id + 9
             pointId := if c.dimension = 0 then c.pointId.map (· + 4) else c.pointId }
  have hn : nodes = [2, 0, 1, 7, 6, 8, 5, 3, 4, 9, 10] := by
    have : (networkGraph 2 true (crossCells 2 1 5)).toOption.map DiGraph.nodes =
        some [2, 0, 1, 7, 6, 8, 5, 3, 4, 9, 10] := by decide +kernel
    have h1' : nodesOf (networkGraph 2 true (crossCells 2 1 5)).toOption = .ok nodes := h1
    cases hg : (networkGraph 2 true (crossCells 2 1 5)).toOption with
    | none => rw [hg] at this; cases this
    | some g =>
      rw [hg] at this h1'
      exact (Except.ok.inj h1').symm.trans (Option.some.inj this)
  subst hn
  have hgeo : fancy ((cross true).shift 4 9).cells [2, 0, 1, 7, 6, 8, 5, 3, 4, 9, 10] =
      .ok (geo.map g) := by
    show fancy ((cross true).cells.map g) _ = _
    rw [fancy_map', h2]
    rfl
  have hgeo' : geo = [crossCell 2, crossCell 0, crossCell 1, crossCell 7, crossCell 6, crossCell 8,
      crossCell 5, crossCell 3, crossCell 4, crossCell 9, crossCell 10] := by
    have : fancy (cross true).cells [2, 0, 1, 7, 6, 8, 5, 3, 4, 9, 10] = .ok [crossCell 2,
      crossCell 0, crossCell 1, crossCell 7, crossCell 6, crossCell 8, crossCell 5, crossCell 3,
      crossCell 4, crossCell 9, crossCell 10] := rfl
    exact Except.ok.inj (h2.symm.trans this)
  have hmain : mainEdges ((cross true).shift 4 9) (geo.map g) = .ok [g (crossCell 2), g (crossCell 5)] := by
    rw [hgeo']
    rfl
  unfold fractureNormals
  rw [if_neg (by simp)]
  show (do
    let nodes ← nodesOf (cross true).graph
    let geo ← fancy ((cross true).shift 4 9).cells nodes
    let main ← mainEdges ((cross true).shift 4 9) geo
    collectNormals ((cross true).shift 4 9) main d) = _
  rw [h1, Res.bind_ok, hgeo, Res.bind_ok, hmain, Res.bind_ok]
  have : fractureNormal ((cross true).shift 4 9) (g (crossCell 2)) = .error .indexError := by
    unfold fractureNormal
    rw [getIdx_some (l := (g (crossCell 2)).boundary) (a := 0) (by rfl),
      getIdx_some (l := (g (crossCell 2)).boundary) (a := 1) (by rfl), Res.bind_ok, Res.bind_ok,
      getIdx_some (a := g (crossCell 0)) (by rfl), getIdx_some (a := g (crossCell 1)) (by rfl),
      Res.bind_ok, Res.bind_ok]
    rfl
  simp only [collectNormals, this]
  rfl

/-! ### The opening -/

theorem npUnique_mem (l : List Nat) (i : Nat) : i ∈ npUnique l ↔ i ∈ l := by
  unfold npUnique npSort
  rw [(List.perm_insertionSort _ _).mem_iff, mem_uniq]

theorem npUnique_nodup (l : List Nat) : (npUnique l).Nodup := by
  unfold npUnique npSort
  exact ((List.perm_insertionSort _ _).nodup_iff).2 (nodup_uniq l)

/-- C115: a fracture with two end vertices of its tag at the points `b` and `e`: the nodes of the copies on the positive side move along the normal, those on
the negative side against it, and nothing else moves.  The sides have equally many nodes, and common nodes lie at the ends. -/
theorem C115_opening {dimension : Nat} {map : Dict Nat (Nat × Nat)} {factor : ℝ} {cells : Cells}
    {mat : Option Int} {n b e : Pt ℝ} {points : Points ℝ} {f : List Cell} {vb ve : Nat}
    {P N : List Nat}
    (hf : selectCells (fun c => c.material == mat && c.dimension + 1 == dimension) cells = .ok f)
    (hv : endVertices mat cells f = .ok [vb, ve]) (hs : sideNodes map cells f = .ok (P, N))
    (hb : points[vb]? = some b) (he : points[ve]? = some e)
    (hlen : (npUnique P).length = (npUnique N).length)
    (hP : ∀ i ∈ P, i < points.length) (hN : ∀ i ∈ N, i < points.length)
    (hc : ∀ i ∈ P, i ∈ N → ∀ x, points[i]? = some x → x = b ∨ x = e) :
    ∃ points', openOne dimension map factor cells mat n points = .ok points' ∧
      Opened factor n b e P N points points' := by
  have e1 : ((npUnique P).zip (npUnique N)).map Prod.fst = npUnique P :=
    List.map_fst_zip hlen.le
  have e2 : ((npUnique P).zip (npUnique N)).map Prod.snd = npUnique N :=
    List.map_snd_zip hlen.ge
  obtain ⟨q, hq, hlen', hmv⟩ := openPairs_ok (factor := factor) (n := n) (b := b) (e := e)
    ((npUnique P).zip (npUnique N)) points (by rw [e1]; exact npUnique_nodup P)
    (by rw [e2]; exact npUnique_nodup N)
    (fun p hp => ⟨hP _ ((npUnique_mem P _).1 (List.of_mem_zip hp).1),
      hN _ ((npUnique_mem N _).1 (List.of_mem_zip hp).2)⟩)
    (fun i hi hi' => by
      rw [e1, npUnique_mem] at hi
      rw [e2, npUnique_mem] at hi'
      exact hc i hi hi')
  rw [e1, e2] at hmv
  refine ⟨q, ?_, hlen', fun i x hx => ?_⟩
  · unfold openOne
    rw [hf, Res.bind_ok, hv, Res.bind_ok, hs, Res.bind_ok]
    have : twoEnds points [vb, ve] = .ok (b, e) := by
      unfold twoEnds fancy mapRes mapRes mapRes
      rw [getIdx_some hb, getIdx_some he]
      rfl
    rw [this, Res.bind_ok]
    exact hq
  · rw [hmv i x hx]
    simp only [npUnique_mem]

/-- C115: on the segment the size of the opening is `t (1 - t)`: nothing at the ends, a quarter in the middle and less elsewhere. -/
theorem C115_bump {b e : Pt ℝ} (hbe : b ≠ e) {t : ℝ} (h0 : 0 ≤ t) (h1 : t ≤ 1) :
    bump b e (fun k => b k + t * (e k - b k)) = t * (1 - t) ∧
      bump b e (fun k => b k + t * (e k - b k)) ≤ 1 / 4 ∧
      (bump b e (fun k => b k + t * (e k - b k)) = 1 / 4 ↔ t = 1 / 2) ∧
      (bump b e (fun k => b k + t * (e k - b k)) = 0 ↔ t = 0 ∨ t = 1) := by
  have hscale : ∀ s : ℝ, 0 ≤ s → ∀ v : Pt ℝ, (∀ k, v k = s * (e k - b k) ∨ v k = -(s * (e k - b k))) →
      norm3 v = s * norm3 (e - b) := by
    intro s hs v hv
    have hsq : ∀ k, v k ^ 2 = s ^ 2 * (e k - b k) ^ 2 := by
      intro k
      rcases hv k with h | h <;> rw [h] <;> ring
    unfold norm3
    rw [hsq 0, hsq 1, hsq 2]
    show Real.sqrt (s ^ 2 * (e 0 - b 0) ^ 2 + s ^ 2 * (e 1 - b 1) ^ 2 + s ^ 2 * (e 2 - b 2) ^ 2) =
      s * Real.sqrt ((e 0 - b 0) ^ 2 + (e 1 - b 1) ^ 2 + (e 2 - b 2) ^ 2)
    rw [← mul_add, ← mul_add, Real.sqrt_mul (sq_nonneg s), Real.sqrt_sq hs]
  have hn : norm3 (e - b) ≠ 0 := by
    intro h
    unfold norm3 at h
    rw [Real.sqrt_eq_zero (by positivity)] at h
    refine hbe (funext fun k => ?_)
    have hk : ∀ k, (e - b) k = e k - b k := fun k => rfl
    rw [hk, hk, hk] at h
    fin_cases k
    · show b 0 = e 0
      nlinarith [sq_nonneg (e 0 - b 0), sq_nonneg (e 1 - b 1), sq_nonneg (e 2 - b 2)]
    · show b 1 = e 1
      nlinarith [sq_nonneg (e 0 - b 0), sq_nonneg (e 1 - b 1), sq_nonneg (e 2 - b 2)]
    · show b 2 = e 2
      nlinarith [sq_nonneg (e 0 - b 0), sq_nonneg (e 1 - b 1), sq_nonneg (e 2 - b 2)]
  have hval : bump b e (fun k => b k + t * (e k - b k)) = t * (1 - t) := by
    unfold bump
    have a1 := hscale t h0 ((fun k => b k + t * (e k - b k)) - b) (fun k => Or.inl (by
        show b k + t * (e k - b k) - b k = _
        ring))
    have a2 := hscale (1 - t) (by linarith) ((fun k => b k + t * (e k - b k)) - e) (fun k => Or.inr (by
        show b k + t * (e k - b k) - e k = _
        ring))
    rw [a1, a2]
    field_simp
  rw [hval]
  refine ⟨rfl, by nlinarith [sq_nonneg (t - 1 / 2)], ⟨fun h => ?_, fun h => by rw [h]; norm_num⟩, ?_⟩
  · have : (t - 1 / 2) ^ 2 = 0 := by linear_combination -h
    have := pow_eq_zero_iff (two_ne_zero) |>.1 this
    linarith
  · rw [mul_eq_zero]
    exact or_congr_right ⟨fun h => by linarith, fun h => by linarith⟩

/-- C115: two copies of a node at the same point of the fracture end up `2 factor t (1 - t)` apart along the normal. -/
theorem C115_gap {factor : ℝ} {n b e : Pt ℝ} {P N : List Nat} {points points' : Points ℝ}
    (h : Opened factor n b e P N points points') (hbe : b ≠ e) {t : ℝ} (h0 : 0 ≤ t) (h1 : t ≤ 1)
    {i j : Nat} (hi : i ∈ P) (hi' : i ∉ N) (hj : j ∈ N) (hj' : j ∉ P)
    (hx : points[i]? = some fun k => b k + t * (e k - b k))
    (hy : points[j]? = some fun k => b k + t * (e k - b k)) :
    ∃ x y, points'[i]? = some x ∧ points'[j]? = some y ∧
      ∀ k, x k - y k = 2 * factor * (t * (1 - t)) * n k := by
  refine ⟨_, _, h.2 i _ hx, h.2 j _ hy, fun k => ?_⟩
  rw [if_pos hi, if_neg hi', if_neg hj', if_pos hj, (C115_bump hbe h0 h1).1]
  ring

/-- C115 (errors): unless exactly two vertices of the fracture have its tag the call fails with `ValueError`. -/
theorem C115_ends {dimension : Nat} {map : Dict Nat (Nat × Nat)} {factor : ℝ} {cells : Cells}
    {mat : Option Int} {n : Pt ℝ} {points : Points ℝ} {f : List Cell} {vs : List Nat}
    {PN : List Nat × List Nat}
    (hf : selectCells (fun c => c.material == mat && c.dimension + 1 == dimension) cells = .ok f)
    (hv : endVertices mat cells f = .ok vs) (hs : sideNodes map cells f = .ok PN)
    (hr : ∀ i ∈ vs, i < points.length) (hl : vs.length ≠ 2) :
    openOne dimension map factor cells mat n points = .error .valueError := by
  unfold openOne
  rw [hf, Res.bind_ok, hv, Res.bind_ok, hs, Res.bind_ok]
  obtain ⟨xs, hxs'⟩ := fancy_total hr
  have hxs := fancy_iff.2 hxs'
  have hlen : xs.length = vs.length := hxs'.length_eq.symm
  have : twoEnds points vs = .error .valueError := by
    unfold twoEnds
    rw [hxs, Res.bind_ok]
    match xs, hlen with
    | [], _ => rfl
    | [_], _ => rfl
    | [_, _], h => exact absurd h.symm hl
    | _ :: _ :: _ :: _, _ => rfl
  rw [this]
  rfl

/-- A fracture with the tag 1 of two edges: vertices 0, 1 (the ends) and 2 (with the tag `code`), edges 3 and 4, the
copies 5 and 6 on the positive side, 7 and 8 on the negative side; the nodes 3 and 4 are the copies of node 2. -/
def slitCells (code : Int) : Cells :=
  [some ⟨0, 0, some 1, [0], [[0]]⟩, some ⟨0, 1, some 1, [1], [[1]]⟩, some ⟨0, 2, some code, [2], [[2]]⟩,
    some ⟨1, 3, some 1, [0, 2], [[0, 2], [3]]⟩, some ⟨1, 4, some 1, [2, 1], [[2, 1], [4]]⟩,
    some ⟨1, 5, some 11, [0, 3], [[], []]⟩, some ⟨1, 6, some 11, [3, 1], [[], []]⟩,
    some ⟨1, 7, some 9, [0, 4], [[], []]⟩, some ⟨1, 8, some 9, [4, 1], [[], []]⟩]

def slitMap : Dict Nat (Nat × Nat) := [(3, 5, 7), (4, 6, 8)]

noncomputable def slitPoints : Points ℝ :=
  [![0, 0, 0], ![2, 0, 0], ![1, 0, 0], ![1, 0, 0], ![1, 0, 0]]

theorem slit_select (code : Int) :
    selectCells (fun c => c.material == some 1 && c.dimension + 1 == 2) (slitCells code) =
      .ok [⟨1, 3, some 1, [0, 2], [[0, 2], [3]]⟩, ⟨1, 4, some 1, [2, 1], [[2, 1], [4]]⟩] := by
  have h : ((some code == some (1 : Int)) && (0 + 1 == 2)) = false := by simp
  simp [slitCells, selectCells]

theorem slit_nodes (code : Int) :
    sideNodes slitMap (slitCells code)
      [⟨1, 3, some 1, [0, 2], [[0, 2], [3]]⟩, ⟨1, 4, some 1, [2, 1], [[2, 1], [4]]⟩] =
      .ok ([0, 3, 3, 1], [0, 4, 4, 1]) := rfl

/-- The hypotheses of `C115_opening` hold for a fracture of two edges, and the copies of its middle end up apart. -/
example : ∃ points' x y, openOne 2 slitMap (1 / 4) (slitCells 5) (some 1) ![0, 1, 0] slitPoints = .ok points' ∧
    points'[3]? = some x ∧ points'[4]? = some y ∧ x 1 - y 1 = 1 / 8 := by
  obtain ⟨q, h1, h2⟩ := C115_opening (factor := 1 / 4) (n := ![0, 1, 0]) (b := ![0, 0, 0]) (e := ![2, 0, 0])
    (points := slitPoints) (vb := 0) (ve := 1) (slit_select 5) rfl (slit_nodes 5) rfl rfl rfl
    (by simp [slitPoints]) (by simp [slitPoints]) (by
      intro i hi hi' x hx
      simp only [List.mem_cons, List.not_mem_nil, or_false] at hi hi'
      rcases hi with rfl | rfl | rfl | rfl
      · exact Or.inl (Option.some.inj hx.symm)
      · simp at hi'
      · simp at hi'
      · exact Or.inr (Option.some.inj hx.symm))
  have hm : (fun k => (![0, 0, 0] : Pt ℝ) k + 1 / 2 * ((![2, 0, 0] : Pt ℝ) k - (![0, 0, 0] : Pt ℝ) k)) =
      ![1, 0, 0] := by
    funext k
    fin_cases k <;> simp
  obtain ⟨x, y, h3, h4, h5⟩ := C115_gap h2 (t := 1 / 2) (i := 3) (j := 4) (by
      intro h
      have := congrFun h 0
      norm_num at this) (by norm_num) (by norm_num) (by decide) (by decide) (by decide) (by decide)
    (by rw [hm]; rfl) (by rw [hm]; rfl)
  refine ⟨q, x, y, h1, h3, h4, ?_⟩
  rw [h5 1]
  norm_num

/-- C115 does not hold for fractures numbered from 0: the crossing of the fractures 0 and 1 gets the code 1, the tag of the second fracture, which then
has three vertices of its tag. -/
theorem C115_code_violated (factor : ℝ) (n : Pt ℝ) : Fracture.pairIntegers 0 1 = 1 ∧
    openOne 2 slitMap factor (slitCells (Fracture.pairIntegers 0 1)) (some 1) n slitPoints =
      .error .valueError := by
  refine ⟨by decide, ?_⟩
  refine C115_ends (vs := [0, 1, 2]) (slit_select _) rfl (slit_nodes _) (by simp [slitPoints]) (by decide)

/-! ### The first cut -/

/-- C115: the first cut does nothing to a mesh without edges of the fractures. -/
theorem C115_old_cut {d : Dict (Option Int) (Pt ℝ × Pt ℝ)} {cells cells' : Cells}
    (h : oldLoop cells d = .ok cells') :
    cells' = cells ∧ ∀ p ∈ d, selectCells (fun c => c.material == p.1 && c.dimension == 1) cells = .ok [] := by
  induction d with
  | nil => cases h; exact ⟨rfl, by simp⟩
  | cons p ks ih =>
    obtain ⟨mat, r⟩ := p
    rw [oldLoop, Res.bind_eq_ok] at h
    obtain ⟨-, -, h⟩ := h
    rw [Res.bind_eq_ok] at h
    obtain ⟨-, -, h⟩ := h
    rw [Res.bind_eq_ok] at h
    obtain ⟨-, -, h⟩ := h
    rw [Res.bind_eq_ok] at h
    obtain ⟨f, hf, h⟩ := h
    rw [Res.bind_eq_ok] at h
    obtain ⟨vs, hvs, h⟩ := h
    have hnil : f = [] := by
      cases f with
      | nil => rfl
      | cons => cases hvs
    subst hnil
    obtain ⟨i1, i2⟩ := ih h
    refine ⟨i1, fun q hq => ?_⟩
    rcases List.mem_cons.1 hq with rfl | hq
    · exact hf
    · exact i2 q hq

/-- C115 does not hold for the first cut: on a mesh whose graphs can be built, with an edge of one of the fractures, it fails with `AttributeError`. -/
theorem C115_old_cut_violated {d : Dict (Option Int) (Pt ℝ × Pt ℝ)} {cells : Cells} {c : Cell}
    {p : Option Int × Pt ℝ × Pt ℝ} (hp : p ∈ d) (hc : some c ∈ cells) (hm : c.material = p.1)
    (h1 : c.dimension = 1) {g22 g21 g11 : DiGraph Node}
    (h22 : MeshGraph.buildGraph ⟨2, cells⟩ 2 2 = .ok g22)
    (h21 : MeshGraph.buildGraph ⟨2, cells⟩ 2 1 = .ok g21)
    (h11 : MeshGraph.buildGraph ⟨2, cells⟩ 1 1 = .ok g11) :
    oldLoop cells d = .error .attributeError := by
  have hsel : ∀ (cs : Cells) (cond cond' : Cell → Bool) (r : List Cell), selectCells cond cs = .ok r →
      ∃ f, selectCells cond' cs = .ok f ∧ ∀ x, some x ∈ cs → cond' x = true → x ∈ f := by
    intro cs cond cond'
    induction cs with
    | nil => intro r _; exact ⟨[], rfl, by simp⟩
    | cons a cs ih =>
      intro r hr
      cases a with
      | none => cases hr
      | some a =>
        rw [selectCells, Res.bind_eq_ok] at hr
        obtain ⟨r', hr', -⟩ := hr
        obtain ⟨f, hf, hmem⟩ := ih r' hr'
        refine ⟨if cond' a then a :: f else f, ?_, fun x hx hcx => ?_⟩
        · rw [selectCells, hf]
          rfl
        · rcases List.mem_cons.1 hx with hxa | hx
          · cases hxa
            rw [if_pos hcx]
            exact List.mem_cons_self
          · split
            · exact List.mem_cons_of_mem _ (hmem x hx hcx)
            · exact hmem x hx hcx
  have hbase : ∃ r, selectCells (fun c => c.dimension == 2) cells = .ok r := by
    unfold MeshGraph.buildGraph at h22
    rw [Res.bind_eq_ok] at h22
    obtain ⟨r, hr, -⟩ := h22
    exact ⟨r, hr⟩
  obtain ⟨r, hr⟩ := hbase
  induction d with
  | nil => cases hp
  | cons q ks ih =>
    obtain ⟨mat, w⟩ := q
    obtain ⟨f, hf, hmem⟩ := hsel cells _ (fun c => c.material == mat && c.dimension == 1) r hr
    rw [oldLoop, h22, Res.bind_ok, h21, Res.bind_ok, h11, Res.bind_ok, hf, Res.bind_ok]
    cases f with
    | cons => rfl
    | nil =>
      rcases List.mem_cons.1 hp with rfl | hp'
      · exact absurd (hmem c hc (by simp [hm, h1])) (by simp)
      · exact ih hp'

/-- A mesh of one triangle whose edge 3 belongs to the fracture 1. -/
example : ∃ g22 g21 g11 : DiGraph Node,
    let cells : Cells := [some ⟨0, 0, some 1, [0], [[0]]⟩, some ⟨0, 1, some 1, [1], [[1]]⟩,
      some ⟨0, 2, none, [2], [[2]]⟩, some ⟨1, 3, some 1, [0, 1], [[0, 1], [3]]⟩,
      some ⟨1, 4, none, [1, 2], [[1, 2], [4]]⟩, some ⟨1, 5, none, [2, 0], [[2, 0], [5]]⟩,
      some ⟨2, 6, some 7, [0, 1, 2], [[0, 1, 2], [3, 4, 5], [6]]⟩]
    MeshGraph.buildGraph ⟨2, cells⟩ 2 2 = .ok g22 ∧ MeshGraph.buildGraph ⟨2, cells⟩ 2 1 = .ok g21 ∧
      MeshGraph.buildGraph ⟨2, cells⟩ 1 1 = .ok g11 :=
  ⟨_, _, _, rfl, rfl, rfl⟩

/-- C115 does not hold for the copies at a vertex: the edge itself loses the old node to the copy of the vertex. -/
theorem C115_harvest_violated {frac : Option Int} {sign : Int} {old new id : Nat}
    {st st' : Store × Dict Nat Nat} {e : Cell} (he : st.1.cells[id]? = some (some e))
    (hm : e.material ≠ frac) (h : harvestEdge frac sign old new st id = .ok st') :
    ∃ e', st'.1.cells[id]? = some (some e') ∧
      e'.nodeTags = e.nodeTags.map (fun t => if t = old then new else t) ∧
      (old ≠ new → old ∉ e'.nodeTags) := by
  unfold harvestEdge at h
  have hcell : MeshGraph.cellAt st.1.cells id = .ok e := by
    unfold MeshGraph.cellAt
    rw [he]
  rw [hcell, Res.bind_ok, if_neg hm] at h
  dsimp only at h
  rw [Res.bind_eq_ok] at h
  obtain ⟨⟨s1, c1, dup1⟩, h1, h⟩ := h
  cases h
  refine ⟨_, duplicateEntity_keeps h1 (i := id) (e := some { e with
    nodeTags := e.nodeTags.map fun t => if t = old then new else t }) ?_, rfl, ?_⟩
  · exact List.getElem?_set_self (List.getElem?_eq_some_iff.1 he).1
  · intro hne hmem
    obtain ⟨t, -, ht⟩ := List.mem_map.1 hmem
    by_cases hto : t = old
    · rw [if_pos hto] at ht
      exact hne ht.symm
    · rw [if_neg hto] at ht
      exact hto ht

#print axioms C115_rotation
#print axioms C115_axis
#print axioms C115_index
#print axioms C115_normal
#print axioms C115_normals
#print axioms C115_errors
#print axioms C115_restore
#print axioms C115_pieces_violated
#print axioms C115_shift_violated
#print axioms C115_opening
#print axioms C115_bump
#print axioms C115_gap
#print axioms C115_ends
#print axioms C115_code_violated
#print axioms C115_old_cut
#print axioms C115_old_cut_violated
#print axioms C115_harvest_violated

#print axioms C115_index_errors

end Verif.FracOpen
