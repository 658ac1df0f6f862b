/-
Property theorem C92: the trace of the basis of a cell on a facet (`_trace`,
src/basis/basis_trace.py:9-28).
-/
import Verif.Lemmas.BasisTrace
import Verif.Props.Basis
import Verif.Props.Trace
import Verif.Props.DofMap

namespace Verif.BasisTrace
open MeshBuild MeshGraph Dof Space Trace Orient Basis Mapping

section
variable {K : Type} [Field K] [LinearOrder K] [IsStrictOrderedRing K]
variable (qr : ∀ d, Matrix (Fin 3) (Fin d) K → Matrix (Fin 3) (Fin d) K × Matrix (Fin d) (Fin d) K)

/-- C92: the trace is the basis of the cell, with its geometry, at the points of the cell that coincide in space
with the points given on the facet; of its functions either all are given or those selected. -/
theorem C92_points (pts : Points K) (cells : Cells) (c0 c1 : Cell)
    (h : FacetOf c0 c1) (hpts : ∀ t ∈ c0.nodeTags, t < pts.length) (points : List (List K))
    (hp : RefPoints c1.dimension points) (hne : points ≠ [])
    (hqr : ∀ P, fancy pts c0.nodeTags = .ok P →
      IsQR (jacobian c0.dimension P) (qr c0.dimension (jacobian c0.dimension P)))
    (hjac : ∀ P, fancy pts c0.nodeTags = .ok P →
      ((jacobian c0.dimension P).transpose * jacobian c0.dimension P).det ≠ 0)
    (kind : Kind K) (bc : List Bool) :
    ∃ mapped xs P, ∃ geo : Geo K c0.dimension, evaluateX pts c1 points = .ok xs ∧
      evaluateX pts c0 mapped = .ok xs ∧ fancy pts c0.nodeTags = .ok P ∧
      geo.jac = jacobian c0.dimension P ∧ FitsDet geo ∧ FitsInv geo ∧
      trace qr pts cells kind points c1 c0 bc true
        = evaluateBasis cells c0 bc kind.data kind.vector kind.map (fun _ => geo) (kind.tabulate mapped) ∧
      trace qr pts cells kind points c1 c0 bc false
        = (evaluateBasis cells c0 bc kind.data kind.vector kind.map (fun _ => geo) (kind.tabulate mapped)
            >>= selectDofs kind.data c1 c0) := by
  obtain ⟨mapped, xs, hm, hlen, hx1, hx0⟩ := C27_same_points pts c1 c0 points h hpts hp
  obtain ⟨P, hP, hPl⟩ : ∃ P, fancy pts c0.nodeTags = .ok P ∧ P.length = c0.dimension + 1 := by
    have hx := hx0
    unfold evaluateX at hx
    rw [if_neg (by rw [h.dim]; omega), if_neg (by have := h.dimLe; omega)] at hx
    split at hx
    · cases hx
    · cases hf : fancy pts c0.nodeTags with
      | error e => rw [hf] at hx; cases hx
      | ok P =>
        rw [hf, Res.bind_ok] at hx
        by_cases hl : P.length = c0.dimension + 1
        · exact ⟨P, rfl, hl⟩
        · rw [if_pos hl] at hx; cases hx
  have hdeg := (C57_rejects_degenerate (qr c0.dimension) (jacobian c0.dimension P) (hqr P hP)).2.1
    (hjac P hP)
  obtain ⟨⟨det, inv⟩, hdi⟩ := hdeg
  obtain ⟨e1, e2, -, e4⟩ := C57_determinant_and_inverse (qr c0.dimension) (jacobian c0.dimension P)
    (hqr P hP) det inv hdi
  have hgeo : evaluateGeometry qr pts c0 mapped = .ok ⟨jacobian c0.dimension P, det, inv⟩ := by
    unfold evaluateGeometry
    rw [hP, Res.bind_ok, if_neg (by simp [hPl]),
      if_neg (by rw [hlen, List.length_eq_zero_iff]; exact hne)]
    simp only [hdi, Res.bind_ok]
    rfl
  refine ⟨mapped, xs, P, ⟨jacobian c0.dimension P, det, inv⟩, hx1, hx0, hP, rfl, ⟨e1, e2⟩, e4, ?_, ?_⟩
  · unfold trace
    rw [hm, Res.bind_ok, hgeo, Res.bind_ok]
    cases evaluateBasis cells c0 bc kind.data kind.vector kind.map
      (fun _ => ⟨jacobian c0.dimension P, det, inv⟩) (kind.tabulate mapped) <;> rfl
  · unfold trace
    rw [hm, Res.bind_ok, hgeo, Res.bind_ok]
    rfl

omit [LinearOrder K] [IsStrictOrderedRing K] in
/-- C92: the functions selected are those that `entity_dofs` lists for the facet, in its order, and they are
unchanged. -/
theorem C92_selected (data : DofData K) (c1 c0 : Cell) (t : Table K) {ids : List Nat}
    {row : List (List Nat)} {dofs : List Nat} (hids : c0.sub[c1.dimension]? = some ids)
    (hmem : c1.id ∈ ids) (hrow : data.entityDofs[c1.dimension]? = some row)
    (hdofs : row[ids.idxOf c1.id]? = some dofs) (hlt : ∀ b ∈ dofs, b < t.phi.length) :
    ∃ phi, selectDofs data c1 c0 t = .ok { t with phi := phi } ∧
      List.Forall₂ (fun b f => t.phi[b]? = some f) dofs phi := by
  obtain ⟨phi, hphi⟩ := fancy_ok hlt
  refine ⟨phi, ?_, fancy_iff.1 hphi⟩
  unfold selectDofs Cell.subIds
  rw [getIdx_of hids, Res.bind_ok, indexOf, if_pos hmem, Res.bind_ok, getIdx_of hrow, Res.bind_ok,
    getIdx_of hdofs, Res.bind_ok, hphi, Res.bind_ok]
  rfl

omit [LinearOrder K] [IsStrictOrderedRing K] in
/-- C92: a cell that is not among the sub-entities is refused. -/
theorem C92_rejects (data : DofData K) (c1 c0 : Cell) (t : Table K) :
    (c0.sub.length ≤ c1.dimension → selectDofs data c1 c0 t = .error .indexError) ∧
    (∀ ids, c0.sub[c1.dimension]? = some ids → c1.id ∉ ids →
      selectDofs data c1 c0 t = .error .valueError) := by
  unfold selectDofs Cell.subIds
  refine ⟨fun h => ?_, fun ids h hno => ?_⟩
  · rw [getIdx, List.getElem?_eq_none h]; rfl
  · rw [getIdx_of h, Res.bind_ok, indexOf, if_neg hno]; rfl
end

/-- C92: the degrees of freedom of the functions selected are the ones of the facet, in the order in which
the map of degrees of freedom stores them. -/
theorem C92_numbers (m : Mesh) (h : WellFormed m.cells) (hn : SubNodup m.cells) (dim : Nat)
    (hm : dim ≤ m.dimension) (h3 : dim ≤ 3) (tags : List (Option Int)) (ned : List (List Nat))
    (href : IsRef ned dim) (nc shift : Nat) (D : DoFMap)
    (hb : buildSpaceDofs m dim tags ned nc shift = .ok D) (entityDofs : List (List (List Nat)))
    (htile : Tiled ned entityDofs) (i : Nat) (hi : Tagged m.cells tags dim i)
    (hcount : ∀ d ≤ dim, (subIdsOf m.cells i d).length = (ned.getD d []).length) (d : Nat) (hd : d ≤ dim)
    (j : Nat) (hj : j ∈ subIdsOf m.cells i d) :
    ∃ l row dofs, D.destinationIndices i = .ok l ∧ entityDofs[d]? = some row ∧
      row[(subIdsOf m.cells i d).idxOf j]? = some dofs ∧ (∀ b ∈ dofs, (b + 1) * nc ≤ l.length) ∧
      fancy l (places nc dofs) = .ok (D.numbers d j) := by
  obtain ⟨l, hl, hleq, -⟩ := C13_destinations m h hn dim hm h3 tags ned href nc shift D hb i hi
  have hlen : ∀ e ≤ dim, ∀ x ∈ subIdsOf m.cells i e, (D.numbers e x).length = perEntity ned nc e := by
    obtain ⟨D', t, sel, hb', hd, hok, hD, hsel, hent⟩ :=
      build_facts m h dim hm h3 tags ned href nc shift
    obtain rfl : D' = D := by rw [hb'] at hb; simpa using hb
    obtain ⟨c, hc, hcd, hmat⟩ := hi
    have hid := h.ids i c hc
    subst hid
    intro e he x hx
    rw [subIdsOf_eq hc] at hx
    have hx' := ((hok.entities (d := e) (by omega)).2.2 x).2 ⟨c, (hsel c).2 ⟨hc, hcd, hmat⟩, hx⟩
    rw [numbers_eq hD (by omega) hx', block_length]
  have hned : ned[d]? = some (ned.getD d []) := by
    rw [List.getD_eq_getElem?_getD, List.getElem?_eq_getElem (by rw [href.1]; omega)]
    rfl
  obtain ⟨row, hrow, hr⟩ := htile d _ hned
  have he := List.idxOf_lt_length_of_mem hj
  have hdofs := hr ((subIdsOf m.cells i d).idxOf j) (by rw [← hcount d hd]; exact he)
  generalize hS : subIdsOf m.cells i = S at *
  set e := (S d).idxOf j with hedef
  have hsplit : S d = (S d).take e ++ j :: (S d).drop (e + 1) := by
    conv_lhs => rw [← List.take_append_drop e (S d), List.drop_eq_getElem_cons he]
    rw [List.getElem_idxOf]
  set A := (List.range d).flatMap (fun d => (S d).flatMap (D.numbers d)) ++
    ((S d).take e).flatMap (D.numbers d) with hA
  obtain ⟨B, hB⟩ : ∃ B, l = A ++ D.numbers d j ++ B := by
    refine ⟨((S d).drop (e + 1)).flatMap (D.numbers d) ++
      (List.range' (d + 1) (dim - d)).flatMap (fun d => (S d).flatMap (D.numbers d)), ?_⟩
    have hrange : List.range (dim + 1) = List.range d ++ d :: List.range' (d + 1) (dim - d) := by
      have := List.range'_append_1 (s := 0) (m := d) (n := dim - d + 1)
      rw [Nat.zero_add, List.range'_succ] at this
      rw [List.range_eq_range', List.range_eq_range', this]
      congr 1
      omega
    rw [hleq, hrange, List.flatMap_append, List.flatMap_cons, hA]
    have hmid : (S d).flatMap (D.numbers d) = ((S d).take e).flatMap (D.numbers d) ++
        (D.numbers d j ++ ((S d).drop (e + 1)).flatMap (D.numbers d)) := by
      rw [← List.flatMap_cons, ← List.flatMap_append, ← hsplit]
    rw [hmid]
    simp only [List.append_assoc]
  have hAlen : A.length = (before ned d + e * perEntity ned 1 d) * nc := by
    rw [hA, List.length_append, length_flatMap_const (n := perEntity ned nc d) fun x hx =>
      hlen d hd x (List.mem_of_mem_take hx), List.length_take, Nat.min_eq_left he.le, perEntity_mul,
      Nat.add_mul, Nat.mul_assoc, before, List.length_flatMap]
    congr 1
    rw [← List.sum_map_mul_right]
    congr 1
    refine List.map_congr_left fun x hx => ?_
    have hx' : x ≤ dim := by have := List.mem_range.1 hx; omega
    rw [length_flatMap_const (hlen x hx'), hcount x hx', perEntity_mul, Nat.mul_assoc]
  have hNlen : (D.numbers d j).length = perEntity ned 1 d * nc := by
    rw [hlen d hd j hj, perEntity_mul]
  refine ⟨l, row, _, hl, hrow, hdofs, fun b hb => ?_, ?_⟩
  · rw [List.mem_range'_1] at hb
    rw [hB]
    simp only [List.length_append, hAlen, hNlen, ← Nat.add_mul]
    exact (Nat.mul_le_mul_right nc (by omega)).trans (Nat.le_add_right _ _)
  · rw [places_range', hB, ← hAlen, ← hNlen]
    exact fancy_middle A _ B

/-- C92: both cells beside a facet select the same degrees of freedom, in the same order. -/
theorem C92_two_sides (m : Mesh) (h : WellFormed m.cells) (hn : SubNodup m.cells) (dim : Nat)
    (hm : dim ≤ m.dimension) (h3 : dim ≤ 3) (tags : List (Option Int)) (ned : List (List Nat))
    (href : IsRef ned dim) (nc shift : Nat) (D : DoFMap)
    (hb : buildSpaceDofs m dim tags ned nc shift = .ok D) (entityDofs : List (List (List Nat)))
    (htile : Tiled ned entityDofs) (i k : Nat) (hi : Tagged m.cells tags dim i)
    (hk : Tagged m.cells tags dim k)
    (hcount : ∀ d ≤ dim, (subIdsOf m.cells i d).length = (ned.getD d []).length ∧
      (subIdsOf m.cells k d).length = (ned.getD d []).length) (d : Nat) (hd : d ≤ dim)
    (j : Nat) (hji : j ∈ subIdsOf m.cells i d) (hjk : j ∈ subIdsOf m.cells k d) :
    ∃ li lk row di dk r, D.destinationIndices i = .ok li ∧ D.destinationIndices k = .ok lk ∧
      entityDofs[d]? = some row ∧ row[(subIdsOf m.cells i d).idxOf j]? = some di ∧
      row[(subIdsOf m.cells k d).idxOf j]? = some dk ∧
      fancy li (places nc di) = .ok r ∧ fancy lk (places nc dk) = .ok r := by
  obtain ⟨li, row, di, h1, h2, h3', -, h4⟩ := C92_numbers m h hn dim hm h3 tags ned href nc shift D hb
    entityDofs htile i hi (fun d hd => (hcount d hd).1) d hd j hji
  obtain ⟨lk, row', dk, k1, k2, k3, -, k4⟩ := C92_numbers m h hn dim hm h3 tags ned href nc shift D hb
    entityDofs htile k hk (fun d hd => (hcount d hd).2) d hd j hjk
  obtain rfl : row = row' := by rw [h2] at k2; simpa using k2
  exact ⟨li, lk, row, di, dk, _, h1, k1, h2, h3', k3, h4, k4⟩

/-- P1 on a triangle -/
def linearData : DofData ℚ := ⟨true, 0, 0, 1, 1, 1, [[[0], [1], [2]], [[], [], []], [[]]]⟩

theorem linear_tiled : Tiled [[1, 1, 1], [0, 0, 0], [0]] linearData.entityDofs := by
  intro d l h
  match d, h with
  | 0, h => cases h; exact ⟨_, rfl, by decide⟩
  | 1, h => cases h; exact ⟨_, rfl, by decide⟩
  | 2, h => cases h; exact ⟨_, rfl, by decide⟩
  | _ + 3, h => cases h

/-- C92 violated: of the linear functions of a triangle none is selected on an edge, although two of them
do not vanish there and two degrees of freedom belong to the edge with its ends. -/
theorem C92_linear_violated : ∃ (c0 c1 : Cell) (D : DoFMap), FacetOf c0 c1 ∧
    buildSpaceDofs ⟨2, exampleCells⟩ 2 [some 1] [[1, 1, 1], [0, 0, 0], [0]] 1 0 = .ok D ∧
    Stored exampleCells 6 c0 ∧ Stored exampleCells 5 c1 ∧
    D.bcDestinationIndices 6 5 = .ok [1, 0] ∧
    ∀ t, selectDofs linearData c1 c0 t = .ok { t with phi := [] } :=
  ⟨⟨2, 6, some 1, [0, 1, 2], [[0, 1, 2], [3, 4, 5], [6]]⟩, ⟨1, 5, some 2, [1, 0], [[1, 0], [5]]⟩, _,
    ⟨rfl, by decide, rfl, _, rfl, by decide, _, rfl, by decide⟩, rfl, rfl, rfl, rfl, fun _ => rfl⟩

/-! ### The hypotheses are satisfiable -/

/-- P2 with two components: the function of the edge with id 5 is the last, its numbers are 20 and 21. -/
example : Tiled [[1, 1, 1], [1, 1, 1], [0]] [[[0], [1], [2]], [[3], [4], [5]], [[]]] ∧
    ∃ D, buildSpaceDofs ⟨2, exampleCells⟩ 2 [some 1] [[1, 1, 1], [1, 1, 1], [0]] 2 10 = .ok D ∧
    Tagged exampleCells [some 1] 2 6 ∧ 5 ∈ subIdsOf exampleCells 6 1 ∧
    (∀ d ≤ 2, (subIdsOf exampleCells 6 d).length
      = (([[1, 1, 1], [1, 1, 1], [0]] : List (List Nat)).getD d []).length) ∧
    fancy [10, 11, 12, 13, 14, 15, 16, 17, 18, 19, 20, 21] (places 2 [5]) = .ok (D.numbers 1 5) ∧
    D.numbers 1 5 = [20, 21] := by
  refine ⟨?_, _, rfl, ⟨_, rfl, rfl, by decide⟩, by decide, by decide, rfl, rfl⟩
  intro d l h
  match d, h with
  | 0, h => cases h; exact ⟨_, rfl, by decide⟩
  | 1, h => cases h; exact ⟨_, rfl, by decide⟩
  | 2, h => cases h; exact ⟨_, rfl, by decide⟩
  | _ + 3, h => cases h

/-- A triangle in a plane of space with two of its edges along axes: its Jacobian is its own factor `Q`. -/
example :
    let tri : Cell := ⟨2, 9, none, [0, 1, 2], [[0, 1, 2], [6, 7, 8], [9]]⟩
    let edge : Cell := ⟨1, 7, none, [2, 0], [[2, 0], [7]]⟩
    let pts : Points ℚ := [![0, 0, 0], ![1, 0, 0], ![0, 1, 0]]
    let q : Matrix (Fin 3) (Fin 2) ℚ := !![1, 0; 0, 1; 0, 0]
    FacetOf tri edge ∧ (∀ t ∈ tri.nodeTags, t < pts.length) ∧
    RefPoints edge.dimension [[(1/4 : ℚ)], [1/2]] ∧
    ∃ P, fancy pts tri.nodeTags = .ok P ∧ jacobian 2 P = q ∧ IsQR q (q, 1) ∧
      ((jacobian 2 P).transpose * jacobian 2 P).det ≠ 0 := by
  intro tri edge pts q
  have hj : jacobian 2 pts = q := by
    ext i k
    fin_cases i <;> fin_cases k <;> simp [jacobian, gradShapes, pts, q, List.range_succ]
  have ho : q.transpose * q = 1 := by
    ext i k
    fin_cases i <;> fin_cases k <;> simp [q, Matrix.mul_apply, Fin.sum_univ_succ]
  refine ⟨⟨rfl, by decide, rfl, _, rfl, by decide, _, rfl, by decide⟩, by decide, ⟨by decide, by simp [edge]⟩,
    pts, rfl, hj, ⟨ho, fun i j h => ?_, by simp⟩, ?_⟩
  · exact Matrix.one_apply_ne h.ne'
  · rw [hj, ho, Matrix.det_one]
    exact one_ne_zero

#print axioms C92_points
#print axioms C92_selected
#print axioms C92_rejects
#print axioms C92_numbers
#print axioms C92_two_sides
#print axioms C92_linear_violated

end Verif.BasisTrace
