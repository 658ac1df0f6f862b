/-
Property theorem C93: values prescribed on the boundary of the primal form of the Laplacian
(`LaplacePrimalWeakFormBCDirichlet`, src/weak_forms/laplace_primal_weak_form.py:77-157).
-/
import Verif.Model.PrimalBoundary
import Verif.Props.Neighbour
import Verif.Props.BasisTrace
import Verif.Props.Elasticity

namespace Verif.PrimalBoundary
open MeshBuild MeshGraph Dof Space Trace Orient Basis BasisTrace Assembly L2Form Elasticity

/-! ### The degrees of freedom -/

theorem fancy_flatMap {α β : Type} {l : List α} {g : β → List Nat} {h : β → List α} : ∀ {L : List β},
    (∀ x ∈ L, fancy l (g x) = .ok (h x)) → fancy l (L.flatMap g) = .ok (L.flatMap h)
  | [], _ => rfl
  | x :: L, H => by
    have h1 := fancy_iff.1 (H x List.mem_cons_self)
    have h2 := fancy_iff.1 (fancy_flatMap (L := L) fun y hy => H y (List.mem_cons_of_mem _ hy))
    rw [fancy_iff, List.flatMap_cons, List.flatMap_cons]
    exact List.rel_append h1 h2

/-- C93: when no entity has more than one function, the functions used are the ones of the facet and of its own
entities, and their degrees of freedom are the boundary destinations of the facet, in the same order. -/
theorem C93_numbers_partial (m : Mesh) (h : WellFormed m.cells) (hn : SubNodup m.cells)
    (hcl : SubClosed m.cells) (dim : Nat) (hm : dim ≤ m.dimension) (h3 : dim ≤ 3)
    (tags : List (Option Int)) (ned : List (List Nat)) (href : IsRef ned dim) (nc shift : Nat)
    (D : DoFMap) (hb : buildSpaceDofs m dim tags ned nc shift = .ok D)
    (entityDofs : List (List (List Nat))) (htile : Tiled ned entityDofs)
    (hone : ∀ d < dim, perEntity ned 1 d ≤ 1) (hsome : ∃ d < dim, perEntity ned nc d ≠ 0)
    {c0 c1 : Cell} (hdim : 1 ≤ dim) (hc0 : Stored m.cells c0.id c0) (hc1 : Stored m.cells c1.id c1)
    (hi : Tagged m.cells tags dim c0.id)
    (hcount : ∀ d ≤ dim, (subIdsOf m.cells c0.id d).length = (ned.getD d []).length)
    (hne : ∀ d < dim, subIdsOf m.cells c1.id d ≠ [])
    (hj : SubEntity m.cells c0.id (dim - 1) c1.id) :
    ∃ dofs l b, closureDofs entityDofs c1 c0 = .ok dofs ∧ D.destinationIndices c0.id = .ok l ∧
      D.bcDestinationIndices c0.id c1.id = .ok b ∧ fancy l (places nc dofs) = .ok b := by
  obtain ⟨l, b, hl, hbd, hbeq, -, -, hblen⟩ := C15_boundary_destinations m h hn hcl dim hm h3 tags ned href
    nc shift D hb c0.id c1.id hdim hi hj
  have hc0d : c0.dimension = dim := by
    obtain ⟨c, hc, hcd, -⟩ := hi
    unfold Stored at hc hc0
    rw [hc0] at hc
    cases hc
    exact hcd
  have hc1d : c1.dimension = dim - 1 := by
    obtain ⟨c, hc, hcd⟩ := h.subOk _ c0 hc0 _ _ (subD_eq h hc0 (t := dim - 1) (by omega)) _
      ((subEntity_iff hc0).1 hj)
    unfold Stored at hc hc1
    rw [hc1] at hc
    cases hc
    exact hcd
  have hin : ∀ d < dim, ∀ x ∈ subD c1 d, x ∈ subD c0 d := by
    intro d hd
    obtain ⟨ids, hids, hin⟩ := hcl _ c0 _ c1 hc0 hc1 ⟨_, List.mem_of_getElem?
      (subD_eq h hc0 (t := dim - 1) (by omega)), (subEntity_iff hc0).1 hj⟩ d _
      (subD_eq h hc1 (t := d) (by omega))
    intro x hx
    have := hin x hx
    rwa [subD, hids]
  have hfirst : ∀ d < dim, ∀ x ∈ subD c1 d, ∃ ds, firstDof entityDofs c0 d x = .ok ds ∧
      fancy l (places nc ds) = .ok (D.numbers d x) := by
    intro d hd x hx
    have hx0 := hin d hd x hx
    obtain ⟨l', row, dofs, h1, h2, h3', -, h5⟩ := C92_numbers m h hn dim hm h3 tags ned href nc shift D hb
      entityDofs htile c0.id hi hcount d hd.le x (by rw [subIdsOf_eq hc0]; exact hx0)
    rw [hl] at h1
    cases h1
    rw [subIdsOf_eq hc0] at h3'
    have hshort : dofs.length ≤ 1 := by
      have hned : ned[d]? = some (ned.getD d []) := by
        rw [List.getD_eq_getElem?_getD, List.getElem?_eq_getElem (by rw [href.1]; omega)]
        rfl
      obtain ⟨row', e1, e2⟩ := htile d _ hned
      rw [h2] at e1
      cases e1
      rw [e2 _ (by rw [← hcount d hd.le, subIdsOf_eq hc0]; exact List.idxOf_lt_length_of_mem hx0)] at h3'
      cases h3'
      simpa using hone d hd
    refine ⟨dofs, ?_, h5⟩
    unfold firstDof Cell.subIds
    rw [getIdx_of (subD_eq h hc0 (t := d) (by omega)), Res.bind_ok, indexOf, if_pos hx0, Res.bind_ok,
      getIdx_of h2, Res.bind_ok, getIdx_of h3', Res.bind_ok]
    match dofs, hshort with
    | [], _ => rfl
    | [_], _ => rfl
  choose! ds hds hfan using hfirst
  have hpart : ∀ d ∈ List.range (c1.dimension + 1), (do
      let ids ← Cell.subIds c1 d
      let l ← mapRes (firstDof entityDofs c0 d) ids
      pure l.flatten : Res (List Nat)) = .ok ((subD c1 d).flatMap (ds d)) := by
    intro d hd
    have hd' : d < dim := by have := List.mem_range.1 hd; omega
    unfold Cell.subIds
    rw [getIdx_of (subD_eq h hc1 (t := d) (by omega)), Res.bind_ok,
      mapRes_ok (g := ds d) _ (hds d hd'), Res.bind_ok, List.flatMap_def]
    rfl
  have hfan' : fancy l (places nc ((List.range dim).flatMap fun d => (subD c1 d).flatMap (ds d))) = .ok b := by
    have e : places nc ((List.range dim).flatMap fun d => (subD c1 d).flatMap (ds d)) =
        (List.range dim).flatMap fun d => (subD c1 d).flatMap fun x => places nc (ds d x) := by
      unfold places
      simp only [List.flatMap_assoc]
    rw [e, hbeq]
    refine fancy_flatMap fun d hd => ?_
    rw [subIdsOf_eq hc1]
    exact fancy_flatMap fun x hx => hfan d (List.mem_range.1 hd) x hx
  refine ⟨_, l, b, ?_, hl, hbd, hfan'⟩
  unfold closureDofs
  rw [mapRes_ok _ hpart, Res.bind_ok, ← List.flatMap_def, show c1.dimension + 1 = dim by omega]
  refine if_neg fun h0 => ?_
  rw [h0] at hfan'
  have hb0 : b = [] := by cases hfan'; rfl
  rw [hb0] at hblen
  have hz := hblen.symm
  rw [List.length_nil, Finset.sum_eq_zero_iff] at hz
  obtain ⟨d, hd, hp⟩ := hsome
  rcases Nat.mul_eq_zero.1 (hz d (Finset.mem_range.2 hd)) with h4 | h4
  · exact hne d hd (List.length_eq_zero_iff.1 h4)
  · exact hp h4

section
variable {K : Type} [Field K]

/-- What the form computes with: the functions of the cell beside the facet. -/
def traceFacet (f : Facet K) (phi : List (Nat → Nat → Nat → K)) : Facet K :=
  { f with phi := fun i a => (phi.getD a fun _ _ _ => 0) 0 i 0 }

/-- C93: with as many functions as the facet has, the form is the penalty for the values prescribed, with the
functions of the cell beside the facet (C72). -/
theorem C93_system_partial (f : Facet K) (comps : Nat) (t : Table K) (dofs : List Nat) (pD : Nat → Nat → K)
    (hlen : dofs.length = f.nPhi) (hlt : ∀ b ∈ dofs, b < t.phi.length) (hpts : f.nPts ≠ 0) :
    ∃ phi, List.Forall₂ (fun b g => t.phi[b]? = some g) dofs phi ∧
      primalDirichlet f comps t dofs pD = dirichlet (traceFacet f phi) comps pD ∧
      ∀ r j, primalDirichlet f comps t dofs pD = .ok (r, j) → ∀ v : Nat → K,
        (∀ i < f.nPts, ∀ c < comps, facetField (traceFacet f phi) comps v i c = pD i c) →
        ∀ p < f.nPhi * comps, ∑ q ∈ Finset.range (f.nPhi * comps), j.val p q * v q + r.val p = 0 := by
  obtain ⟨phi, hphi⟩ := fancy_ok hlt
  have hall := fancy_iff.1 hphi
  have hlp : phi.length = f.nPhi := by rw [← hlen, hall.length_eq]
  refine ⟨phi, hall, ?_⟩
  have heq : primalDirichlet f comps t dofs pD = dirichlet (traceFacet f phi) comps pD := by
    unfold primalDirichlet dirichlet
    rw [if_neg hpts, hphi, Res.bind_ok]
    unfold spread
    rw [if_pos hlp]
    rfl
  refine ⟨heq, fun r j h v hv p hp => ?_⟩
  rw [heq] at h
  exact C72_dirichlet_exact h v hv p hp

/-- C93: other numbers of functions are refused, unless there is a single one. -/
theorem C93_rejects (f : Facet K) (comps : Nat) (t : Table K) (dofs : List Nat) (pD : Nat → Nat → K)
    (hlen : dofs.length ≠ f.nPhi) (h1 : dofs.length ≠ 1) (hlt : ∀ b ∈ dofs, b < t.phi.length)
    (hpts : f.nPts ≠ 0) : primalDirichlet f comps t dofs pD = .error .valueError := by
  obtain ⟨phi, hphi⟩ := fancy_ok hlt
  have hl := (fancy_iff.1 hphi).length_eq
  unfold primalDirichlet
  rw [if_neg hpts, hphi, Res.bind_ok]
  have : spread f.nPhi phi = .error .valueError := by
    unfold spread
    rw [if_neg (by rw [← hl]; exact hlen)]
    split
    · exact absurd hl h1
    · rfl
  rw [this]
  rfl

variable [LinearOrder K]

/-- C93: whenever an element is found beside the facet, the form is the one for the functions of that element
that belong to the facet and its entities, all of them taken at the points of the cell that coincide in space with
the points given on the facet. -/
theorem C93_form_partial [IsStrictOrderedRing K] (search : Space → Cell → Nat → Res Element)
    (qr : ∀ d, Matrix (Fin 3) (Fin d) K → Matrix (Fin 3) (Fin d) K × Matrix (Fin d) (Fin d) K)
    (pts : Points K) (kind : Kind K) (s : Space) {iel : Nat} {bc el : Element}
    (hbc : s.bcElements[iel]? = some bc) (hel : search s bc.cell 0 = .ok el)
    (hf : FacetOf el.cell bc.cell) (hpts : ∀ t ∈ el.cell.nodeTags, t < pts.length)
    (points : List (List K)) (hp : RefPoints bc.cell.dimension points) (hne : points ≠ [])
    (hqr : ∀ P, fancy pts el.cell.nodeTags = .ok P → Mapping.IsQR (Mapping.jacobian el.cell.dimension P)
      (qr el.cell.dimension (Mapping.jacobian el.cell.dimension P)))
    (hjac : ∀ P, fancy pts el.cell.nodeTags = .ok P →
      ((Mapping.jacobian el.cell.dimension P).transpose * Mapping.jacobian el.cell.dimension P).det ≠ 0)
    (f : Facet K) (pD : Nat → Nat → K) (hn : f.nPts ≠ 0) :
    ∃ mapped xs P, ∃ geo : Geo K el.cell.dimension, evaluateX pts bc.cell points = .ok xs ∧
      evaluateX pts el.cell mapped = .ok xs ∧ fancy pts el.cell.nodeTags = .ok P ∧
      geo.jac = Mapping.jacobian el.cell.dimension P ∧ FitsDet geo ∧ FitsInv geo ∧
      ∀ t dofs, evaluateBasis s.mesh.cells el.cell el.bcEntities kind.data kind.vector kind.map (fun _ => geo)
          (kind.tabulate mapped) = .ok t →
        closureDofs kind.data.entityDofs bc.cell el.cell = .ok dofs → dofs.length = f.nPhi →
        (∀ b ∈ dofs, b < t.phi.length) →
        ∃ phi, List.Forall₂ (fun b g => t.phi[b]? = some g) dofs phi ∧
          evaluate search qr pts kind s iel f points pD = dirichlet (traceFacet f phi) s.nComp pD := by
  obtain ⟨mapped, xs, P, geo, h1, h2, h3, h4, h5, h6, h7, -⟩ := C92_points qr pts s.mesh.cells el.cell bc.cell hf
    hpts points hp hne hqr hjac kind el.bcEntities
  refine ⟨mapped, xs, P, geo, h1, h2, h3, h4, h5, h6, fun t dofs ht hd hlen hlt => ?_⟩
  obtain ⟨phi, h8, h9, -⟩ := C93_system_partial f s.nComp t dofs pD hlen hlt hn
  refine ⟨phi, h8, ?_⟩
  unfold evaluate
  rw [getIdx_of hbc, Res.bind_ok, hel, Res.bind_ok, h7, ht, Res.bind_ok, hd, Res.bind_ok, h9]

/-- C93 violated: on a built space the form raises for every facet of a cell. -/
theorem C93_raises_violated {basix : Basix} {tags bTags : List (Option Int)} {s : Space}
    (gb : GoodBasix basix) (hb : IsBuilt basix tags bTags s)
    (hw : WellFormed s.mesh.cells) {iel j : Nat} {bc : Element} (hbc : s.bcElements[iel]? = some bc)
    (hj : Stored s.mesh.cells j bc.cell)
    (hex : ∃ i, Tagged s.mesh.cells tags s.dimension i ∧
      SubEntity s.mesh.cells i bc.cell.dimension j)
    (qr : ∀ d, Matrix (Fin 3) (Fin d) K → Matrix (Fin 3) (Fin d) K × Matrix (Fin d) (Fin d) K)
    (pts : Points K) (kind : Kind K) (f : Facet K) (points : List (List K)) (pD : Nat → Nat → K) :
    evaluate elementByIndex qr pts kind s iel f points pD = .error .keyError := by
  unfold evaluate
  rw [getIdx_of hbc, Res.bind_ok, (C91_by_index_violated gb hb hw hj hex).1]
  rfl

end

/-- P3 on a triangle: two functions on every edge -/
def cubicDofs : List (List (List Nat)) := [[[0], [1], [2]], [[3, 4], [5, 6], [7, 8]], [[9]]]

theorem cubic_tiled : Tiled [[1, 1, 1], [2, 2, 2], [1]] cubicDofs := by
  intro d l h
  match d, h with
  | 0, h => cases h; exact ⟨_, rfl, by decide⟩
  | 1, h => cases h; exact ⟨_, rfl, by decide⟩
  | 2, h => cases h; exact ⟨_, rfl, by decide⟩
  | _ + 3, h => cases h

/-- C93 violated: of the cubic functions of a triangle three are used on an edge, which has four, and the
form is refused even if the element of the neighbour is found. -/
theorem C93_cubic_violated : ∃ (c0 c1 : Cell), FacetOf c0 c1 ∧ Stored exampleCells 6 c0 ∧
    Stored exampleCells 5 c1 ∧ closureDofs cubicDofs c1 c0 = .ok [1, 0, 7] ∧
    ∀ (K : Type) [Field K] (f : Facet K) (comps : Nat) (t : Table K) (pD : Nat → Nat → K), f.nPhi = 4 →
      f.nPts ≠ 0 → t.phi.length = 10 → primalDirichlet f comps t [1, 0, 7] pD = .error .valueError := by
  refine ⟨⟨2, 6, some 1, [0, 1, 2], [[0, 1, 2], [3, 4, 5], [6]]⟩, ⟨1, 5, some 2, [1, 0], [[1, 0], [5]]⟩,
    ⟨rfl, by decide, rfl, _, rfl, by decide, _, rfl, by decide⟩, rfl, rfl, rfl, ?_⟩
  intro K _ f comps t pD h4 hp ht
  refine C93_rejects f comps t _ pD (by rw [h4]; decide) (by decide) ?_ hp
  rw [ht]
  decide

/-! ### The hypotheses are satisfiable -/

/-- P2 on a triangle: on the edge with id 5 the functions of its two ends and its own -/
example : ∃ D, buildSpaceDofs ⟨2, exampleCells⟩ 2 [some 1] [[1, 1, 1], [1, 1, 1], [0]] 2 10 = .ok D ∧
    closureDofs [[[0], [1], [2]], [[3], [4], [5]], [[]]] ⟨1, 5, some 2, [1, 0], [[1, 0], [5]]⟩
      ⟨2, 6, some 1, [0, 1, 2], [[0, 1, 2], [3, 4, 5], [6]]⟩ = .ok [1, 0, 5] ∧
    D.bcDestinationIndices 6 5 = .ok [12, 13, 10, 11, 20, 21] ∧
    (∀ d < 2, perEntity [[1, 1, 1], [1, 1, 1], [0]] 1 d ≤ 1) ∧
    (∃ d < 2, perEntity [[1, 1, 1], [1, 1, 1], [0]] 2 d ≠ 0) ∧
    Tagged exampleCells [some 1] 2 6 ∧ SubEntity exampleCells 6 (2 - 1) 5 ∧
    (∀ d < 2, subIdsOf exampleCells 5 d ≠ []) ∧ SubClosed exampleCells := by
  refine ⟨_, rfl, rfl, rfl, by decide, ⟨0, by decide, by decide⟩, ⟨_, rfl, rfl, by decide⟩,
    ⟨_, rfl, _, rfl, by decide⟩, by decide, exampleCells_wf.2.1⟩

/-- P1 on an interval, at its second end, where the value is 3: the second unknown is 3. -/
example : ∃ (f : Facet ℚ) (t : Table ℚ), f.nPts ≠ 0 ∧ ([1] : List Nat).length = f.nPhi ∧
    (∀ b ∈ [1], b < t.phi.length) ∧
    ∃ r j, primalDirichlet f 1 t [1] (fun _ _ => 3) = .ok (r, j) ∧ r.val 0 = -3 * 10 ^ 12 ∧
      j.val 0 0 = 10 ^ 12 := by
  let f : Facet ℚ := ⟨0, 1, 1, fun _ => 1, fun _ => 1, fun _ _ => 1⟩
  let t : Table ℚ := ⟨1, 1, 1, [fun _ _ _ => 0, fun _ _ _ => 1]⟩
  obtain ⟨phi, h1, h2, -⟩ := C93_system_partial f 1 t [1] (fun _ _ => 3) rfl (by decide) (by decide)
  obtain ⟨r, j, h3, h4, h5, h6, h7⟩ := C72_dirichlet (traceFacet f phi) 1 (fun _ _ => 3)
  have hphi : phi = [fun _ _ _ => 1] := by
    cases h1 with
    | cons ha hb =>
      cases hb
      cases ha
      rfl
  have hn : r.n = 1 := h4
  have hm : j.n = 1 := h5
  refine ⟨f, t, by decide, rfl, by decide, r, j, h2.trans h3, ?_, ?_⟩
  · rw [h6 0 (by omega), hphi]
    simp [traceFacet, f, penalty]
    norm_num
  · rw [h7 0 (by omega) 0 (by omega), hphi]
    simp [traceFacet, f, penalty, facetMass]

/-- P1 on a triangle: on the edge with id 5 the functions of its two ends, out of the three of the cell; the
other hypotheses of `C93_form_partial` are the ones of `C92_points`. -/
example : FacetOf ⟨2, 6, some 1, [0, 1, 2], [[0, 1, 2], [3, 4, 5], [6]]⟩ ⟨1, 5, some 2, [1, 0], [[1, 0], [5]]⟩ ∧
    closureDofs linearData.entityDofs ⟨1, 5, some 2, [1, 0], [[1, 0], [5]]⟩
      ⟨2, 6, some 1, [0, 1, 2], [[0, 1, 2], [3, 4, 5], [6]]⟩ = .ok [1, 0] ∧
    ∀ (geo : Geo ℚ 2) (p q r : Nat → Nat → Nat → ℚ), ∃ t,
      evaluateBasis exampleCells ⟨2, 6, some 1, [0, 1, 2], [[0, 1, 2], [3, 4, 5], [6]]⟩ [] linearData false
        .identity (fun _ => geo) ⟨3, 2, 1, [p, q, r]⟩ = .ok t ∧ ∀ b ∈ [1, 0], b < t.phi.length :=
  ⟨⟨rfl, by decide, rfl, _, rfl, by decide, _, rfl, by decide⟩, rfl, fun _ _ _ _ => ⟨_, rfl, by simp⟩⟩

#print axioms C93_numbers_partial
#print axioms C93_system_partial
#print axioms C93_form_partial
#print axioms C93_rejects
#print axioms C93_raises_violated
#print axioms C93_cubic_violated

end Verif.PrimalBoundary
