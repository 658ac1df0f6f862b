/-
Property theorem C27: trace points (src/basis/parametric_transformation.py) and the geometry
mapping (src/geometry/mapping.py), in exact arithmetic.
-/
import Verif.Lemmas.Trace
import Verif.Props.Mesh
import Verif.Lemmas.MeshWF
import Mathlib.Algebra.Order.Ring.Rat
import Mathlib.Tactic.NormNum

namespace Verif.Trace
open MeshBuild MeshGraph

variable {K : Type} [CommRing K]

/-- C27: for a facet of a cell the points of the facet's reference cell are accepted, and the
physical points of their images in the cell are the physical points in the facet, whatever the
order of the nodes. -/
theorem C27_same_points (pts : Points K) (facet neigh : Cell) (points : List (List K))
    (h : FacetOf neigh facet) (hpts : ∀ t ∈ neigh.nodeTags, t < pts.length)
    (hp : RefPoints facet.dimension points) :
    ∃ mapped xs, transformLowerToHigher points facet neigh = .ok mapped ∧
      mapped.length = points.length ∧
      evaluateX pts facet points = .ok xs ∧ evaluateX pts neigh mapped = .ok xs := by
  obtain ⟨ids, hids, hmem, x, hx, hperm⟩ := h.listed
  have hd := h.dim
  have hle := h.dimLe
  have hn := h.nodes
  obtain ⟨fc, hfc, hfx⟩ := refFacets_faces (by omega) (by omega) hx
  have hlen : facet.nodeTags.length = facet.dimension + 1 := by
    rw [hperm.length_eq, ← hfx.length_eq]
    have hm := List.mem_of_getElem? hfc
    have : facet.dimension ≤ 2 := by omega
    generalize facet.dimension = d at hm this
    interval_cases d <;> simp [refFacets] at hm
    · rcases hm with rfl | rfl <;> rfl
    · rcases hm with rfl | rfl | rfl <;> rfl
    · rcases hm with rfl | rfl | rfl | rfl <;> rfl
  obtain ⟨pos, hpos, hpl⟩ := facetPositions_ok hfc hfx hperm (by omega)
  have hft : ∀ t ∈ facet.nodeTags, t < pts.length := by
    intro t ht
    obtain ⟨p, -, hpt⟩ := forall₂_right hpl ht
    exact hpts t (List.mem_of_getElem? hpt)
  obtain ⟨fp, hfp⟩ := fancy_total hft
  obtain ⟨np, hnp⟩ := fancy_total hpts
  have hcomp := lookup_comp hpl hnp hfp
  have hnpl : np.length = facet.dimension + 2 := by rw [← hnp.length_eq]; omega
  have hfpl : fp.length = facet.dimension + 1 := by rw [← hfp.length_eq]; exact hlen
  have htr : ∀ f : List (List K) → List Nat → List K → Res (List K),
      (transformLowerToHigher points facet neigh =
        mapRes (f (refVertices (facet.dimension + 1)) pos) points) →
      (∀ p ∈ points, ∃ m, f (refVertices (facet.dimension + 1)) pos p = .ok m ∧
        m.length = facet.dimension + 1 ∧
        combine (linearShapes m) np =
          if facet.dimension = 0 then fp.headD 0 else combine (linearShapes p) fp) →
      ∃ mapped xs, transformLowerToHigher points facet neigh = .ok mapped ∧
        mapped.length = points.length ∧
        evaluateX pts facet points = .ok xs ∧ evaluateX pts neigh mapped = .ok xs := by
    intro f hf hall
    have : ∃ mapped, List.Forall₂ (fun p m => f (refVertices (facet.dimension + 1)) pos p = .ok m ∧
        m.length = facet.dimension + 1 ∧ combine (linearShapes m) np =
          if facet.dimension = 0 then fp.headD 0 else combine (linearShapes p) fp)
        points mapped := by
      clear hf hp
      induction points with
      | nil => exact ⟨[], .nil⟩
      | cons p l ih =>
        obtain ⟨m, hm⟩ := hall p (by simp)
        obtain ⟨ms, hms⟩ := ih (fun p hp => hall p (by simp [hp]))
        exact ⟨m :: ms, .cons hm hms⟩
    obtain ⟨mapped, hmapped⟩ := this
    have hneigh : evaluateX pts neigh mapped
        = .ok (mapped.map fun m => combine (linearShapes m) np) := by
      unfold evaluateX
      rw [if_neg (by omega), if_neg (by omega), if_neg, fancy_iff.2 hnp]
      · simp only [Res.bind_ok]
        rw [if_neg (by omega)]
        rfl
      · intro hany
        rw [List.any_eq_true] at hany
        obtain ⟨m, hm, hl⟩ := hany
        obtain ⟨p, -, hpm⟩ := forall₂_right hmapped hm
        have := hpm.2.1
        simp only [decide_eq_true_eq] at hl
        omega
    have hmap : (mapped.map fun m => combine (linearShapes m) np) = points.map fun p =>
        if facet.dimension = 0 then fp.headD 0 else combine (linearShapes p) fp := by
      clear hf hp hall hneigh
      induction hmapped with
      | nil => rfl
      | cons h1 _ ih => simp only [List.map_cons, h1.2.2, ih]
    refine ⟨mapped, _, ?_, hmapped.length_eq.symm, ?_, hneigh⟩
    · rw [hf]
      exact mapRes_of_forall₂ (hmapped.imp fun _ _ h => h.1)
    · rw [hmap]
      unfold evaluateX
      by_cases h0 : facet.dimension = 0
      · rw [if_pos h0, fancy_iff.2 hfp, hp.1 h0]
        obtain ⟨a, rfl⟩ := List.length_eq_one_iff.1 (by rw [hfpl, h0])
        simp [h0]
      · rw [if_neg h0, if_neg (by omega), if_neg, fancy_iff.2 hfp]
        · simp only [Res.bind_ok]
          rw [if_neg (by omega)]
          simp [h0]
        · intro hany
          rw [List.any_eq_true] at hany
          obtain ⟨p, hpm, hl⟩ := hany
          have := hp.2 h0 p hpm
          simp only [decide_eq_true_eq] at hl
          omega
  have hstart : ∀ (g : Nat → Res (List (List K))),
      (Cell.subIds neigh facet.dimension >>= fun ids => indexOf ids facet.id >>= g)
        = g (ids.idxOf facet.id) := by
    intro g
    simp [Cell.subIds, getIdx_of hids, indexOf, hmem]
  have hdle : facet.dimension ≤ 2 := by omega
  unfold transformLowerToHigher at htr
  rw [hstart] at htr
  unfold transformLowerToHigher
  rw [hstart]
  have hpll := hcomp.length_eq
  rcases (by omega : facet.dimension = 0 ∨ facet.dimension = 1 ∨ facet.dimension = 2)
    with h0 | h0 | h0
  · simp only [h0, if_true] at htr hpos ⊢
    rw [hpos, Res.bind_ok] at htr ⊢
    apply htr mapR0 rfl
    intro p hpp
    have hp1 := hp.1 h0
    subst hp1
    have : p = [1] := by simpa using hpp
    subst this
    rw [h0] at hfpl hnpl
    obtain ⟨q0, rfl⟩ := List.length_eq_one_iff.1 hfpl
    obtain ⟨p0, rfl⟩ := List.length_eq_one_iff.1 (by rw [hpll]; rfl)
    exact combine_R0 hnpl (by simpa using hcomp)
  · simp only [h0, if_true, one_ne_zero, if_false] at htr hpos ⊢
    rw [hpos, Res.bind_ok] at htr ⊢
    apply htr mapR1 rfl
    intro p hpp
    obtain ⟨xi, rfl⟩ := List.length_eq_one_iff.1 ((hp.2 (by omega) p hpp).trans h0)
    rw [h0] at hfpl hnpl
    obtain ⟨q0, q1, rfl⟩ := List.length_eq_two.1 hfpl
    obtain ⟨p0, p1, rfl⟩ := List.length_eq_two.1 (by rw [hpll]; rfl)
    simp only [List.forall₂_cons, List.forall₂_nil_right_iff, and_true] at hcomp
    exact combine_R1 hnpl hcomp.1 hcomp.2 xi
  · simp only [h0, if_true, OfNat.ofNat_ne_zero, OfNat.ofNat_ne_one, if_false] at htr hpos ⊢
    rw [hpos, Res.bind_ok] at htr ⊢
    apply htr mapR2 rfl
    intro p hpp
    obtain ⟨xi, eta, rfl⟩ := List.length_eq_two.1 ((hp.2 (by omega) p hpp).trans h0)
    rw [h0] at hfpl hnpl
    obtain ⟨q0, q1, q2, rfl⟩ := List.length_eq_three.1 hfpl
    obtain ⟨p0, p1, p2, rfl⟩ := List.length_eq_three.1 (by rw [hpll]; rfl)
    simp only [List.forall₂_cons, List.forall₂_nil_right_iff, and_true] at hcomp
    exact combine_R2 hnpl hcomp.1 hcomp.2.1 hcomp.2.2 xi eta

/-- C27: in a built mesh the cells listed by a cell one dimension below it are facets in the above
sense, so that `C27_same_points` applies to them. -/
theorem C27_built_facets (f : MeshFile) (cells : Cells) (h : buildConformalMesh f = .ok cells)
    (i j : Nat) (neigh facet : Cell) (hi : Stored cells i neigh) (hj : Stored cells j facet)
    (hd : neigh.dimension = facet.dimension + 1) (ids : List Nat)
    (hids : neigh.sub[facet.dimension]? = some ids) (hmem : j ∈ ids) : FacetOf neigh facet := by
  obtain ⟨hn, -, hsub⟩ := C02_sub_entities f cells h i neigh hi
  have hpos := (C01_ids_are_positions f cells h).2
  have hfid : facet.id = j := (hpos j facet hj).1
  obtain ⟨ids', hids', hf⟩ := hsub facet.dimension (by omega)
  rw [hids] at hids'
  obtain rfl : ids = ids' := by simpa using hids'
  refine ⟨hd, (hpos i neigh hi).2.1, hn, ids, hids, by rw [hfid]; exact hmem, ?_⟩
  rw [hfid]
  have hlt := List.idxOf_lt_length_of_mem hmem
  have hlt' : ids.idxOf j < (faces facet.dimension neigh.nodeTags).length := by
    rw [← hf.length_eq]; exact hlt
  have := hf.get hlt hlt'
  simp only [List.get_eq_getElem, List.getElem_idxOf] at this
  obtain ⟨s, hs, -, hp⟩ := this
  refine ⟨_, List.getElem?_eq_getElem hlt', ?_⟩
  have hsf := hs.symm.trans hj
  obtain rfl : s = facet := by simpa using hsf
  exact hp

/-- C27: what is not listed is not mapped, and a listed cell on other nodes is rejected. -/
theorem C27_rejects (facet neigh : Cell) (points : List (List K)) (ids : List Nat)
    (hids : neigh.sub[facet.dimension]? = some ids) :
    (facet.id ∉ ids → transformLowerToHigher points facet neigh = .error .valueError) ∧
    (facet.id ∈ ids → 1 ≤ facet.dimension → facet.dimension ≤ 2 →
      neigh.nodeTags.length = facet.dimension + 2 →
      ∀ x, (faces facet.dimension neigh.nodeTags)[ids.idxOf facet.id]? = some x →
        ¬ facet.nodeTags.Perm x →
        transformLowerToHigher points facet neigh = .error .assertionError) := by
  unfold transformLowerToHigher
  constructor
  · intro h
    simp [Cell.subIds, getIdx_of hids, indexOf, h]
  · intro hmem h1 h2 hl x hx hnp
    obtain ⟨fc, hfc, hfx⟩ := refFacets_faces h2 hl hx
    have hpos : facetPositions facet.dimension (ids.idxOf facet.id) facet.nodeTags neigh.nodeTags
        = .error .assertionError := by
      unfold facetPositions
      rw [getIdx_of hfc, Res.bind_ok, fancy_iff.2 hfx, Res.bind_ok,
        if_neg (fun e : facet.nodeTags = x => hnp (e ▸ List.Perm.refl _))]
      have hd0 : ¬ facet.dimension = 0 := by omega
      rw [if_neg (by rw [npSort_eq_iff, if_neg hd0]; exact hnp)]
    simp only [Cell.subIds, getIdx_of hids, Res.bind_ok, indexOf, hmem, if_true]
    rcases (by omega : facet.dimension = 1 ∨ facet.dimension = 2) with h0 | h0 <;>
      rw [h0] at hpos <;> simp [h0, hpos]

/-- A reversed edge of a triangle: the traces agree. -/
example :
    let tri : Cell := ⟨2, 9, none, [4, 0, 2], [[4, 0, 2], [6, 7, 8], [9]]⟩
    let edge : Cell := ⟨1, 7, none, [2, 4], [[2, 4], [7]]⟩
    FacetOf tri edge ∧ RefPoints edge.dimension [[(1/4 : ℚ)], [1/2]] ∧
    transformLowerToHigher [[(1/4 : ℚ)], [1/2]] edge tri = .ok [[0, 3/4], [0, 1/2]] := by
  refine ⟨⟨rfl, by decide, rfl, _, rfl, by decide, _, rfl, by decide⟩, ⟨by decide, ?_⟩, ?_⟩
  · simp
  · simp [transformLowerToHigher, Cell.subIds, getIdx, indexOf, facetPositions, refFacets, fancy,
      mapRes, mapR1, refVertices, scale, addL, Dict.ofList, Dict.set, Dict.getItem, Dict.get?,
      npSort, List.idxOf, List.findIdx, List.findIdx.go]
    norm_num

#print axioms C27_same_points
#print axioms C27_built_facets
#print axioms C27_rejects

end Verif.Trace
