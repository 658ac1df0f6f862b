/-
Helper lemmas on boxes with lines: the whole function.
-/
import Verif.Lemmas.LinesBoxKept
import Verif.Props.IntersectEdges

namespace Verif.LinesBox
open MeshBuild MeshGraph Trace MeshMetrics Geometry VertexOps Topology
open MdBox (asEdg asVtx vertexShape close corners IsBox)
open scoped Classical

theorem orient_total {ps : List Edg} (h : ps ≠ []) : ∃ signs, Shape.orientEdges close (ps.map partShape) = .ok signs := by
  obtain ⟨e, es, rfl⟩ := List.exists_cons_of_ne_nil h
  have hu : ((e :: es).map partShape) =
      ((e :: es).map fun e => (⟨e.tag, e.physical, [e.first, e.second]⟩ : DomainOps.UEdge)).map MdBox.edgeShape := by
    rw [List.map_map]
    rfl
  have tot : ∀ seed : Vtx, ∃ signs, Shape.orientFrom close (vertexShape seed) ((e :: es).map partShape) = .ok signs := by
    intro seed
    rw [hu]
    refine MdBox.orientFrom_ok _ _ fun u hm => ?_
    obtain ⟨q, -, rfl⟩ := List.mem_map.1 hm
    exact ⟨_, _, rfl⟩
  have hs : Shape.seedVertex ((e :: es).map partShape) =
      .ok (if e.first.tag > e.second.tag then vertexShape e.second else vertexShape e.first) := by
    simp only [List.map_cons, Shape.seedVertex, getIdx, List.getElem?_cons_zero, Res.bind_ok, Shape.endPoint, partShape,
      Shape.boundary, List.getElem?_cons_succ]
    split
    · rename_i hgt
      rw [if_pos (by simpa [vertexShape, Shape.tag] using hgt)]
      rfl
    · rename_i hgt
      rw [if_neg (by simpa [vertexShape, Shape.tag] using hgt)]
      rfl
  unfold Shape.orientEdges
  rw [hs, Res.bind_ok]
  split
  · exact tot _
  · exact tot _

theorem pieces_ne_nil {es : List LEdge} (h : es ≠ []) : allPieces es ≠ [] := by
  obtain ⟨e, es, rfl⟩ := List.exists_cons_of_ne_nil h
  unfold allPieces LEdge.pieces
  rw [List.flatMap_cons]
  split
  · simp
  · simp_all

theorem refreshWires_domain {area : Option Int} {v : Vtx} {vs : List Vtx} {sides cut : List LEdge} {signs : List Int}
    (h : Shape.orientEdges close ((allPieces sides).map partShape) = .ok signs) :
    refreshWires (domainOf id id area v vs sides cut) = .ok [signs] := by
  rw [domainOf_id]
  unfold refreshWires
  simp only [show ∀ a b c : List (Shape (Pt ℝ)), getIdx [a, b, c] 1 = .ok b from fun _ _ _ => rfl, Res.bind_ok]
  have hE : ∀ es : List LEdge, (es.map edgeShape).filter (fun s => s.composite) = [] := fun es => by
    rw [List.filter_eq_nil_iff]
    intro s hs
    obtain ⟨e, -, rfl⟩ := List.mem_map.1 hs
    simp [edgeShape, Shape.composite, Kind.composite]
  have hP : ∀ es : List Edg, (es.map partShape).filter (fun s => s.composite) = [] := fun es => by
    rw [List.filter_eq_nil_iff]
    intro s hs
    obtain ⟨e, -, rfl⟩ := List.mem_map.1 hs
    simp [partShape, Shape.composite, Kind.composite]
  have hw : [wireOf id id v sides].filter (fun s => s.composite) = [wireOf id id v sides] := rfl
  rw [List.filter_append, List.filter_append, List.filter_append, hE, hE, hP, hw, List.append_nil, List.append_nil,
    List.nil_append]
  have : (wireOf id id v sides).view.immersed = (allPieces sides).map partShape := by
    rw [wireOf_id, view_wire]
    rfl
  simp only [mapRes, this, h, Res.bind_ok]
  rfl

theorem buildGraph_domain {f g : Int → Int} {area : Option Int} {v : Vtx} {vs : List Vtx} {sides cut : List LEdge} :
    (domainOf f g area v vs sides cut).buildGraph 2 =
      .ok (DiGraph.ofEdges (gatherEdges 2 (faceOf f g area v sides cut).view)) := by
  unfold Domain.buildGraph domainOf
  simp only [show ∀ a b c : List (Shape (Pt ℝ)), getIdx [a, b, c] 2 = .ok c from fun _ _ _ => rfl, Res.bind_ok,
    List.map_singleton, List.flatMap_singleton]
  rfl

theorem filter_vertices (q : Int → Prop) [DecidablePred q] : ∀ vs : List Vtx,
    (vs.map vertexShape).filter (fun s => decide (q s.tag)) = (vs.filter fun v => decide (q v.tag)).map vertexShape := by
  intro vs
  rw [List.filter_map]
  rfl

section
variable {points : List (Pt ℝ)} {tags : Dict String Int} {p : Int} {lines : List Line}

/-- The whole function -/
theorem build_spec {argsort : List ℝ → List Nat} (hs : Fracture.IsArgsort argsort) {argsortTag : List Int → List Nat}
    (ha : IsArgsort argsortTag) (h2 : 2 ≤ points.length) {physicalTags : Option (Dict String Int)}
    (ht : tags = physicalTags.getD defaultTags2) (hp : IsMaxTag points.length tags p)
    {rock : List Edg} (hB : IsBox points tags rock)
    (hD : Drawing (axesOf 2) (drawn rock (lineEdges points.length p lines))) :
    ∃ out sides cut f g r, intersectEdges argsort (drawn rock (lineEdges points.length p lines)) 2
        (points.length + 1 + lines.length) (points.length + 2 * lines.length) (p + lines.length) = .ok out ∧
      IsFragments (fun i => {z | CutAt (drawn rock (lineEdges points.length p lines)) i z})
        (drawn rock (lineEdges points.length p lines)) (points.length + 1 + lines.length)
        (points.length + 2 * lines.length) (p + lines.length) out ∧
      buildBoxWithLines argsort argsortTag points lines physicalTags = .ok r ∧
      IsBuilt points tags rock (lineEdges points.length p lines) out sides cut f g r := by
  obtain ⟨rock', v, hB', hv, hrun⟩ := run_until (argsort := argsort) (lines := lines) ha h2 ht hp
  rw [MdBox.isBox_unique hB' hB] at hrun
  set ls := lineEdges points.length p lines with hls
  obtain ⟨out, hout, F⟩ := C100_cut_partial hs hD (points.length + 1 + lines.length)
    (points.length + 2 * lines.length) (p + lines.length)
  obtain ⟨sides, cut, hi, hl, hc⟩ := fragments_split F
  have hm : cut.length = lines.length := by rw [hc, lineEdges_length]
  have hn := hB.length
  have hv0 : v.tag = 0 := by simpa using corners_tag hv
  have hkn : ((keptVertices points rock ls out.vertices).map Vtx.tag).Nodup :=
    (allVertices_nodup F).sublist (List.Sublist.map _ List.filter_sublist)
  obtain ⟨f, g, hnum, hret⟩ := numbering_spec (n := points.length) (kept := keptVertices points rock ls out.vertices)
    (sides := sides) (cut := cut) (area := tags.get? "area") (v := v) hkn (by omega)
    (fun k e h => side_tag hB F hi hl h) (fun k e h => cut_tag hB F hi hl hc h)
    (fun k e h => by rw [parts_tag F hi h, hm])
  have hne : sides ≠ [] := by
    intro h0
    rw [h0] at hl
    simp at hl
    omega
  obtain ⟨signs, hsg⟩ := orient_total (pieces_ne_nil hne)
  refine ⟨out, sides, cut, f, g, ⟨domainOf f g (tags.get? "area") v (keptVertices points rock ls out.vertices) sides cut,
    [signs], _⟩, hout, F, ?_, hi, ⟨by omega, by omega⟩, hnum, ⟨v, hv, rfl⟩, ⟨signs, rfl, hsg⟩, buildGraph_domain⟩
  rw [hrun out hout ⟨_, F⟩ sides cut hi hl hc]
  simp only [refreshWires_domain hsg, Res.bind_ok, buildGraph_domain]
  have hrem : removeVertex (domainOf id id (tags.get? "area") v (allVertices points ls out.vertices) sides cut)
      (DiGraph.ofEdges (gatherEdges 2 (faceOf id id (tags.get? "area") v sides cut).view)) =
      .ok (domainOf id id (tags.get? "area") v (keptVertices points rock ls out.vertices) sides cut) := by
    have hview : (faceOf id id (tags.get? "area") v sides cut).view = .composed .face 0 (tags.get? "area")
        [.composed .wire sides.length none [vertexShape v, vertexShape v] ((allPieces sides).map partShape)]
          (cut.map edgeShape) := by
      unfold faceOf
      simp only [edgeShape_id, wireOf_id]
      exact view_face _ _ _ _ _
    rw [hview, domainOf_id, domainOf_id]
    unfold removeVertex
    simp only [show ∀ a b c : List (Shape (Pt ℝ)), getIdx [a, b, c] 0 = .ok a from fun _ _ _ => rfl, Res.bind_ok,
      List.set_cons_zero]
    rw [filter_vertices (fun t => (((2 : Nat) : Int), t) ∈ (DiGraph.ofEdges (gatherEdges 2 (.composed .face 0
      (tags.get? "area") [.composed .wire sides.length none [vertexShape v, vertexShape v]
        ((allPieces sides).map partShape)] (cut.map edgeShape)))).nodes)]
    have hf : (allVertices points ls out.vertices).filter (fun w => decide ((((2 : Nat) : Int), w.tag) ∈
        (DiGraph.ofEdges (gatherEdges 2 (.composed .face 0 (tags.get? "area") [.composed .wire sides.length none
          [vertexShape v, vertexShape v] ((allPieces sides).map partShape)] (cut.map edgeShape)))).nodes)) =
        keptVertices points rock ls out.vertices := by
      unfold keptVertices
      refine List.filter_congr fun w hw => ?_
      rw [decide_eq_decide]
      exact (node_iff _ _ _ _ _).trans (node_kept hB hD F hi hl hv0 hw)
    rw [hf]
    rfl
  rw [hrem, Res.bind_ok, hret, buildGraph_domain, Res.bind_ok]
  rfl

end
end Verif.LinesBox
