/- Lemmas on the domains of the degenerate examples. -/
import Verif.Spec.ExampleDomain
import Verif.Lemmas.DomainMarket

namespace Verif.Topology
open Shape MeshGraph
variable {P : Type} {argsort : List Int → List Nat} {close : P → P → Bool}

/-- The edge between two vertices, the one with the smaller tag first -/
def segment (t : Int) (p : Option Int) (v w : Shape P) : Shape P := .composed .edge t p [v, w] []

theorem joined_up {t : Int} {p : Option Int} {v w : Shape P} (h : v.tag < w.tag) :
    joined t p v w = segment t p v w := by rw [joined, if_pos h]; rfl

theorem joined_down {t : Int} {p : Option Int} {v w : Shape P} (h : w.tag < v.tag) :
    joined t p v w = segment t p w v := by rw [joined, if_neg (by omega)]; rfl

theorem lineEdges_ok (ha : IsArgsort argsort) {tags : Dict String Int} {vs : List (Shape P)}
    {f : Nat → Shape P} {m : Nat} (hv : ∀ i < m, vs[i]? = some (f i))
    (hd : ∀ i < m, (f i).dimension = 0) (ht : ∀ i < m, (f i).tag = (i : Int)) :
    ∀ (is : List Nat) (es : List (Shape P)), (∀ i ∈ is, i + 1 < m) →
      lineEdges argsort tags ⟨1, [vs, es]⟩ is =
        .ok ⟨1, [vs, es ++ is.map fun i : Nat => segment (i : Int) (tags.get? (lineLabel i)) (f i) (f (i + 1))]⟩
  | [], es, _ => by simp [lineEdges, pure, Except.pure]
  | i :: is, es, h => by
    have hi := h i (by simp)
    have hlt : (f i).tag < (f (i + 1)).tag := by
      rw [ht i (by omega), ht (i + 1) hi]; push_cast; omega
    rw [lineEdges, Domain.pick]
    simp only [show getIdx [vs, es] 0 = .ok vs from rfl, bind, Except.bind,
      pick_pair (hv i (by omega)) (hv (i + 1) hi),
      mkSimple_edge ha (hd i (by omega)) (hd (i + 1) hi) hlt.ne, joined_up hlt]
    rw [append_one (k := 1) (old := es) rfl rfl]
    show lineEdges argsort tags ⟨1, [vs, es ++ [segment (i : Int) (tags.get? (lineLabel i)) (f i)
      (f (i + 1))]]⟩ is = _
    rw [lineEdges_ok ha hv hd ht is _ (fun j hj => h j (by simp [hj]))]
    simp

theorem surfaceEdges_cons (ha : IsArgsort argsort) {skip : List Nat} {vs es fs : List (Shape P)}
    {tag i j : Nat} {physical : Int} {cons : List (List Nat)} {v w : Shape P}
    {rest : List (Shape P)} (hv : vs[i]? = some v) (hw : vs[j]? = some w)
    (dv : v.dimension = 0) (dw : w.dimension = 0) (hne : v.tag ≠ w.tag)
    (hr : surfaceEdges argsort skip ⟨2, [vs, es, fs]⟩ (tag + 1)
      (if tag ∈ skip then physical else physical + 1) cons = .ok rest) :
    surfaceEdges argsort skip ⟨2, [vs, es, fs]⟩ tag physical ([i, j] :: cons) =
      .ok (joined tag (if tag ∈ skip then none else some physical) v w :: rest) := by
  rw [surfaceEdges, Domain.pick]
  simp only [show getIdx [vs, es, fs] 0 = .ok vs from rfl, bind, Except.bind,
    pick_pair hv hw, mkSimple_edge ha dv dw hne]
  by_cases h : tag ∈ skip
  · simp only [if_pos h] at hr ⊢
    rw [if_neg (not_not.2 h), hr]; rfl
  · simp only [if_neg h] at hr ⊢
    rw [if_pos h, hr]; rfl

theorem surfaceEdges_short (ha : IsArgsort argsort) {skip : List Nat} {points : List P}
    {es fs : List (Shape P)} :
    ∀ {cons : List (List Nat)} {tag : Nat} {physical : Int}, (∀ con ∈ cons, isPair con = true) →
    (∃ con ∈ cons, ∃ i ∈ con, points.length ≤ i) →
    surfaceEdges argsort skip ⟨2, [newVertices points, es, fs]⟩ tag physical cons
      = .error .indexError
  | [], _, _, _, h => by obtain ⟨_, h, -⟩ := h; simp at h
  | con :: cons, tag, physical, hp, h => by
    have hcon := hp con (by simp)
    match con, hcon with
    | [i, j], hij =>
    have hne : i ≠ j := by simpa [isPair] using hij
    by_cases hs : points.length ≤ i ∨ points.length ≤ j
    · rw [surfaceEdges, Domain.pick]
      simp only [show getIdx [newVertices points, es, fs] 0 = .ok (newVertices points) from rfl,
        bind, Except.bind, pick_short (newVertices_length points ▸ hs)]
    · rw [not_or] at hs
      have hi : (newVertices points)[i]? = some (.vertex i none (points[i]'(by omega))) := by
        rw [newVertices_getElem?, List.getElem?_eq_getElem (by omega)]; rfl
      have hj : (newVertices points)[j]? = some (.vertex j none (points[j]'(by omega))) := by
        rw [newVertices_getElem?, List.getElem?_eq_getElem (by omega)]; rfl
      have hr : ∀ q : Int, surfaceEdges argsort skip ⟨2, [newVertices points, es, fs]⟩ (tag + 1) q
          cons = .error .indexError := fun q =>
        surfaceEdges_short ha (fun c hc => hp c (List.mem_cons_of_mem _ hc)) (by
          obtain ⟨c, hc, k, hk, hl⟩ := h
          rcases List.mem_cons.1 hc with rfl | hc
          · simp only [List.mem_cons, List.not_mem_nil, or_false] at hk
            omega
          · exact ⟨c, hc, k, hk, hl⟩)
      rw [surfaceEdges, Domain.pick]
      simp only [show getIdx [newVertices points, es, fs] 0 = .ok (newVertices points) from rfl,
        bind, Except.bind, pick_pair hi hj,
        mkSimple_edge ha (v := .vertex i none (points[i]'(by omega)))
          (w := .vertex j none (points[j]'(by omega))) rfl rfl
          (by simp only [Shape.tag]; omega), hr]
      split <;> rfl

theorem view_segment {t : Int} {p : Option Int} {v w : Shape P} (hv : v.dimension = 0)
    (hw : w.dimension = 0) : (segment t p v w).view = segment t p v w := by
  obtain ⟨_, _, _, rfl⟩ := vertex_cases hv
  obtain ⟨_, _, _, rfl⟩ := vertex_cases hw
  simp [segment, view, viewAll]

/-- An edge made of two vertices in the given order -/
def IsSegment (e : Shape P) : Prop :=
  ∃ t p v w, e = segment t p v w ∧ v.dimension = 0 ∧ w.dimension = 0

theorem view_loop {t : Int} {v : Shape P} {edges : List (Shape P)} (hv : v.dimension = 0)
    (h : ∀ e ∈ edges, IsSegment e) :
    (composed .wire t none [v, v] edges).view = composed .wire t none [v, v] edges := by
  obtain ⟨_, _, _, rfl⟩ := vertex_cases hv
  refine view_wire ?_ ?_ ?_
  · intro s hs'
    simp only [List.mem_cons, List.not_mem_nil, or_false, or_self] at hs'
    subst hs'; rfl
  · intro s hs'
    obtain ⟨_, _, a, b, rfl, q1, q2⟩ := h s hs'
    exact view_segment q1 q2
  · intro s hs'
    obtain ⟨_, _, a, b, rfl, q1, q2⟩ := h s hs'
    rfl

theorem appendRegion_ok (ha : IsArgsort argsort) {vs es fs edges sides : List (Shape P)}
    {positions : List Nat} {start : Nat} {wireTag faceTag : Int} {physical : Option Int}
    {v : Shape P} {signs : List Int} (hv : vs[start]? = some v) (hd : v.dimension = 0)
    (hp : pick edges positions = .ok sides) (hs : ∀ e ∈ sides, IsSegment e)
    (ho : orientEdges close sides = .ok signs) :
    appendRegion close argsort edges positions start wireTag faceTag physical ⟨2, [vs, es, fs]⟩ =
      .ok ⟨2, [vs, es ++ [.composed .wire wireTag none [v, v] sides],
        fs ++ [.composed .face faceTag physical [.composed .wire wireTag none [v, v] sides] []]]⟩ := by
  have h1 : setImmersed .wire sides = .ok sides := by
    unfold setImmersed
    rw [if_pos]
    · rfl
    · refine List.all_eq_true.2 fun s h => ?_
      obtain ⟨_, _, a, b, rfl, -, -⟩ := hs s h
      rfl
  have hw : mkWire close argsort wireTag sides [v, v]
      = .ok (.composed .wire wireTag none [v, v] sides) := by
    unfold mkWire mkComposite
    rw [h1, setBoundary_twice ha (by simp [hd, Kind.admissible])]
    simp only [bind, Except.bind, pure, Except.pure, view_loop hd hs]
    rw [show (composed .wire wireTag none [v, v] sides).immersed = sides from rfl, ho]
  rw [appendRegion, Domain.pick]
  simp only [show getIdx [vs, es, fs] 0 = .ok vs from rfl, bind, Except.bind, pick_pair hv hv, hp,
    hw]
  rw [append_one (k := 1) (old := es) rfl rfl]
  simp only [List.set_cons_succ, List.set_cons_zero]
  rw [mkSimple, setBoundary_one ha (by simp [Kind.admissible, Shape.dimension, Kind.dimension])]
  simp only [bind, Except.bind, pure, Except.pure]
  rw [append_one (k := 2) (old := fs) rfl rfl]
  rfl

end Verif.Topology
