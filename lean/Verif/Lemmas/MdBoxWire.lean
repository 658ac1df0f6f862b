/-
Helper lemmas for C96: walks along edges, and their orientation.
-/
import Verif.Lemmas.MdBoxSplit

namespace Verif.MdBox
open MeshBuild MeshGraph Trace MeshMetrics Geometry VertexOps DomainOps Topology Shape
open scoped Classical

/-- A walk along edges through vertices. -/
inductive Walk : List (Shape (Pt ℝ)) → List (Shape (Pt ℝ)) → Prop
  | nil (v : Vtx) : Walk [] [vertexShape v]
  | cons {e : Shape (Pt ℝ)} {v w : Vtx} {es vs : List (Shape (Pt ℝ))}
      (he : e.boundary = [vertexShape v, vertexShape w] ∨
        e.boundary = [vertexShape w, vertexShape v]) (hne : v.tag ≠ w.tag)
      (h : Walk es (vertexShape w :: vs)) : Walk (e :: es) (vertexShape v :: vertexShape w :: vs)

theorem Walk.chain {es vs : List (Shape (Pt ℝ))} (h : Walk es vs) :
    Topology.IsChain es vs ∧ StepsDiffer vs := by
  induction h with
  | nil v => exact ⟨isChain_nil rfl, stepsDiffer_one _⟩
  | cons he hne _ ih => exact ⟨isChain_cons he rfl ih.1, stepsDiffer_cons hne ih.2⟩

theorem Walk.append {es es' vs vs' : List (Shape (Pt ℝ))} {m : Shape (Pt ℝ)}
    (h : Walk es (vs ++ [m])) (h' : Walk es' (m :: vs')) : Walk (es ++ es') (vs ++ m :: vs') := by
  generalize hz : vs ++ [m] = zs at h
  induction h generalizing vs with
  | nil v =>
    have : vs = [] := by
      have := congrArg List.length hz
      simpa using this
    subst this
    exact h'
  | @cons e v w es ws he hne h ih =>
    cases vs with
    | nil => simp at hz
    | cons a vs =>
      rw [List.cons_append, List.cons.injEq] at hz
      obtain ⟨rfl, hz⟩ := hz
      have := ih hz
      cases vs with
      | nil =>
        simp only [List.nil_append, List.cons.injEq] at hz
        obtain ⟨rfl, hz⟩ := hz
        exact .cons he hne this
      | cons b vs =>
        rw [List.cons_append, List.cons.injEq] at hz
        obtain ⟨rfl, hz⟩ := hz
        exact .cons he hne this

/-- Edges that join consecutive vertices. -/
theorem walk_of : ∀ (es : List (Shape (Pt ℝ))) (zs : List Vtx), es.length + 1 = zs.length →
    (∀ (i : Nat) e, es[i]? = some e → ∃ v w, zs[i]? = some v ∧ zs[i + 1]? = some w ∧
      v.tag ≠ w.tag ∧ (e.boundary = [vertexShape v, vertexShape w] ∨
        e.boundary = [vertexShape w, vertexShape v])) → Walk es (zs.map vertexShape)
  | [], [v], _, _ => .nil v
  | [], [], h, _ => by simp at h
  | [], _ :: _ :: _, h, _ => by simp at h
  | e :: es, [], h, _ => by simp at h
  | e :: es, [v], h, _ => by simp at h
  | e :: es, v :: w :: zs, h, hj => by
    obtain ⟨v', w', h1, h2, h3, h4⟩ := hj 0 e rfl
    simp only [List.getElem?_cons_zero, Nat.zero_add, List.getElem?_cons_succ,
      Option.some.injEq] at h1 h2
    subst h1 h2
    refine .cons h4 h3 (walk_of es (w :: zs) (by simpa using h) fun i e' he => ?_)
    obtain ⟨a, b, h1, h2, h3⟩ := hj (i + 1) e' (by simpa using he)
    exact ⟨a, b, by simpa using h1, by simpa using h2, h3⟩

theorem eq_vertex (v w : Vtx) : Shape.eq close (vertexShape v) (vertexShape w) =
    .ok (v.tag == w.tag && close v.point w.point) := by
  simp [vertexShape, Shape.eq]

theorem close_self (x : Pt ℝ) : close x x = true := by
  have h : DefaultClose x x := by
    intro k
    simp only [IsClose, sub_self, abs_zero]
    positivity
  exact decide_eq_true h

theorem eq_self (v : Vtx) : Shape.eq close (vertexShape v) (vertexShape v) = .ok true := by
  simp [eq_vertex, close_self]

theorem eq_other {v w : Vtx} (h : v.tag ≠ w.tag) :
    Shape.eq close (vertexShape v) (vertexShape w) = .ok false := by
  simp [eq_vertex, h]

/-- How often the tag is that of the vertex. -/
def at_ (t : Int) (v : Shape (Pt ℝ)) : Int := if v.tag = t then 1 else 0

theorem flow_cons {t : Int} {e v w : Shape (Pt ℝ)} {es : List (Shape (Pt ℝ))} {s : Int}
    {ss : List Int} (h : e.boundary = [v, w]) :
    flow t (e :: es) (s :: ss) = s * (at_ t w - at_ t v) + flow t es ss := by
  simp only [flow, h, at_]

theorem flow_append {t : Int} : ∀ {es es' : List (Shape (Pt ℝ))} {ss ss' : List Int},
    ss.length = es.length → flow t (es ++ es') (ss ++ ss') = flow t es ss + flow t es' ss'
  | [], es', [], ss', _ => by simp [flow]
  | [], _, _ :: _, _, h => by simp at h
  | _ :: _, _, [], _, h => by simp at h
  | e :: es, es', s :: ss, ss', h => by
    simp only [List.cons_append, flow]
    rw [flow_append (by simpa using h), add_assoc]

/-- The orientation follows a walk. -/
theorem Walk.orient {es vs : List (Shape (Pt ℝ))} (h : Walk es vs) {v m : Shape (Pt ℝ)}
    (hv : vs.head? = some v) (hm : vs.getLast? = some m) :
    ∃ signs, signs.length = es.length ∧ (∀ es', orientFrom close v (es ++ es') =
      (do let os ← orientFrom close m es'; pure (signs ++ os))) ∧
      ∀ t, flow t es signs = at_ t m - at_ t v := by
  induction h generalizing v with
  | nil a =>
    simp only [List.head?_cons, List.getLast?_singleton, Option.some.injEq] at hv hm
    subst hv hm
    refine ⟨[], rfl, fun es' => ?_, fun t => by simp [flow]⟩
    simp only [List.nil_append]
    cases orientFrom close (vertexShape a) es' <;> rfl
  | @cons e a b es ws he hne h ih =>
    simp only [List.head?_cons, Option.some.injEq] at hv
    subst hv
    rw [List.getLast?_cons_cons] at hm
    obtain ⟨signs, h1, h2, h3⟩ := ih rfl hm
    rcases he with he | he
    · refine ⟨1 :: signs, by simp [h1], fun es' => ?_, fun t => ?_⟩
      · have e0 : endPoint e 0 = .ok (vertexShape a) := by simp [endPoint, he, getIdx]
        have e1 : endPoint e 1 = .ok (vertexShape b) := by simp [endPoint, he, getIdx]
        simp only [List.cons_append, orientFrom, e0, e1, eq_self, Res.bind_ok, if_true, h2]
        cases orientFrom close m es' <;> rfl
      · rw [flow_cons he, h3]
        ring
    · refine ⟨-1 :: signs, by simp [h1], fun es' => ?_, fun t => ?_⟩
      · have e0 : endPoint e 0 = .ok (vertexShape b) := by simp [endPoint, he, getIdx]
        simp only [List.cons_append, orientFrom, e0, eq_other hne, Res.bind_ok, h2]
        cases orientFrom close m es' <;> rfl
      · rw [flow_cons he, h3]
        ring

/-- Edges that do not touch a vertex: nothing arrives there, and the seed is elsewhere after
them. -/
theorem orient_avoid {t : Int} : ∀ (es : List (Shape (Pt ℝ))) (seed : Vtx),
    (∀ e ∈ es, ∃ v w : Vtx, e.boundary = [vertexShape v, vertexShape w] ∧ v.tag ≠ t ∧ w.tag ≠ t) →
    ∃ signs next, signs.length = es.length ∧ (∀ es', orientFrom close (vertexShape seed) (es ++ es') =
      (do let os ← orientFrom close (vertexShape next) es'; pure (signs ++ os))) ∧
      flow t es signs = 0 ∧ (es ≠ [] ∨ seed.tag ≠ t → next.tag ≠ t)
  | [], seed, _ => by
    refine ⟨[], seed, rfl, fun es' => ?_, rfl, by simp⟩
    simp only [List.nil_append]
    cases orientFrom close (vertexShape seed) es' <;> rfl
  | e :: es, seed, h => by
    obtain ⟨v, w, he, hv, hw⟩ := h e (by simp)
    have e0 : endPoint e 0 = .ok (vertexShape v) := by simp [endPoint, he, getIdx]
    have e1 : endPoint e 1 = .ok (vertexShape w) := by simp [endPoint, he, getIdx]
    have key : ∀ (next : Vtx) (s : Int), next.tag ≠ t →
        (∀ es', orientFrom close (vertexShape seed) (e :: es') =
          (do let os ← orientFrom close (vertexShape next) es'; pure (s :: os))) →
        ∃ signs next, signs.length = (e :: es).length ∧
          (∀ es', orientFrom close (vertexShape seed) ((e :: es) ++ es') =
            (do let os ← orientFrom close (vertexShape next) es'; pure (signs ++ os))) ∧
          flow t (e :: es) signs = 0 ∧ (e :: es ≠ [] ∨ seed.tag ≠ t → next.tag ≠ t) := by
      intro next s hn ho
      obtain ⟨signs, next', h1, h2, h3, h4⟩ := orient_avoid (t := t) es next fun e' he' =>
        h e' (by simp [he'])
      refine ⟨s :: signs, next', by simp [h1], fun es' => ?_, ?_, fun _ => h4 (Or.inr hn)⟩
      · rw [List.cons_append, ho, h2]
        cases orientFrom close (vertexShape next') es' <;> rfl
      · rw [flow_cons he, h3]
        simp [at_, vertexShape, Shape.tag, hv, hw]
    by_cases hs : Shape.eq close (vertexShape seed) (vertexShape v) = .ok true
    · refine key w 1 hw fun es' => ?_
      simp only [orientFrom, e0, e1, hs, Res.bind_ok, if_true]
    · have hs' : Shape.eq close (vertexShape seed) (vertexShape v) = .ok false := by
        rw [eq_vertex] at hs ⊢
        cases hb : (seed.tag == v.tag && close seed.point v.point)
        · rfl
        · rw [hb] at hs; exact absurd rfl hs
      refine key v (-1) hv fun es' => ?_
      simp only [orientFrom, e0, hs', Res.bind_ok]
      rfl

/-- The parts of an edge, as a walk. -/
theorem parts_walk {edges : List Edg} {tools : List Vtx} (ht : OneTag (Old edges tools)) {e : Edg}
    (he : e ∈ edges) {chain : List (Pt ℝ)} {us : List UEdge} (hp : IsParts tools e chain us) :
    Walk (us.map edgeShape) ((chain.map (finalAt tools e)).map vertexShape) := by
  refine walk_of _ _ (by simpa using hp.length) fun i s hs => ?_
  rw [List.getElem?_map, Option.map_eq_some_iff] at hs
  obtain ⟨u, hu, rfl⟩ := hs
  obtain ⟨-, -, x, y, hx, hy, hb⟩ := hp.part i u hu
  refine ⟨finalAt tools e x, finalAt tools e y, by simp [hx], by simp [hy], fun h => ?_, ?_⟩
  · have old : ∀ z, Old edges tools (finalAt tools e z) := by
      intro z
      rcases finalAt_mem (tools := tools) (e := e) z with h | h | h
      · exact Or.inl h
      · exact Or.inr ⟨e, he, Or.inl h⟩
      · exact Or.inr ⟨e, he, Or.inr h⟩
    have h := congrArg Vtx.point (ht _ _ (old x) (old y) h)
    rw [finalAt_point hp.isChain (List.mem_of_getElem? hx),
      finalAt_point hp.isChain (List.mem_of_getElem? hy)] at h
    subst h
    have := chain_index hp.isChain hx hy
    omega
  · rcases hb with hb | hb
    · exact Or.inl (by simp [edgeShape, Shape.boundary, hb])
    · exact Or.inr (by simp [edgeShape, Shape.boundary, hb])

/-- The sides but the last, as a walk from the first corner on. -/
theorem sides_walk {points : List (Pt ℝ)} {tags : Dict String Int} {rock edges : List Edg}
    {tools : List Vtx} (hb : IsBox points tags rock) (ht : OneTag (Old edges tools))
    (hsub : ∀ e ∈ rock, e ∈ edges) (hne : ∀ e ∈ rock, e.first.point ≠ e.second.point)
    {blocks : List (List UEdge)}
    (hp : List.Forall₂ (fun e us => ∃ chain, IsParts tools e chain us) rock blocks)
    {c : Vtx} (hc : (corners points)[0]? = some c) :
    ∀ k, k + 1 ≤ points.length → ∃ (zs : List Vtx) (c' : Vtx), (corners points)[k]? = some c' ∧
      Walk ((blocks.take k).flatten.map edgeShape) (zs.map vertexShape) ∧
      zs.head? = some (final tools c) ∧ zs.getLast? = some (final tools c') ∧
      ∀ v, v ∈ zs ↔ v = final tools c ∨ ∃ i e x, i < k ∧ rock[i]? = some e ∧
        IsStop tools e x ∧ v = finalAt tools e x := by
  intro k
  induction k with
  | zero =>
    intro _
    refine ⟨[final tools c], c, hc, .nil _, rfl, rfl, fun v => ?_⟩
    simp
  | succ k ih =>
    intro hk
    obtain ⟨zs, c1, h1, h2, h3, h4, h5⟩ := ih (by omega)
    have hl := hp.length_eq
    have hkr : k < rock.length := by rw [hb.length]; omega
    obtain ⟨e, he⟩ : ∃ e, rock[k]? = some e := ⟨_, List.getElem?_eq_getElem hkr⟩
    obtain ⟨b, hbk⟩ : ∃ b, blocks[k]? = some b := ⟨_, List.getElem?_eq_getElem (hl ▸ hkr)⟩
    obtain ⟨chain, hch⟩ : ∃ chain, IsParts tools e chain b := by
      have := hp.get hkr (hl ▸ hkr)
      simp only [List.get_eq_getElem] at this
      rw [List.getElem?_eq_getElem hkr, Option.some.injEq] at he
      rw [List.getElem?_eq_getElem (hl ▸ hkr), Option.some.injEq] at hbk
      rw [he, hbk] at this
      exact this
    obtain ⟨-, -, v, w, hv, hw, hvw⟩ := hb.side k e he
    rw [if_neg (by omega)] at hw hvw
    rw [h1, Option.some.injEq] at hv
    subst hv
    have her : e ∈ rock := List.mem_of_getElem? he
    have hwalk := parts_walk ht (hsub e her) hch
    obtain ⟨rest, hrest⟩ : ∃ rest, chain = e.first.point :: rest := by
      have := hch.isChain.first
      cases chain with
      | nil => simp at this
      | cons a l => exact ⟨l, by simpa using this⟩
    obtain ⟨front, hfront⟩ : ∃ front, zs = front ++ [final tools c1] := by
      obtain ⟨front, h⟩ := List.getLast?_eq_some_iff.1 h4
      exact ⟨front, h⟩
    have hfin : finalAt tools e e.first.point = final tools c1 := by
      rw [finalAt_first, hvw.1]
    have hlast : (chain.map (finalAt tools e)).getLast? = some (final tools w) := by
      rw [List.getLast?_map, hch.isChain.last, Option.map_some, finalAt_second tools (hne e her),
        hvw.2]
    refine ⟨front ++ chain.map (finalAt tools e), w, hw, ?_, ?_, ?_, fun v => ?_⟩
    · rw [List.take_add_one, hbk, Option.toList_some, List.flatten_append, List.flatten_singleton,
        List.map_append, List.map_append]
      rw [hfront, List.map_append] at h2
      rw [hrest, List.map_cons, List.map_cons, hfin] at hwalk ⊢
      exact h2.append hwalk
    · rw [hfront] at h3
      rw [hrest, List.map_cons, hfin]
      cases front with
      | nil => simpa using h3
      | cons a l => simpa using h3
    · rw [List.getLast?_append, hlast]
      rfl
    · have hin : v ∈ front ++ chain.map (finalAt tools e) ↔
          v ∈ zs ∨ v ∈ chain.map (finalAt tools e) := by
        rw [hfront, hrest, List.map_cons, hfin]
        simp only [List.mem_append, List.mem_cons, List.not_mem_nil, or_false]
        tauto
      rw [hin, h5, List.mem_map]
      constructor
      · rintro ((h | ⟨i, e', x, hi, h⟩) | ⟨x, hx, rfl⟩)
        · exact Or.inl h
        · exact Or.inr ⟨i, e', x, by omega, h⟩
        · exact Or.inr ⟨k, e, x, by omega, he, (hch.isChain.mem x).1 hx, rfl⟩
      · rintro (h | ⟨i, e', x, hi, h, hx, rfl⟩)
        · exact Or.inl (Or.inl h)
        · by_cases hik : i < k
          · exact Or.inl (Or.inr ⟨i, e', x, hik, h, hx, rfl⟩)
          · obtain rfl : i = k := by omega
            rw [he, Option.some.injEq] at h
            subst h
            exact Or.inr ⟨x, (hch.isChain.mem x).2 hx, rfl⟩

/-- A wire of edges that can be oriented. -/
theorem mkWire_edges {E : Env} (ha : IsArgsort E.argsortTag) {us : List UEdge} {v : Vtx} {t : Int}
    {signs : List Int} (ho : orientEdges close (us.map edgeShape) = .ok signs) :
    mkWire close E.argsortTag t (us.map edgeShape) [vertexShape v] =
      .ok (.composed .wire t none [vertexShape v] (us.map edgeShape)) := by
  have hview : ∀ s ∈ us.map edgeShape, s.view = s := by
    intro s hs
    obtain ⟨u, -, rfl⟩ := List.mem_map.1 hs
    refine view_other (by simp) (fun s hs => ?_) (by simp)
    obtain ⟨w, -, rfl⟩ := List.mem_map.1 hs
    rfl
  have himm : ∀ s ∈ us.map edgeShape, s.immersed = [] := by
    intro s hs
    obtain ⟨u, -, rfl⟩ := List.mem_map.1 hs
    rfl
  have h1 : setImmersed .wire (us.map edgeShape) = .ok (us.map edgeShape) := by
    unfold setImmersed
    rw [if_pos]
    · rfl
    · refine List.all_eq_true.2 fun s hs => ?_
      obtain ⟨u, -, rfl⟩ := List.mem_map.1 hs
      rfl
  have h3 : (composed .wire t none [vertexShape v] (us.map edgeShape)).view =
      composed .wire t none [vertexShape v] (us.map edgeShape) := by
    refine view_wire (fun s hs => ?_) hview himm
    rw [List.mem_singleton.1 hs]
    rfl
  unfold mkWire mkComposite
  rw [h1, setBoundary_one ha (by simp [vertexShape, Shape.dimension, Kind.admissible])]
  simp only [bind, Except.bind, pure, Except.pure, h3]
  rw [show (composed .wire t none [vertexShape v] (us.map edgeShape)).immersed = us.map edgeShape
    from rfl, ho]

end Verif.MdBox
