/-
Property theorems C68 and C69: difference and union of one-dimensional domains
(src/topology/operations/domain_operations.py), over the real numbers.
-/
import Verif.Lemmas.DomainUnion
import Verif.Props.VertexOps

namespace Verif.DomainOps
open MeshBuild MeshGraph Trace MeshMetrics Geometry VertexOps
open scoped Classical

/-! ### C68 -/

/-- C68.  With a start tag above all tags in use, the difference is a domain made of the untouched
edges and of the parts of the others, edge by edge; no tag occurs twice, the vertices are the
ends of the edges, and the new tags are from the start tag on. -/
theorem C68_difference {P : Params} {tools : List Vtx} {edges : List Edg} {tag : Int} {eps : ℝ}
    (hc : ∀ e ∈ edges, Clear P tools e eps) (hn : (edges.map Edg.tag).Nodup)
    (he : ∀ e ∈ edges, e.tag < tag) (hv : ∀ v, Old edges tools v → v.tag < tag)
    (hone : OneTag (Old edges tools)) :
    ∃ d out, domainDifference P edges tools tag eps = .ok d ∧
      List.Forall₂ (IsResult tools) edges out ∧ d.edges = out.flatMap parts ∧ IsClosed d ∧
      (out.flatMap newTags).Nodup ∧ ∀ t ∈ out.flatMap newTags, tag ≤ t := by
  obtain ⟨out, h1, h2, h3, h4⟩ := C46_tags edges tag hc
  have hne : ∀ e ∈ edges, e.first.point ≠ e.second.point := fun e h => (hc e h).ne
  obtain ⟨p1, p2⟩ := parts_tags h2 hne hn he h3 h4
  have hmem : ∀ r ∈ out, ∃ e ∈ edges, IsResult tools e r := by
    intro r hr
    obtain ⟨i, hi, rfl⟩ := List.getElem_of_mem hr
    have hi' : i < edges.length := by rw [h2.length_eq]; exact hi
    exact ⟨edges[i], List.getElem_mem hi', List.Forall₂.get h2 hi' hi⟩
  have hcl : ∀ v ∈ out.flatMap stored, Old edges tools v ∨
      v ∈ out.flatMap fun r => created r.2.2 := by
    intro v hv
    obtain ⟨r, hr, hv⟩ := List.mem_flatMap.1 hv
    obtain ⟨e, he', hres⟩ := hmem r hr
    rcases stored_old_or_created (hne e he') hres hv with k | k
    · rcases k with k | ⟨x, hx, k⟩
      · exact Or.inl (Or.inl k)
      · rw [List.mem_singleton] at hx
        subst hx
        exact Or.inl (Or.inr ⟨x, he', k⟩)
    · exact Or.inr (List.mem_flatMap.2 ⟨r, hr, k⟩)
  have hnewtag : ∀ v ∈ out.flatMap (fun r => created r.2.2), v.tag ∈ out.flatMap newTags := by
    intro v hv
    obtain ⟨r, hr, hv⟩ := List.mem_flatMap.1 hv
    exact List.mem_flatMap.2 ⟨r, hr, List.mem_append_left _ (List.mem_map_of_mem hv)⟩
  have hcreated : ((out.flatMap fun r => created r.2.2).map Vtx.tag).Nodup := by
    rw [List.map_flatMap]
    refine List.Nodup.sublist ?_ h3
    clear hmem hcl hnewtag h3 h4 p1 p2 h1 h2
    induction out with
    | nil => simp
    | cons r out ih =>
      rw [List.flatMap_cons, List.flatMap_cons]
      exact List.Sublist.append (List.sublist_append_left _ _) ih
  have hinj : ∀ a b, a ∈ out.flatMap stored → b ∈ out.flatMap stored → a.tag = b.tag → a = b := by
    intro a b ha hb hab
    rcases hcl a ha with ka | ka <;> rcases hcl b hb with kb | kb
    · exact hone a b ka kb hab
    · have := hv a ka
      have := h4 _ (hnewtag b kb)
      omega
    · have := hv b kb
      have := h4 _ (hnewtag a ka)
      omega
    · exact List.inj_on_of_nodup_map hcreated ka kb hab
  refine ⟨⟨Dict.values (store Vtx.tag [] (out.flatMap stored)), out.flatMap parts⟩, out, ?_, h2, rfl,
    ?_, h3, h4⟩
  · unfold domainDifference
    rw [h1, Res.bind_ok, if_neg (by rw [h2.length_eq]; simp), foldl_diffStep]
    simp only [Res.pure_eq]
    rw [values_store (k := Edg.tag) (keyed_nil _) _ (by simpa [Dict.values] using p1)]
    rfl
  · refine ⟨p1, keyed_values_nodup (keyed_store (keyed_nil _) _), fun v => ?_⟩
    have := mem_store (k := Vtx.tag) (keyed_nil _) (out.flatMap stored) (by
      intro a b ha hb
      exact hinj a b (by simpa [Dict.values] using ha) (by simpa [Dict.values] using hb)) v
    refine this.trans ?_
    simp only [Dict.values, List.map_nil, List.not_mem_nil, false_or]
    constructor
    · intro hv
      obtain ⟨r, hr, hv⟩ := List.mem_flatMap.1 hv
      obtain ⟨e, he', hres⟩ := hmem r hr
      obtain ⟨x, hx, hxe⟩ := (stored_ends (hne e he') hres v).1 hv
      exact ⟨x, List.mem_flatMap.2 ⟨r, hr, hx⟩, hxe⟩
    · rintro ⟨x, hx, hxe⟩
      obtain ⟨r, hr, hx⟩ := List.mem_flatMap.1 hx
      obtain ⟨e, he', hres⟩ := hmem r hr
      exact List.mem_flatMap.2 ⟨r, hr, (stored_ends (hne e he') hres v).2 ⟨x, hx, hxe⟩⟩

/-- C68.  The parts of an edge have its physical tag, cover the same points, and contain no tool
except at their ends. -/
theorem C68_parts {tools : List Vtx} {edge : Edg} {r : Edg × List Edg × List Vtx}
    (hne : edge.first.point ≠ edge.second.point) (h : IsResult tools edge r) :
    (∀ e ∈ parts r, e.physical = edge.physical) ∧
    (∀ x, x ∈ points edge ↔ ∃ e ∈ parts r, x ∈ points e) ∧
    ∀ e ∈ parts r, ∀ v ∈ tools, v.point ∈ points e →
      v.point = e.first.point ∨ v.point = e.second.point := by
  obtain ⟨rfl, ⟨hno, h1, h2⟩ | ⟨-, start, chain, hc, hs⟩⟩ := h
  · have e : parts r = [r.1] := by simp [parts, h1, h2]
    rw [e]
    refine ⟨by simp, by simp, ?_⟩
    intro e he v hv hp
    rw [List.mem_singleton] at he
    subst he
    exact absurd ⟨v, hv, hp⟩ hno
  · have hpos := splitting_pos hc hs hne
    have e1 : parts r = r.2.1 := by simp [parts, Nat.ne_of_gt hpos]
    rw [e1]
    have hseg : ∀ (i : Nat) (e : Edg), r.2.1[i]? = some e → ∃ x y, chain[i]? = some x ∧
        chain[i + 1]? = some y ∧ points e = segment ℝ x y ∧
        (e.first.point = x ∧ e.second.point = y ∨ e.first.point = y ∧ e.second.point = x) := by
      intro i e hi
      obtain ⟨-, v, w, -, -, h3, h4, h5⟩ := hs.joined i e hi
      refine ⟨v.point, w.point, h3, h4, ?_, ?_⟩
      · rcases h5 with ⟨k1, k2⟩ | ⟨k1, k2⟩
        · rw [points, k1, k2]
        · rw [points, k1, k2, segment_symm]
      · rcases h5 with ⟨k1, k2⟩ | ⟨k1, k2⟩
        · exact Or.inl ⟨by rw [k1], by rw [k2]⟩
        · exact Or.inr ⟨by rw [k1], by rw [k2]⟩
    refine ⟨?_, ?_, ?_⟩
    · intro e he
      obtain ⟨i, hi⟩ := List.mem_iff_getElem?.1 he
      exact (hs.joined i e hi).1
    · intro z
      rw [chain_cover hne hc z]
      constructor
      · rintro ⟨i, x, y, hx, hy, hz⟩
        have hlt : i < r.2.1.length := by
          have := (List.getElem?_eq_some_iff.1 hy).1
          have := hs.count
          omega
        have hi := List.getElem?_eq_getElem hlt
        obtain ⟨x', y', hx', hy', hp, -⟩ := hseg i _ hi
        rw [hx] at hx'; rw [hy] at hy'
        cases hx'; cases hy'
        exact ⟨_, List.getElem_mem hlt, by rw [hp]; exact hz⟩
      · rintro ⟨e, he, hz⟩
        obtain ⟨i, hi⟩ := List.mem_iff_getElem?.1 he
        obtain ⟨x, y, hx, hy, hp, -⟩ := hseg i e hi
        exact ⟨i, x, y, hx, hy, by rw [← hp]; exact hz⟩
    · intro e he v hv hp
      obtain ⟨i, hi⟩ := List.mem_iff_getElem?.1 he
      obtain ⟨x, y, hx, hy, hs', hends⟩ := hseg i e hi
      rw [hs'] at hp
      have hon : v.point ∈ points r.1 := (chain_cover hne hc _).2 ⟨i, x, y, hx, hy, hp⟩
      have hmem : v.point ∈ chain := (hc.mem _).2 (Or.inr (Or.inr ⟨v, ⟨hv, hon⟩, rfl⟩))
      rcases chain_between hne hc hx hy hmem hp with k | k <;>
        rcases hends with ⟨a, b⟩ | ⟨a, b⟩
      · exact Or.inl (k.trans a.symm)
      · exact Or.inr (k.trans b.symm)
      · exact Or.inr (k.trans b.symm)
      · exact Or.inl (k.trans a.symm)

/-- C68.  The difference covers the same points as the edges, and no tool is inside of one of its
edges. -/
theorem C68_points {P : Params} {tools : List Vtx} {edges : List Edg} {tag : Int} {eps : ℝ} {d : Dom}
    (hc : ∀ e ∈ edges, Clear P tools e eps) (hn : (edges.map Edg.tag).Nodup)
    (he : ∀ e ∈ edges, e.tag < tag) (hv : ∀ v, Old edges tools v → v.tag < tag)
    (hone : OneTag (Old edges tools)) (h : domainDifference P edges tools tag eps = .ok d) :
    (∀ x, (∃ e ∈ edges, x ∈ points e) ↔ ∃ e ∈ d.edges, x ∈ points e) ∧
    ∀ e ∈ d.edges, ∀ v ∈ tools, v.point ∈ points e →
      v.point = e.first.point ∨ v.point = e.second.point := by
  obtain ⟨d', out, h1, h2, h3, -⟩ := C68_difference hc hn he hv hone
  rw [h] at h1
  cases h1
  have hne : ∀ e ∈ edges, e.first.point ≠ e.second.point := fun e h => (hc e h).ne
  have hr : ∀ r ∈ out, ∃ e ∈ edges, IsResult tools e r := by
    intro r hr
    obtain ⟨i, hi, rfl⟩ := List.getElem_of_mem hr
    have hi' : i < edges.length := by rw [h2.length_eq]; exact hi
    exact ⟨edges[i], List.getElem_mem hi', List.Forall₂.get h2 hi' hi⟩
  have hl : ∀ e ∈ edges, ∃ r ∈ out, IsResult tools e r := by
    intro r hr
    obtain ⟨i, hi, rfl⟩ := List.getElem_of_mem hr
    have hi' : i < out.length := by rw [← h2.length_eq]; exact hi
    exact ⟨out[i], List.getElem_mem hi', List.Forall₂.get h2 hi hi'⟩
  rw [h3]
  refine ⟨fun x => ⟨?_, ?_⟩, ?_⟩
  · rintro ⟨e, hm, hx⟩
    obtain ⟨r, hro, hres⟩ := hl e hm
    obtain ⟨e', h5, h6⟩ := ((C68_parts (hne e hm) hres).2.1 x).1 hx
    exact ⟨e', List.mem_flatMap.2 ⟨r, hro, h5⟩, h6⟩
  · rintro ⟨e', hm, hx⟩
    obtain ⟨r, hro, h5⟩ := List.mem_flatMap.1 hm
    obtain ⟨e, he', hres⟩ := hr r hro
    exact ⟨e, he', ((C68_parts (hne e he') hres).2.1 x).2 ⟨e', h5, hx⟩⟩
  · intro e' hm
    obtain ⟨r, hro, h5⟩ := List.mem_flatMap.1 hm
    obtain ⟨e, he', hres⟩ := hr r hro
    exact (C68_parts (hne e he') hres).2.2 e' h5

/-- One tool inside the edge of the example. -/
def exTool : Vtx := ⟨11, none, ![1, 0, 0]⟩

noncomputable def exParams1 (argsort : List ℝ → List Nat) : Params :=
  ⟨fun _ => [0], argsort, 1 / 10 ^ 10, 1 / 10 ^ 10⟩

theorem ex_on : exTool.point ∈ points exEdge := by
  refine mem_segment_iff.2 ⟨1 / 4, by norm_num, by norm_num, ?_⟩
  refine pt_ext ?_ ?_ ?_ <;> simp [exTool, exEdge]

theorem ex_clear1 {argsort : List ℝ → List Nat} (hs : Fracture.IsArgsort argsort) :
    ∀ e ∈ [exEdge], Clear (exParams1 argsort) [exTool] e (1 / 10 ^ 10) := by
  intro e he
  rw [List.mem_singleton] at he
  subst he
  refine ⟨?_, by norm_num, by norm_num [exParams1], ⟨?_, ?_, ?_⟩, hs, ?_, ?_, ?_⟩
  · intro h
    have := congrFun h 0
    simp [exEdge] at this
  · simp [exParams1]
  · simp [exParams1]
  · simp [exParams1]
  · intro v hv hoff
    rw [List.mem_singleton] at hv
    subst hv
    exact absurd ex_on hoff
  all_goals
    intro v hv hne
    rw [List.mem_singleton] at hv
    subst hv
    simp only [exEdge, exParams1, DefaultClose, exTool]
    exact ⟨not_close 0 (by norm_num), not_close 0 (by norm_num), not_close 0 (by norm_num)⟩

theorem ex_old {v : Vtx} (h : Old [exEdge] [exTool] v) :
    v = exTool ∨ v = exEdge.first ∨ v = exEdge.second := by
  rcases h with h | ⟨e, he, h⟩
  · exact Or.inl (List.mem_singleton.1 h)
  · rw [List.mem_singleton] at he
    subst he
    exact Or.inr h

theorem ex_one : OneTag (Old [exEdge] [exTool]) := by
  intro v w hv hw h
  rcases ex_old hv with rfl | rfl | rfl <;> rcases ex_old hw with rfl | rfl | rfl <;>
    first | rfl | (exfalso; revert h; simp [exTool, exEdge])

/-- The hypotheses hold for an edge with a tool inside, with the start tag 20, and the tool is on the
edge. -/
example {argsort : List ℝ → List Nat} (hs : Fracture.IsArgsort argsort) :
    (∀ e ∈ [exEdge], Clear (exParams1 argsort) [exTool] e (1 / 10 ^ 10)) ∧
    ([exEdge].map Edg.tag).Nodup ∧ (∀ e ∈ [exEdge], e.tag < 20) ∧
    (∀ v, Old [exEdge] [exTool] v → v.tag < 20) ∧ OneTag (Old [exEdge] [exTool]) ∧
    ∃ v, OnEdge [exTool] exEdge v :=
  ⟨ex_clear1 hs, by simp, by simp [exEdge], fun v hv => by
    rcases ex_old hv with rfl | rfl | rfl <;> simp [exTool, exEdge], ex_one,
    ⟨exTool, by simp, ex_on⟩⟩

/-- A difference of two parts that no longer contain the tool inside. -/
example {argsort : List ℝ → List Nat} (hs : Fracture.IsArgsort argsort) :
    ∃ d, domainDifference (exParams1 argsort) [exEdge] [exTool] 20 (1 / 10 ^ 10) = .ok d ∧
      2 ≤ d.edges.length := by
  have hv : ∀ v, Old [exEdge] [exTool] v → v.tag < 20 := fun v hv => by
    rcases ex_old hv with rfl | rfl | rfl <;> simp [exTool, exEdge]
  obtain ⟨d, out, h1, h2, h3, -⟩ := C68_difference (tag := 20) (ex_clear1 hs) (by simp)
    (by simp [exEdge]) hv ex_one
  refine ⟨d, h1, ?_⟩
  rw [h3]
  cases h2 with
  | @cons _ r _ _ hr h2 =>
    cases h2
    obtain ⟨h1, ⟨hno, -⟩ | ⟨-, start, chain, hc, hsp⟩⟩ := hr
    · exact absurd ⟨exTool, by simp, ex_on⟩ hno
    · have hpos := splitting_pos hc hsp (ex_clear1 hs exEdge (by simp)).ne
      have e1 : parts r = r.2.1 := by simp [parts, Nat.ne_of_gt hpos]
      simp only [List.flatMap_cons, List.flatMap_nil, List.append_nil, e1]
      by_contra hlt
      have h2 : chain.length = 2 := by
        have := hsp.count
        omega
      obtain ⟨x, y, rfl⟩ := List.length_eq_two.1 h2
      have hf := hc.first
      have hl := hc.last
      have ht := (hc.mem exTool.point).2 (Or.inr (Or.inr ⟨exTool, ⟨by simp, ex_on⟩, rfl⟩))
      simp only [List.head?_cons, Option.some.injEq, List.getLast?_cons_cons,
        List.getLast?_singleton] at hf hl
      simp only [List.mem_cons, List.not_mem_nil, or_false, hf, hl] at ht
      rcases ht with ht | ht
      · have := congrFun ht 0
        simp [exTool, exEdge] at this
      · have := congrFun ht 0
        simp [exTool, exEdge] at this

/-! ### C69 -/

/-- C69.  Where vertices can be replaced, the union is the first domain with every vertex near a
vertex of the second domain replaced with that vertex. -/
theorem C69_union {P : Params} {hash : Nat → Int → Int} {c0 c1 : Dom} (hm : Mergeable P c0 c1)
    (h0 : ∀ v w, (v ∈ c0.vertices ∨ v ∈ c1.vertices) → (w ∈ c0.vertices ∨ w ∈ c1.vertices) →
      hash 0 v.tag = hash 0 w.tag → v.tag = w.tag)
    (h1 : ∀ e ∈ c0.edges, ∀ e' ∈ c0.edges, hash 1 e.tag = hash 1 e'.tag → e.tag = e'.tag) :
    ∃ d, domainUnion P hash c0 c1 = .ok d ∧ IsUnion P c0 c1 d := by
  obtain ⟨g, hg1, hg⟩ := union_loop hm
  set M := merge P c1.vertices with hM
  -- all vertices
  set all0 := c1.edges.foldl putEdge (c0.edges.foldl putEdge []) with hall0
  set all1 := c1.vertices.foldl putVertex (c0.vertices.foldl putVertex []) with hall1
  have hget1 : ∀ w, (w ∈ c0.vertices ∨ w ∈ c1.vertices) → Dict.getItem all1 w.tag = .ok w := by
    intro w hw
    have e : all1 = store Vtx.tag [] (c0.vertices ++ c1.vertices) := by
      rw [store_append]; rfl
    have := get_store (k := Vtx.tag) (a := w) (d := []) (c0.vertices ++ c1.vertices)
      (fun b hb h => hm.tag b w (by simpa using hb) hw h) (Or.inr (by simpa using hw))
    rw [e, Dict.getItem, this]
  have hget0 : ∀ e ∈ c0.edges, Dict.getItem all0 e.tag = .ok e := by
    intro e he
    have h : all0 = store Edg.tag [] (c0.edges ++ c1.edges) := by
      rw [store_append]; rfl
    have := get_store (k := Edg.tag) (a := e) (d := []) (c0.edges ++ c1.edges)
      (fun b hb h => by
        rcases List.mem_append.1 hb with hb | hb
        · exact List.inj_on_of_nodup_map hm.closed.edgeTags hb he h
        · exact (hm.edges e he b hb h.symm).symm) (Or.inr (by simp [he]))
    rw [h, Dict.getItem, this]
  have hEnd : ∀ e ∈ c0.edges, ∀ u, Edg.Ends e u → u ∈ c0.vertices := fun e he u hu =>
    (hm.closed.ends u).2 ⟨e, he, hu⟩
  have hMm : ∀ e ∈ c0.edges, ∀ u, Edg.Ends e u → M u ∈ c0.vertices ∨ M u ∈ c1.vertices :=
    fun e he u hu => merge_mem (hEnd e he u hu)
  -- the vertices
  set c1Idx := g.nodes.filter fun i => i.1 = 1 with hc1
  have hidx : ∀ i, i ∈ c1Idx ↔ ∃ e ∈ c0.edges, ∃ u, Edg.Ends e u ∧ i = (1, (M u).tag) := by
    rintro ⟨k, t⟩
    rw [hc1, List.mem_filter]
    simp only [decide_eq_true_eq]
    constructor
    · rintro ⟨h, rfl⟩
      obtain ⟨x, hx⟩ := (hg.one t).1 h
      obtain ⟨e, he, -, u, hu, hy⟩ := (hg.edges _ _).1 hx
      exact ⟨e, he, u, hu, hy⟩
    · rintro ⟨e, he, u, hu, hi⟩
      cases hi
      exact ⟨(hg.one _).2 ⟨_, (hg.edges _ _).2 ⟨e, he, rfl, u, hu, rfl⟩⟩, rfl⟩
  have hvs : ∀ i ∈ c1Idx, ∃ v, Dict.getItem all1 i.2 = .ok v ∧ v.tag = i.2 ∧
      (v ∈ c0.vertices ∨ v ∈ c1.vertices) ∧ ∃ e ∈ c0.edges, ∃ u, Edg.Ends e u ∧ v = M u := by
    intro i hi
    obtain ⟨e, he, u, hu, rfl⟩ := (hidx i).1 hi
    exact ⟨M u, hget1 _ (hMm e he u hu), rfl, hMm e he u hu, e, he, u, hu, rfl⟩
  have : Nonempty Vtx := ⟨⟨0, none, 0⟩⟩
  choose! vf hv1 hv2 hv3 hv4 using hvs
  have hvres := mapRes_ok (f := fun i : Idx => Dict.getItem all1 i.2) c1Idx hv1
  -- the edges
  have hsw : ∀ e ∈ c0.edges, swapBoundary g all0 all1 (0, e.tag) =
      .ok ⟨e.tag, e.physical, sortByTag [M e.first, M e.second]⟩ := by
    intro e he
    have hnode : ((0, e.tag) : Idx) ∈ g.nodes := by
      have : ((0, e.tag) : Idx) ∈ g.nodes.filter fun i => i.1 = 0 := by
        rw [hg.zero]
        exact List.mem_map_of_mem he
      exact (List.mem_filter.1 this).1
    set succ := (g.edges.filter fun x => x.1 = ((0, e.tag) : Idx)).map Prod.snd with hsucc
    have hmem : ∀ y, y ∈ succ ↔ y = (1, (M e.first).tag) ∨ y = (1, (M e.second).tag) := by
      intro y
      rw [hsucc, List.mem_map]
      constructor
      · rintro ⟨⟨a, b⟩, h, rfl⟩
        obtain ⟨h, ha⟩ := List.mem_filter.1 h
        have ha : a = (0, e.tag) := by simpa using ha
        obtain ⟨e', he', hx, u, hu, hy⟩ := (hg.edges _ _).1 h
        rw [ha] at hx
        have : e = e' := List.inj_on_of_nodup_map hm.closed.edgeTags he he' (by simpa using hx)
        subst this
        rcases hu with rfl | rfl
        · exact Or.inl hy
        · exact Or.inr hy
      · rintro (rfl | rfl)
        · exact ⟨_, List.mem_filter.2 ⟨(hg.edges _ _).2 ⟨e, he, rfl, e.first, Or.inl rfl, rfl⟩,
            by simp⟩, rfl⟩
        · exact ⟨_, List.mem_filter.2 ⟨(hg.edges _ _).2 ⟨e, he, rfl, e.second, Or.inr rfl, rfl⟩,
            by simp⟩, rfl⟩
    have hnd : succ.Nodup := by
      rw [hsucc]
      refine List.Nodup.map_on ?_ (hg.edgesNodup.filter _)
      rintro ⟨a, b⟩ ha ⟨a', b'⟩ ha' h
      have h1 : a = (0, e.tag) := by simpa using (List.mem_filter.1 ha).2
      have h2 : a' = (0, e.tag) := by simpa using (List.mem_filter.1 ha').2
      simp only at h
      rw [h1, h2, h]
    have hne := hm.proper e he
    have hperm := perm_pair hnd (a := ((1, (M e.first).tag) : Idx)) (b := (1, (M e.second).tag))
      (by simpa using hne) hmem
    have hbs : ∃ b, mapRes (fun j : Idx => Dict.getItem all1 j.2) succ = .ok b ∧
        b.Perm [M e.first, M e.second] := by
      have hf := hMm e he e.first (Or.inl rfl)
      have hs := hMm e he e.second (Or.inr rfl)
      have key : ∀ j ∈ succ, Dict.getItem all1 j.2 =
          .ok (if j = (1, (M e.first).tag) then M e.first else M e.second) := by
        intro j hj
        rcases (hmem j).1 hj with rfl | rfl
        · rw [if_pos rfl, hget1 _ hf]
        · rw [if_neg (by simpa using fun h => hne h.symm), hget1 _ hs]
      refine ⟨_, mapRes_ok (f := fun j : Idx => Dict.getItem all1 j.2) succ key, ?_⟩
      refine (hperm.map _).trans ?_
      have hne' : ((1, (M e.second).tag) : Idx) ≠ (1, (M e.first).tag) := by
        simpa using fun h => hne h.symm
      simp only [List.map_cons, List.map_nil, if_true, if_neg hne']
      exact List.Perm.refl _
    obtain ⟨b, hb1, hb2⟩ := hbs
    have hsne : succ ≠ [] := by
      intro h
      have := (hmem (1, (M e.first).tag)).2 (Or.inl rfl)
      rw [h] at this
      simp at this
    have hsort : sortByTag b = sortByTag [M e.first, M e.second] := by
      refine sortByTag_eq hb2 ?_
      refine (hb2.map Vtx.tag).nodup_iff.2 ?_
      simpa using hne
    unfold swapBoundary
    simp only [hget0 e he, Res.bind_ok]
    unfold DiGraph.successors
    rw [if_pos hnode, Res.bind_ok, ← hsucc, if_neg hsne, hb1, Res.bind_ok, hsort]
    rfl
  have hes : mapRes (swapBoundary g all0 all1) (g.nodes.filter fun i => i.1 = 0) =
      .ok (c0.edges.map fun e => ⟨e.tag, e.physical, sortByTag [M e.first, M e.second]⟩) := by
    rw [hg.zero, mapRes_iff]
    have : ∀ l : List Edg, (∀ e ∈ l, e ∈ c0.edges) →
        List.Forall₂ (fun a b => swapBoundary g all0 all1 a = .ok b)
          (l.map fun e => ((0, e.tag) : Idx))
          (l.map fun e => (⟨e.tag, e.physical, sortByTag [M e.first, M e.second]⟩ : UEdge)) := by
      intro l
      induction l with
      | nil => intro _; exact .nil
      | cons e l ih =>
        intro hl
        exact .cons (hsw e (hl e (by simp))) (ih fun x hx => hl x (by simp [hx]))
    exact this _ fun e he => he
  -- create_domain
  have hvtags : ((c1Idx.map vf).map Vtx.tag) = c1Idx.map Prod.snd := by
    rw [List.map_map]
    exact List.map_congr_left fun i hi => hv2 i hi
  have hvnd : ((c1Idx.map vf).map Vtx.tag).Nodup := by
    rw [hvtags]
    refine List.Nodup.map_on ?_ (hg.nodesNodup.filter _)
    rintro ⟨a, b⟩ ha ⟨a', b'⟩ ha' h
    have k1 : a = 1 := by simpa using (List.mem_filter.1 ha).2
    have k2 : a' = 1 := by simpa using (List.mem_filter.1 ha').2
    simp only at h
    rw [k1, k2, h]
  have hkv : keepVertices hash (c1Idx.map vf) = c1Idx.map vf := by
    have := values_store (k := fun v : Vtx => hash 0 v.tag) (keyed_nil _) (c1Idx.map vf) (by
      rw [show (Dict.values ([] : Dict Int Vtx)) = [] from rfl, List.nil_append]
      have hn := List.Nodup.of_map _ hvnd
      refine List.Nodup.map_on ?_ hn
      intro x hx y hy h
      obtain ⟨i, hi, rfl⟩ := List.mem_map.1 hx
      obtain ⟨j, hj, rfl⟩ := List.mem_map.1 hy
      exact hm.tag _ _ (hv3 i hi) (hv3 j hj) (h0 _ _ (hv3 i hi) (hv3 j hj) h))
    exact this
  have hke : keepEdges hash
      (c0.edges.map fun e => ⟨e.tag, e.physical, sortByTag [M e.first, M e.second]⟩) =
      c0.edges.map fun e => ⟨e.tag, e.physical, sortByTag [M e.first, M e.second]⟩ := by
    have := values_store (k := fun e : UEdge => hash 1 e.tag) (keyed_nil _)
      (c0.edges.map fun e => ⟨e.tag, e.physical, sortByTag [M e.first, M e.second]⟩) (by
      rw [show (Dict.values ([] : Dict Int UEdge)) = [] from rfl, List.nil_append, List.map_map]
      refine List.Nodup.map_on ?_ (List.Nodup.of_map _ hm.closed.edgeTags)
      intro x hx y hy h
      exact List.inj_on_of_nodup_map hm.closed.edgeTags hx hy (h1 x hx y hy h))
    exact this
  refine ⟨⟨c1Idx.map vf,
    c0.edges.map fun e => ⟨e.tag, e.physical, sortByTag [M e.first, M e.second]⟩⟩, ?_, ?_, hvnd, ?_⟩
  · unfold domainUnion
    simp only [← hall0, ← hall1, hg1, Res.bind_ok]
    rw [← hc1, hvres, Res.bind_ok, hes, Res.bind_ok, hkv, hke]
    rfl
  · rw [List.forall₂_map_right_iff]
    exact List.forall₂_same.2 fun e _ => ⟨rfl, rfl, rfl⟩
  · intro v
    simp only [List.mem_map]
    constructor
    · rintro ⟨i, hi, rfl⟩
      obtain ⟨e, he, u, hu, h⟩ := hv4 i hi
      refine ⟨_, ⟨e, he, rfl⟩, ?_⟩
      rw [h, sortByTag, List.mem_insertionSort]
      rcases hu with rfl | rfl <;> simp
    · rintro ⟨u, ⟨e, he, rfl⟩, hv⟩
      rw [sortByTag, List.mem_insertionSort] at hv
      simp only [List.mem_cons, List.not_mem_nil, or_false] at hv
      have : ∃ w, Edg.Ends e w ∧ v = M w := by
        rcases hv with rfl | rfl
        · exact ⟨_, Or.inl rfl, rfl⟩
        · exact ⟨_, Or.inr rfl, rfl⟩
      obtain ⟨w, hw, rfl⟩ := this
      have hi : ((1, (M w).tag) : Idx) ∈ c1Idx := (hidx _).2 ⟨e, he, w, hw, rfl⟩
      refine ⟨_, hi, ?_⟩
      have := hget1 _ (hMm e he w hw)
      have h2 := hv1 _ hi
      simp only at h2
      rw [this] at h2
      exact (Except.ok.inj h2).symm

/-- C69.  After a difference the vertices can be replaced by the tools; those near a tool are at it. -/
theorem C69_mergeable {P : Params} {tools : List Vtx} {edges : List Edg} {tag : Int} {eps : ℝ}
    {d : Dom} (hc : ∀ e ∈ edges, Clear P tools e eps) (hn : (edges.map Edg.tag).Nodup)
    (he : ∀ e ∈ edges, e.tag < tag) (hv : ∀ v, Old edges tools v → v.tag < tag)
    (hone : OneTag (Old edges tools)) (hs : Separated P edges tools)
    (ht : (tools.map Vtx.tag).Nodup) (h : domainDifference P edges tools tag eps = .ok d) :
    Mergeable P d ⟨tools, []⟩ ∧ ∀ w ∈ d.vertices, ∀ v ∈ tools,
      SameGeometry w v P.incidence ↔ w.point = v.point := by
  obtain ⟨d', out, h1, h2, h3, h4, h5, h6⟩ := C68_difference hc hn he hv hone
  rw [h] at h1
  cases h1
  have hne : ∀ e ∈ edges, e.first.point ≠ e.second.point := fun e h => (hc e h).ne
  have hmem : ∀ r ∈ out, ∃ e ∈ edges, IsResult tools e r := by
    intro r hr
    obtain ⟨i, hi, rfl⟩ := List.getElem_of_mem hr
    have hi' : i < edges.length := by rw [h2.length_eq]; exact hi
    exact ⟨edges[i], List.getElem_mem hi', List.Forall₂.get h2 hi' hi⟩
  have hlift : ∀ e ∈ edges, ∀ v, Old [e] tools v → Old edges tools v := by
    intro e he v hv
    rcases hv with k | ⟨x, hx, k⟩
    · exact Or.inl k
    · rw [List.mem_singleton] at hx
      subst hx
      exact Or.inr ⟨x, he, k⟩
  -- the ends of the edges of the difference
  have hends : ∀ e ∈ d.edges, ∀ w, Edg.Ends e w →
      (Old edges tools w ∧ ((∃ v ∈ tools, v.point = w.point) → w ∈ tools)) ∨
      (∃ r ∈ out, e ∈ parts r ∧ w ∈ created r.2.2 ∧ ∃ u, Old edges tools u ∧ u.point = w.point) := by
    intro e hem w hw
    rw [h3] at hem
    obtain ⟨r, hr, her⟩ := List.mem_flatMap.1 hem
    obtain ⟨x, hx, hres⟩ := hmem r hr
    rcases end_cases (hne x hx) hres her hw with ⟨k1, k2⟩ | ⟨k1, u, k2, k3⟩
    · exact Or.inl ⟨hlift x hx w k1, k2⟩
    · exact Or.inr ⟨r, hr, her, k1, u, hlift x hx u k2, k3⟩
  have hcreated : ∀ r ∈ out, ∀ w ∈ created r.2.2, tag ≤ w.tag := fun r hr w hw =>
    h6 _ (List.mem_flatMap.2 ⟨r, hr, List.mem_append_left _ (List.mem_map_of_mem hw)⟩)
  have hnear : ∀ w ∈ d.vertices, ∀ v ∈ tools, SameGeometry w v P.incidence →
      w.point = v.point := by
    intro w hw v hvt hsg
    obtain ⟨e, hem, hew⟩ := (h4.ends w).1 hw
    rcases hends e hem w hew with ⟨k, -⟩ | ⟨r, -, -, -, u, k, ku⟩
    · exact hs.near w k v hvt hsg
    · rw [← ku]
      refine hs.near u k v hvt ?_
      rw [ku]
      exact hsg
  have hrefl : ∀ w : Vtx, SameGeometry w w P.incidence := by
    intro w k
    simp only [IsClose, sub_self, abs_zero]
    have := hs.incidence
    positivity
  have htag : OneTag fun v => v ∈ d.vertices ∨ v ∈ tools := by
    have key : ∀ v ∈ d.vertices, ∀ w ∈ tools, v.tag = w.tag → v = w := by
      intro v hvd w hw hvw
      obtain ⟨e, hem, hew⟩ := (h4.ends v).1 hvd
      rcases hends e hem v hew with ⟨k, -⟩ | ⟨r, hr, -, k, -⟩
      · exact hone v w k (Or.inl hw) hvw
      · have := hcreated r hr v k
        have := hv w (Or.inl hw)
        omega
    rintro v w (hvd | hvd) (hw | hw) hvw
    · exact List.inj_on_of_nodup_map h4.vertexTags hvd hw hvw
    · exact key v hvd w hw hvw
    · exact (key w hw v hvd hvw.symm).symm
    · exact hone v w (Or.inl hvd) (Or.inl hw) hvw
  have hmp : ∀ w ∈ d.vertices, (merge P tools w).point = w.point := by
    intro w hw
    rcases merge_cases P tools w with ⟨k1, k2⟩ | ⟨k1, -⟩
    · exact (hnear w hw _ k1 k2).symm
    · rw [k1]
  refine ⟨⟨h4, ht, htag, ?_, fun w _ _ => hrefl w, ?_, ?_, by simp⟩, fun w hw v hvt =>
    ⟨hnear w hw v hvt, fun hp => ?_⟩⟩
  · intro w hw v hvt v' hv' k1 k2
    exact hs.one v hvt v' hv' ((hnear w hw v hvt k1).symm.trans (hnear w hw v' hv' k2))
  · intro w hw hmw e hem e' hem' hew hew'
    have hat : (∃ v ∈ tools, v.point = w.point) ∧ w ∉ tools := by
      rcases merge_cases P tools w with ⟨k1, k2⟩ | ⟨k1, -⟩
      · have := hnear w hw _ k1 k2
        exact ⟨⟨_, k1, this.symm⟩, fun hwt => hmw (hs.one _ k1 _ hwt this.symm)⟩
      · exact absurd k1 hmw
    have hcr : ∀ e ∈ d.edges, Edg.Ends e w → ∃ r ∈ out, e ∈ parts r ∧ w ∈ created r.2.2 := by
      intro e hem hew
      rcases hends e hem w hew with ⟨-, k⟩ | ⟨r, hr, k1, k2, -⟩
      · exact absurd (k hat.1) hat.2
      · exact ⟨r, hr, k1, k2⟩
    obtain ⟨r, hr, k1, k2⟩ := hcr e hem hew
    obtain ⟨r', hr', k3, k4⟩ := hcr e' hem' hew'
    have := created_owner h5 hr hr' k2 k4
    subst this
    obtain ⟨x, hx, hres⟩ := hmem r hr
    refine created_once (tag := tag) (hne x hx) hres (fun v k => hv v (hlift x hx v k)) ?_ ?_ k2 k1 k3
      hew hew'
    · exact (List.nodup_flatMap.1 h5).1 r hr
    · exact fun t k => h6 t (List.mem_flatMap.2 ⟨r, hr, k⟩)
  · intro e hem htg
    have hm : ∀ u, Edg.Ends e u → u ∈ d.vertices := fun u hu => (h4.ends u).2 ⟨e, hem, hu⟩
    have := htag _ _ (merge_mem (P := P) (c1 := ⟨tools, []⟩) (hm e.first (Or.inl rfl)))
      (merge_mem (P := P) (c1 := ⟨tools, []⟩) (hm e.second (Or.inr rfl))) htg
    have hp : e.first.point = e.second.point := by
      rw [← hmp _ (hm e.first (Or.inl rfl)), ← hmp _ (hm e.second (Or.inr rfl))]
      exact congrArg Vtx.point this
    rw [h3] at hem
    obtain ⟨r, hr, her⟩ := List.mem_flatMap.1 hem
    obtain ⟨x, hx, hres⟩ := hmem r hr
    exact parts_ne (hne x hx) hres her hp
  · have := hrefl v
    unfold SameGeometry at this ⊢
    rw [hp]
    exact this

/-- C69.  Difference with the tools and then union with them: the parts of the edges, where all
parts that meet at a tool have the tool as their vertex. -/
theorem C69_difference_union {P : Params} {hash : Nat → Int → Int} {tools : List Vtx}
    {edges : List Edg} {tag : Int} {eps : ℝ}
    (hc : ∀ e ∈ edges, Clear P tools e eps) (hn : (edges.map Edg.tag).Nodup)
    (he : ∀ e ∈ edges, e.tag < tag) (hv : ∀ v, Old edges tools v → v.tag < tag)
    (hone : OneTag (Old edges tools)) (hs : Separated P edges tools)
    (ht : (tools.map Vtx.tag).Nodup) {d : Dom}
    (h1 : domainDifference P edges tools tag eps = .ok d)
    (hh0 : ∀ v w, (v ∈ d.vertices ∨ v ∈ tools) → (w ∈ d.vertices ∨ w ∈ tools) →
      hash 0 v.tag = hash 0 w.tag → v.tag = w.tag)
    (hh1 : ∀ e ∈ d.edges, ∀ e' ∈ d.edges, hash 1 e.tag = hash 1 e'.tag → e.tag = e'.tag) :
    ∃ u, domainUnion P hash d ⟨tools, []⟩ = .ok u ∧ IsUnion P d ⟨tools, []⟩ u ∧
      (List.Forall₂ (fun e u => (u.boundary.map Vtx.point).Perm [e.first.point, e.second.point])
        d.edges u.edges) ∧
      ∀ x ∈ u.edges, ∀ w ∈ x.boundary, ∀ v ∈ tools, w.point = v.point → w = v := by
  obtain ⟨hm, hnear⟩ := C69_mergeable hc hn he hv hone hs ht h1
  obtain ⟨u, hu, hu'⟩ := C69_union (hash := hash) hm hh0 hh1
  have hmp : ∀ w ∈ d.vertices, (merge P tools w).point = w.point := by
    intro w hw
    rcases merge_cases P tools w with ⟨k1, k2⟩ | ⟨k1, -⟩
    · exact ((hnear w hw _ k1).1 k2).symm
    · rw [k1]
  have hend : ∀ e ∈ d.edges, ∀ w, Edg.Ends e w → w ∈ d.vertices := fun e hem w hw =>
    (hm.closed.ends w).2 ⟨e, hem, hw⟩
  refine ⟨u, hu, hu', ?_, ?_⟩
  · have hcongr : ∀ {l : List Edg} {l' : List UEdge}, (∀ e ∈ l, e ∈ d.edges) →
        List.Forall₂ (fun e u => u.tag = e.tag ∧ u.physical = e.physical ∧
          u.boundary = sortByTag [merge P tools e.first, merge P tools e.second]) l l' →
        List.Forall₂ (fun e u => (u.boundary.map Vtx.point).Perm [e.first.point, e.second.point])
          l l' := by
      intro l l' hl hf
      induction hf with
      | nil => exact .nil
      | @cons e x l l' hx hf ih =>
        refine .cons ?_ (ih fun e he => hl e (by simp [he]))
        have hem := hl e (by simp)
        rw [hx.2.2]
        refine ((List.perm_insertionSort _ _).map _).trans ?_
        simp only [List.map_cons, List.map_nil]
        rw [hmp _ (hend e hem _ (Or.inl rfl)), hmp _ (hend e hem _ (Or.inr rfl))]
    exact hcongr (fun e he => he) hu'.edges
  · intro x hx w hw v hvt hp
    obtain ⟨i, hi, rfl⟩ := List.getElem_of_mem hx
    have hi' : i < d.edges.length := by rw [hu'.edges.length_eq]; exact hi
    have hb := (List.Forall₂.get hu'.edges hi' hi).2.2
    simp only [List.get_eq_getElem] at hb
    rw [hb, sortByTag, List.mem_insertionSort] at hw
    obtain ⟨y, hy, rfl⟩ : ∃ y, Edg.Ends d.edges[i] y ∧ w = merge P tools y := by
      simp only [List.mem_cons, List.not_mem_nil, or_false] at hw
      rcases hw with rfl | rfl
      · exact ⟨_, Or.inl rfl, rfl⟩
      · exact ⟨_, Or.inr rfl, rfl⟩
    have hyd := hend _ (List.getElem_mem hi') y hy
    rw [hmp y hyd] at hp
    have hsame := (hnear y hyd v hvt).2 hp
    rcases merge_cases P tools y with ⟨k1, k2⟩ | ⟨-, k2⟩
    · exact hm.one y hyd _ k1 v hvt k2 hsame
    · exact absurd hsame (k2 v hvt)

theorem ex_separated {argsort : List ℝ → List Nat} :
    Separated (exParams1 argsort) [exEdge] [exTool] := by
  refine ⟨by norm_num [exParams1], ?_, ?_⟩
  · intro w hw v hv h
    rw [List.mem_singleton] at hv
    subst hv
    rcases ex_old hw with rfl | rfl | rfl
    · rfl
    · exact absurd h (by
        simp only [exEdge, exParams1, exTool]
        exact not_close 0 (by norm_num))
    · exact absurd h (by
        simp only [exEdge, exParams1, exTool]
        exact not_close 0 (by norm_num))
  · intro v hv w hw _
    rw [List.mem_singleton] at hv hw
    rw [hv, hw]

/-- The hypotheses of the union hold for the difference of the example. -/
example {argsort : List ℝ → List Nat} (hs : Fracture.IsArgsort argsort) :
    ∃ d, domainDifference (exParams1 argsort) [exEdge] [exTool] 20 (1 / 10 ^ 10) = .ok d ∧
      Mergeable (exParams1 argsort) d ⟨[exTool], []⟩ := by
  have hv : ∀ v, Old [exEdge] [exTool] v → v.tag < 20 := fun v hv => by
    rcases ex_old hv with rfl | rfl | rfl <;> simp [exTool, exEdge]
  obtain ⟨d, out, h1, -⟩ := C68_difference (tag := 20) (ex_clear1 hs) (by simp) (by simp [exEdge]) hv
    ex_one
  exact ⟨d, h1, (C69_mergeable (ex_clear1 hs) (by simp) (by simp [exEdge]) hv ex_one ex_separated
    (by simp) h1).1⟩

/-- Two edges with a common vertex, and a tool at that vertex. -/
def exA : Vtx := ⟨1, none, ![0, 0, 0]⟩
def exB : Vtx := ⟨2, none, ![1, 0, 0]⟩
def exC : Vtx := ⟨3, none, ![2, 0, 0]⟩
def exV : Vtx := ⟨9, none, ![1, 0, 0]⟩
def exDom : Dom := ⟨[exA, exB, exC], [⟨5, none, exA, exB⟩, ⟨6, none, exB, exC⟩]⟩

/-- C69, violated for a vertex shared by two edges: only the first edge gets the tool, the second
edge has one vertex left. -/
theorem C69_shared_violated {P : Params} (hP : P.incidence = 1 / 10 ^ 10) :
    IsClosed exDom ∧ ∃ d, domainUnion P (fun _ t => t) exDom ⟨[exV], []⟩ = .ok d ∧
      d.edges = [⟨5, none, [exA, exV]⟩, ⟨6, none, [exC]⟩] := by
  have h1 : ¬ SameGeometry exA exV P.incidence := by
    rw [hP]
    simp only [SameGeometry, exA, exV]
    exact not_close 0 (by norm_num)
  have h2 : SameGeometry exB exV P.incidence := by
    rw [hP]
    intro k
    simp only [IsClose, exB, exV, sub_self, abs_zero]
    positivity
  have h3 : ¬ SameGeometry exC exV P.incidence := by
    rw [hP]
    simp only [SameGeometry, exC, exV]
    exact not_close 0 (by norm_num)
  have hstep : unionStep P exDom (edgeGraph exDom.edges) exV =
      .ok ⟨[(0, 5), (1, 1), (0, 6), (1, 3), (1, 9)], [((0, 5), (1, 1)), ((0, 6), (1, 3)),
        ((0, 5), (1, 9))]⟩ := by
    unfold unionStep
    have : (exDom.vertices.filter fun w => SameGeometry w exV P.incidence) = [exB] := by
      simp [exDom, h1, h2, h3]
    simp only [this]
    rfl
  refine ⟨⟨by simp [exDom], by simp [exDom, exA, exB, exC], ?_⟩, ?_⟩
  · intro v
    simp only [exDom, List.mem_cons, List.not_mem_nil, or_false, exists_eq_or_imp,
      exists_eq_left, Edg.Ends]
    tauto
  · refine ⟨⟨[exA, exC, exV], [⟨5, none, [exA, exV]⟩, ⟨6, none, [exC]⟩]⟩, ?_, rfl⟩
    unfold domainUnion
    simp only [List.foldlM_cons, List.foldlM_nil, hstep]
    rfl

#print axioms C68_difference
#print axioms C68_parts
#print axioms C68_points
#print axioms C69_union
#print axioms C69_mergeable
#print axioms C69_difference_union
#print axioms C69_shared_violated

end Verif.DomainOps
