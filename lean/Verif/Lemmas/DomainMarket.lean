/-
Lemmas on the box domains.
-/
import Verif.Spec.DomainMarket
import Verif.Lemmas.Domain
import Verif.Props.Shape

namespace Verif.Topology
open Shape MeshGraph
variable {P : Type} {argsort : List Int → List Nat} {close : P → P → Bool}

theorem setBoundary_of_perm (ha : IsArgsort argsort) {k : Kind} {shapes sorted : List (Shape P)}
    (hp : sorted.Perm shapes) (hs : (sorted.map tag).Pairwise (· < ·))
    (hd : ∀ s ∈ shapes, s.dimension ∈ k.admissible) :
    setBoundary argsort k shapes = .ok sorted := by
  obtain ⟨l, h1, h2, h3⟩ := (C39_boundary_shapes ha k shapes).1 hd
  rw [h1]
  congr 1
  have hperm : l.Perm sorted := h2.trans hp.symm
  have hmap : l.map tag = sorted.map tag :=
    (hperm.map tag).eq_of_pairwise (fun a b _ _ h h' => le_antisymm h h') h3 (hs.imp le_of_lt)
  refine map_inj_on ?_ hmap
  intro x hx y hy hxy
  have hx' := hperm.mem_iff.1 hx
  have hn : (sorted.map tag).Nodup := hs.imp ne_of_lt
  exact List.inj_on_of_nodup_map hn hx' hy hxy

theorem setBoundary_twice (ha : IsArgsort argsort) {k : Kind} {v : Shape P}
    (hd : v.dimension ∈ k.admissible) : setBoundary argsort k [v, v] = .ok [v, v] := by
  obtain ⟨l, h1, h2, -⟩ := (C39_boundary_shapes ha k [v, v]).1 (by simpa using hd)
  rw [h1]
  congr 1
  exact (List.perm_replicate (n := 2) (a := v)).1 h2

theorem setBoundary_one (ha : IsArgsort argsort) {k : Kind} {v : Shape P}
    (hd : v.dimension ∈ k.admissible) : setBoundary argsort k [v] = .ok [v] :=
  setBoundary_of_perm ha (List.Perm.refl _) (by simp) (by simpa using hd)

theorem mapRes_ok_of {α β : Type} {f : α → Res β} {g : α → β} : ∀ {l : List α},
    (∀ a ∈ l, f a = .ok (g a)) → mapRes f l = .ok (l.map g)
  | [], _ => rfl
  | a :: l, h => by
    rw [mapRes, h a (by simp), mapRes_ok_of fun b hb => h b (by simp [hb])]
    rfl

/-- The edge with the smaller tag first. -/
def joined (tag : Int) (p : Option Int) (v w : Shape P) : Shape P :=
  .composed .edge tag p (if v.tag < w.tag then [v, w] else [w, v]) []

theorem mkSimple_edge (ha : IsArgsort argsort) {t : Int} {v w : Shape P} (hv : v.dimension = 0)
    (hw : w.dimension = 0) (hne : v.tag ≠ w.tag) :
    mkSimple argsort .edge t [v, w] = .ok (joined t none v w) := by
  have : setBoundary argsort .edge [v, w] = .ok (if v.tag < w.tag then [v, w] else [w, v]) := by
    by_cases h : v.tag < w.tag
    · rw [if_pos h]
      exact setBoundary_of_perm ha (List.Perm.refl _) (by simpa using h)
        (by simp [hv, hw, Kind.admissible])
    · rw [if_neg h]
      exact setBoundary_of_perm ha (List.Perm.swap _ _ _) (by simp; omega)
        (by simp [hv, hw, Kind.admissible])
  rw [mkSimple, this]
  rfl

theorem newVertices_getElem? (points : List P) (i : Nat) :
    (newVertices points)[i]? = points[i]?.map fun x => .vertex i none x := by
  unfold newVertices
  rw [List.getElem?_map, List.getElem?_zipIdx]
  simp [Option.map_map, Function.comp_def]

theorem newVertices_length (points : List P) : (newVertices points).length = points.length := by
  simp [newVertices]

theorem newVertices_dimension (points : List P) : ∀ s ∈ newVertices points, s.dimension = 0 := by
  intro s hs
  obtain ⟨p, -, rfl⟩ := List.mem_map.1 hs
  rfl

theorem getIdx_ok {α : Type} {l : List α} {i : Nat} {a : α} (h : l[i]? = some a) :
    getIdx l i = .ok a := by
  simp [getIdx, h]

theorem pick_pair {l : List (Shape P)} {i j : Nat} {v w : Shape P} (hi : l[i]? = some v)
    (hj : l[j]? = some w) : pick l [i, j] = .ok [v, w] := by
  simp [pick, mapRes, getIdx_ok hi, getIdx_ok hj, bind, Except.bind, pure, Except.pure]

theorem append_vertices {dim : Nat} {points : List P} (hne : points ≠ []) :
    (Domain.new dim).append (newVertices points) =
      .ok ⟨dim, (List.replicate (dim + 1) []).set 0 (newVertices points)⟩ := by
  rw [append_same (k := 0)]
  · simp [Domain.new]
  · intro h
    apply hne
    have := newVertices_length points
    rw [h] at this
    exact List.length_eq_zero_iff.1 this.symm
  · exact newVertices_dimension points

theorem append_one {d : Domain P} {s : Shape P} {k : Nat} {old : List (Shape P)}
    (hs : s.dimension = k) (hk : d.shapes[k]? = some old) :
    d.append [s] = .ok { d with shapes := d.shapes.set k (old ++ [s]) } := by
  rw [append_same (k := k) (by simp) (by simpa using hs), hk]

/-! ### The polygon -/

theorem loopPairs_length : ∀ l : List Nat, (loopPairs l).length = l.length - 1
  | [] => rfl
  | [_] => rfl
  | _ :: j :: l => by
    rw [loopPairs, List.length_cons, loopPairs_length (j :: l)]
    simp

theorem loopPairs_getElem? : ∀ (l : List Nat) (k i j : Nat), l[k]? = some i → l[k + 1]? = some j →
    (loopPairs l)[k]? = some [i, j]
  | [], _, _, _, h, _ => by simp at h
  | [_], k, _, _, _, h => by simp at h
  | a :: b :: l, 0, i, j, h, h' => by
    simp only [List.getElem?_cons_zero, Option.some.injEq, Nat.zero_add,
      List.getElem?_cons_succ] at h h'
    subst h h'
    rfl
  | a :: b :: l, k + 1, i, j, h, h' => by
    rw [loopPairs, List.getElem?_cons_succ]
    exact loopPairs_getElem? (b :: l) k i j (by simpa using h) (by simpa using h')

theorem polygonEdges_spec (ha : IsArgsort argsort) {tags : Dict String Int}
    {vertices : List (Shape P)} : ∀ {cons : List (List Nat)} {i : Nat},
    (∀ con ∈ cons, ∃ a b v w, con = [a, b] ∧ vertices[a]? = some v ∧ vertices[b]? = some w ∧
      v.dimension = 0 ∧ w.dimension = 0 ∧ v.tag ≠ w.tag) →
    ∃ es, polygonEdges argsort tags vertices i cons = .ok es ∧ es.length = cons.length ∧
      ∀ (k a b : Nat) v w, cons[k]? = some [a, b] → vertices[a]? = some v →
        vertices[b]? = some w →
        es[k]? = some (joined (i + k : Nat) (tags.get? (bcLabel (i + k))) v w)
  | [], i, _ => ⟨[], rfl, rfl, fun k a b v w h => by simp at h⟩
  | con :: cons, i, h => by
    obtain ⟨es, h1, h2, h3⟩ := polygonEdges_spec ha (tags := tags) (i := i + 1)
      fun c hc => h c (List.mem_cons_of_mem _ hc)
    obtain ⟨a, b, v, w, rfl, hv, hw, dv, dw, hne⟩ := h con (by simp)
    refine ⟨joined i (tags.get? (bcLabel i)) v w :: es, ?_, by simp [h2], ?_⟩
    · rw [polygonEdges, pick_pair hv hw]
      simp only [bind, Except.bind, mkSimple_edge ha dv dw hne, h1]
      rfl
    · intro k a' b' v' w' hk hv' hw'
      cases k with
      | zero =>
        simp only [List.getElem?_cons_zero, Option.some.injEq, List.cons.injEq, and_true] at hk
        obtain ⟨rfl, rfl⟩ := hk
        rw [hv] at hv'
        rw [hw] at hw'
        cases hv'
        cases hw'
        rfl
      | succ k =>
        have := h3 k a' b' v' w' (by simpa using hk) hv' hw'
        rw [List.getElem?_cons_succ, this, show i + 1 + k = i + (k + 1) by omega]

theorem view_edge {t : Int} {p : Option Int} {v w : Shape P} (hv : v.dimension = 0)
    (hw : w.dimension = 0) : (joined t p v w).view = joined t p v w := by
  obtain ⟨_, _, _, rfl⟩ := vertex_cases hv
  obtain ⟨_, _, _, rfl⟩ := vertex_cases hw
  unfold joined
  split <;> simp [view, viewAll]

theorem expand_edges {l : List (Shape P)} (h : ∀ s ∈ l, s.immersed = []) : expand l = l := by
  induction l with
  | nil => rfl
  | cons a l ih =>
    unfold expand at *
    rw [List.flatMap_cons, ih fun s hs => h s (List.mem_cons_of_mem _ hs), if_pos (h a (by simp))]
    rfl

theorem view_wire {t : Int} {p : Option Int} {b i : List (Shape P)} (hb : ∀ s ∈ b, s.view = s)
    (hi : ∀ s ∈ i, s.view = s) (hn : ∀ s ∈ i, s.immersed = []) :
    (composed .wire t p b i).view = composed .wire t p b i := by
  rw [view, viewAll_eq, viewAll_eq, if_pos rfl, List.map_congr_left hb, List.map_congr_left hi,
    List.map_id', List.map_id', expand_edges hn]

theorem view_other {k : Kind} (hk : k ≠ .wire) {t : Int} {p : Option Int} {b i : List (Shape P)}
    (hb : ∀ s ∈ b, s.view = s) (hi : ∀ s ∈ i, s.view = s) :
    (composed k t p b i).view = composed k t p b i := by
  rw [view, viewAll_eq, viewAll_eq, if_neg hk, List.map_congr_left hb, List.map_congr_left hi,
    List.map_id', List.map_id']

theorem nodup_of_positions {l : List (Shape P)} (c : Nat)
    (h : ∀ (i : Nat) s, l[i]? = some s → s.tag = (c + i : Nat)) : (l.map tag).Nodup := by
  rw [List.nodup_iff_injective_getElem]
  intro i j hij
  have h1 := h i _ (List.getElem?_eq_getElem (by simpa using i.2))
  have h2 := h j _ (List.getElem?_eq_getElem (by simpa using j.2))
  simp only [List.getElem_map] at hij
  rw [h1, h2] at hij
  have : c + i.1 = c + j.1 := by exact_mod_cast hij
  exact Fin.ext (by omega)

/-! ### The box -/

/-- An edge made of two vertices. -/
def IsEdgeBetween (e : Shape P) : Prop :=
  ∃ t p a b, e = joined t p a b ∧ a.dimension = 0 ∧ b.dimension = 0

theorem side_corners {l : List Nat} {c : Fin 3} {side : Bool}
    (h : ∀ t < 8, t ∈ l ↔ cubeCorner t c = side) (h8 : ∀ t ∈ l, t < 8) (t : Nat) :
    (t : Int) ∈ l.map (fun n : Nat => (n : Int)) ↔ t < 8 ∧ cubeCorner t c = side := by
  constructor
  · intro ht
    obtain ⟨n, hn, hnt⟩ := List.mem_map.1 ht
    have : n = t := by exact_mod_cast hnt
    subst this
    exact ⟨h8 n hn, (h n (h8 n hn)).1 hn⟩
  · rintro ⟨h1, h2⟩
    exact List.mem_map.2 ⟨t, (h t h1).2 h2, rfl⟩

/-- A vertex of the box. -/
def corner (i : Nat) (x : P) : Shape P := .vertex i none x

theorem appendEdges_cons (ha : IsArgsort argsort) {vs es fs ss : List (Shape P)} {tag i j : Nat}
    {cons : List (List Nat)} {v w : Shape P} (hv : vs[i]? = some v) (hw : vs[j]? = some w)
    (dv : v.dimension = 0) (dw : w.dimension = 0) (hne : v.tag ≠ w.tag) :
    appendEdges argsort ⟨3, [vs, es, fs, ss]⟩ tag ([i, j] :: cons) =
      appendEdges argsort ⟨3, [vs, es ++ [joined tag none v w], fs, ss]⟩ (tag + 1) cons := by
  rw [appendEdges, Domain.pick]
  simp only [show getIdx [vs, es, fs, ss] 0 = .ok vs from rfl, bind, Except.bind,
    pick_pair hv hw, mkSimple_edge ha dv dw hne]
  rw [append_one (k := 1) (old := es) rfl rfl]
  rfl

theorem joined_boundary {t : Int} {p : Option Int} {v w : Shape P} :
    (joined t p v w).boundary = [v, w] ∨ (joined t p v w).boundary = [w, v] := by
  unfold joined
  split
  · exact Or.inl rfl
  · exact Or.inr rfl

theorem isChain_nil {v : Shape P} (hv : v.dimension = 0) : IsChain [] [v] :=
  ⟨rfl, fun i e _ _ h => by simp at h, by simpa using hv⟩

theorem isChain_cons {e v w : Shape P} {es vs : List (Shape P)}
    (hb : e.boundary = [v, w] ∨ e.boundary = [w, v]) (hv : v.dimension = 0)
    (h : IsChain es (w :: vs)) : IsChain (e :: es) (v :: w :: vs) := by
  refine ⟨by have := h.length; simpa using this, ?_, ?_⟩
  · intro i e' a b h1 h2 h3
    cases i with
    | zero =>
      simp only [List.getElem?_cons_zero, Option.some.injEq, Nat.zero_add,
        List.getElem?_cons_succ] at h1 h2 h3
      subst h1 h2 h3
      exact hb
    | succ i =>
      simp only [List.getElem?_cons_succ] at h1 h2 h3
      exact h.joins i e' a b h1 h2 h3
  · intro u hu
    rcases List.mem_cons.1 hu with rfl | hu
    · exact hv
    · exact h.isVertex u hu

theorem stepsDiffer_one (v : Shape P) : StepsDiffer [v] := fun i x y _ h => by simp at h

theorem stepsDiffer_cons {v w : Shape P} {vs : List (Shape P)} (h : v.tag ≠ w.tag)
    (ht : StepsDiffer (w :: vs)) : StepsDiffer (v :: w :: vs) := by
  intro i x y h1 h2
  cases i with
  | zero =>
    simp only [List.getElem?_cons_zero, Option.some.injEq, Nat.zero_add,
      List.getElem?_cons_succ] at h1 h2
    subst h1 h2
    exact h
  | succ i =>
    simp only [List.getElem?_cons_succ] at h1 h2
    exact ht i x y h1 h2

/-- Four edges around four corners. -/
theorem square_loop (hc : ∀ x, close x x = true) {a b c d : Shape P} {e f g h : Shape P}
    (da : a.dimension = 0) (db : b.dimension = 0) (dc : c.dimension = 0) (dd : d.dimension = 0)
    (he : e.boundary = [a, b] ∨ e.boundary = [b, a])
    (hf : f.boundary = [b, c] ∨ f.boundary = [c, b])
    (hg : g.boundary = [c, d] ∨ g.boundary = [d, c])
    (hh : h.boundary = [d, a] ∨ h.boundary = [a, d])
    (hab : a.tag < b.tag) (hbc : b.tag ≠ c.tag) (hcd : c.tag ≠ d.tag) (hda : d.tag ≠ a.tag) :
    ClosedLoop close [e, f, g, h] [a, b, c, d] := by
  have h1 : IsChain [e, f, g, h] [a, b, c, d, a] :=
    isChain_cons he da (isChain_cons hf db (isChain_cons hg dc (isChain_cons hh dd
      (isChain_nil da))))
  have h2 : StepsDiffer [a, b, c, d, a] :=
    stepsDiffer_cons hab.ne (stepsDiffer_cons hbc (stepsDiffer_cons hcd (stepsDiffer_cons hda
      (stepsDiffer_one a))))
  obtain ⟨signs, h3, h4, -⟩ := C40_wire_partial hc (by simp) h1 h2 (by
    intro x y hx hy
    simp only [List.getElem?_cons_zero, Option.some.injEq, List.getElem?_cons_succ] at hx hy
    subst hx hy
    exact hab)
  exact ⟨a, _, signs, rfl, h1, h3, h4⟩

theorem mkWire_loop (ha : IsArgsort argsort) {edges corners : List (Shape P)} {v : Shape P}
    {t : Int} (hl : ClosedLoop close edges corners) (hv : v.dimension = 0)
    (h : ∀ e ∈ edges, ∃ t p a b, e = joined t p a b ∧ a.dimension = 0 ∧ b.dimension = 0) :
    mkWire close argsort t edges [v] = .ok (.composed .wire t none [v] edges) := by
  obtain ⟨_, _, signs, -, -, hs, -⟩ := hl
  have h1 : setImmersed .wire edges = .ok edges := by
    unfold setImmersed
    rw [if_pos]
    · rfl
    · refine List.all_eq_true.2 fun s hs => ?_
      obtain ⟨_, _, a, b, rfl, -, -⟩ := h s hs
      rfl
  have h3 : (composed .wire t none [v] edges).view = composed .wire t none [v] edges := by
    refine view_wire ?_ ?_ ?_
    · intro s hs'
      rw [List.mem_singleton.1 hs']
      obtain ⟨_, _, _, rfl⟩ := vertex_cases hv
      rfl
    · intro s hs'
      obtain ⟨_, _, a, b, rfl, q1, q2⟩ := h s hs'
      exact view_edge q1 q2
    · intro s hs'
      obtain ⟨_, _, a, b, rfl, q1, q2⟩ := h s hs'
      rfl
  unfold mkWire mkComposite
  rw [h1, setBoundary_one ha (by simp [hv, Kind.admissible])]
  simp only [bind, Except.bind, pure, Except.pure, h3]
  rw [show (composed .wire t none [v] edges).immersed = edges from rfl, hs]

theorem newWires_cons (ha : IsArgsort argsort) {vs es fs ss : List (Shape P)} {tag i : Nat}
    {is : List Nat} {cs : List (List Nat × Nat)} {edges corners : List (Shape P)} {v : Shape P}
    {ws : List (Shape P)}
    (he : pick es is = .ok edges) (hi : vs[i]? = some v) (hl : ClosedLoop close edges corners)
    (hv : v.dimension = 0)
    (h : ∀ e ∈ edges, ∃ t p a b, e = joined t p a b ∧ a.dimension = 0 ∧ b.dimension = 0)
    (hr : newWires close argsort ⟨3, [vs, es, fs, ss]⟩ (tag + 1) cs = .ok ws) :
    newWires close argsort ⟨3, [vs, es, fs, ss]⟩ tag ((is, i) :: cs) =
      .ok (.composed .wire tag none [v] edges :: ws) := by
  rw [newWires, Domain.pick]
  simp only [show getIdx [vs, es, fs, ss] 0 = .ok vs from rfl,
    show getIdx [vs, es, fs, ss] 1 = .ok es from rfl, bind, Except.bind, he, Domain.pick,
    show pick vs [i] = .ok [v] by simp [pick, mapRes, getIdx_ok hi, bind, Except.bind, pure,
      Except.pure], mkWire_loop ha hl hv h, hr]
  rfl

theorem appendFaces_cons (ha : IsArgsort argsort) {tags : Dict String Int}
    {vs es fs ss : List (Shape P)} {tag : Nat} {label : String} {w : Shape P}
    {rest : List (String × Shape P)} (hw : w.dimension = 1) :
    appendFaces argsort tags ⟨3, [vs, es, fs, ss]⟩ tag ((label, w) :: rest) =
      appendFaces argsort tags
        ⟨3, [vs, es, fs ++ [.composed .face tag (tags.get? label) [w] []], ss]⟩ (tag + 1) rest := by
  rw [appendFaces, mkSimple, setBoundary_one ha (by simp [hw, Kind.admissible])]
  simp only [bind, Except.bind, pure, Except.pure]
  rw [append_one (k := 2) (old := fs) rfl rfl]
  rfl

theorem pick_short {l : List (Shape P)} {i j : Nat} (h : l.length ≤ i ∨ l.length ≤ j) :
    pick l [i, j] = .error .indexError := by
  cases hi : l[i]? with
  | none => simp [pick, mapRes, getIdx, hi, bind, Except.bind]
  | some v =>
    cases hj : l[j]? with
    | none => simp [pick, mapRes, getIdx, hi, hj, bind, Except.bind]
    | some w =>
      have h1 := (List.getElem?_eq_some_iff.1 hi).1
      have h2 := (List.getElem?_eq_some_iff.1 hj).1
      omega

/-- The test that a connectivity is a pair of different positions. -/
def isPair : List Nat → Bool
  | [i, j] => i != j
  | _ => false

theorem appendEdges_short (ha : IsArgsort argsort) {points : List P} {fs ss : List (Shape P)} :
    ∀ {cons : List (List Nat)} {es : List (Shape P)} {tag : Nat}, (∀ con ∈ cons, isPair con = true) →
    (∃ con ∈ cons, ∃ i ∈ con, points.length ≤ i) →
    appendEdges argsort ⟨3, [newVertices points, es, fs, ss]⟩ tag cons = .error .indexError
  | [], _, _, _, h => by obtain ⟨_, h, -⟩ := h; simp at h
  | con :: cons, es, tag, hp, h => by
    have hcon := hp con (by simp)
    match con, hcon with
    | [i, j], hij =>
    have hne : i ≠ j := by simpa [isPair] using hij
    by_cases hs : points.length ≤ i ∨ points.length ≤ j
    · rw [appendEdges, Domain.pick]
      simp only [show getIdx [newVertices points, es, fs, ss] 0 = .ok (newVertices points) from rfl,
        bind, Except.bind, pick_short (newVertices_length points ▸ hs)]
    · rw [not_or] at hs
      have hi : (newVertices points)[i]? = some (.vertex i none (points[i]'(by omega))) := by
        rw [newVertices_getElem?, List.getElem?_eq_getElem (by omega)]; rfl
      have hj : (newVertices points)[j]? = some (.vertex j none (points[j]'(by omega))) := by
        rw [newVertices_getElem?, List.getElem?_eq_getElem (by omega)]; rfl
      rw [appendEdges_cons ha hi hj rfl rfl (by simp only [Shape.tag]; omega)]
      refine appendEdges_short ha (fun c hc => hp c (List.mem_cons_of_mem _ hc)) ?_
      obtain ⟨c, hc, k, hk, hl⟩ := h
      rcases List.mem_cons.1 hc with rfl | hc
      · simp only [List.mem_cons, List.not_mem_nil, or_false] at hk
        omega
      · exact ⟨c, hc, k, hk, hl⟩

end Verif.Topology
