/-
C42 retagging the shapes of a domain.
-/
import Verif.Lemmas.Retag

namespace Verif.Topology

/-- C42, what happens: the shapes of the dimension and their immersed shapes are visited in order,
and every object ends with the number of its last visit.  Nothing else changes. -/
theorem C42_retag {st : Store} (h : StoreOK st) {dim : Nat} {l : List Nat}
    (hl : st.shapes[dim]? = some l) :
    ∃ objs', retagDim st dim = .ok { st with objs := objs' } ∧
      objs'.length = st.objs.length ∧
      (∀ r, r ∉ visited st.objs l → objs'[r]? = st.objs[r]?) ∧
      ∀ b r a o, visited st.objs l = b ++ r :: a → r ∉ a → st.objs[r]? = some o →
        objs'[r]? = some { o with tag := (b.length : Int) } := by
  have hv : ∀ r ∈ visited st.objs l, r < st.objs.length := by
    intro r hr
    obtain ⟨x, hx, hr⟩ := List.mem_flatMap.1 hr
    obtain ⟨o, ho, -⟩ := h.refs dim l hl x hx
    rcases List.mem_cons.1 hr with rfl | hr
    · exact (List.getElem?_eq_some_iff.1 ho).1
    · rw [ho] at hr
      exact h.immersed x o ho r hr
  obtain ⟨objs', h1, h2, h3, h4⟩ := setTags_spec (visited st.objs l) st.objs 0 hv
  refine ⟨objs', ?_, h2.length, h3, ?_⟩
  · have hi : getIdx st.shapes dim = .ok l := by simp only [getIdx, hl]
    simp only [retagDim, hi, Res.bind_ok, retagShapes_eq dim l st.objs 0 (h.refs dim l hl)
      h.immersed, h1]
    rfl
  · intro b r a o he ha ho
    have := h4 b r a o he ha ho
    rwa [Int.zero_add] at this

/-- C42, partial: if no shape of the dimension has immersed shapes, the shapes of the dimension get
the tags 0, 1, … in order and no other object changes. -/
theorem C42_in_order_partial {st : Store} (h : StoreOK st) {dim : Nat} {l : List Nat}
    (hl : st.shapes[dim]? = some l) (hn : l.Nodup)
    (hi : ∀ r ∈ l, ∀ o, st.objs[r]? = some o → o.immersed = []) :
    ∃ objs', retagDim st dim = .ok { st with objs := objs' } ∧ Retagged l st.objs objs' := by
  have hv : visited st.objs l = l := by
    have : visited st.objs l = l.flatMap fun r => [r] := by
      refine List.flatMap_congr fun r hr => ?_
      obtain ⟨o, ho, -⟩ := h.refs dim l hl r hr
      simp [ho, hi r hr o ho]
    rw [this]
    simp
  obtain ⟨objs', h1, h2, h3, h4⟩ := C42_retag h hl
  rw [hv] at h3 h4
  refine ⟨objs', h1, h2, ?_, h3⟩
  intro i r o hr ho
  have hlt := (List.getElem?_eq_some_iff.1 hr).1
  have he : l = l.take i ++ r :: l.drop (i + 1) := by
    conv_lhs => rw [← List.take_append_drop i l]
    rw [List.drop_eq_getElem_cons hlt, (List.getElem?_eq_some_iff.1 hr).2]
  have hnot : r ∉ l.drop (i + 1) := by
    rw [he] at hn
    exact (List.nodup_cons.1 (List.nodup_append.1 hn).2.1).1
  have := h4 _ r _ o he hnot ho
  rwa [List.length_take, Nat.min_eq_left (by omega)] at this

/-- C42.  Different objects that are visited get different tags, between 0 and the number of
visits. -/
theorem C42_distinct {st : Store} (h : StoreOK st) {dim : Nat} {l : List Nat}
    (hl : st.shapes[dim]? = some l) {objs' : List Obj}
    (hr : retagDim st dim = .ok { st with objs := objs' }) {r s : Nat} {o p : Obj}
    (h1 : r ∈ visited st.objs l) (h2 : s ∈ visited st.objs l) (ho : objs'[r]? = some o)
    (hp : objs'[s]? = some p) (ht : o.tag = p.tag) :
    r = s ∧ 0 ≤ o.tag ∧ o.tag < (visited st.objs l).length := by
  obtain ⟨objs'', e1, e2, -, e4⟩ := C42_retag h hl
  rw [e1] at hr
  simp only [Except.ok.injEq, Store.mk.injEq, and_true] at hr
  subst hr
  have last : ∀ {x : Nat} {l : List Nat}, x ∈ l → ∃ b a, l = b ++ x :: a ∧ x ∉ a := by
    intro x l
    induction l with
    | nil => simp
    | cons y l ih =>
      intro hx
      by_cases hm : x ∈ l
      · obtain ⟨b, a, rfl, ha⟩ := ih hm
        exact ⟨y :: b, a, rfl, ha⟩
      · rcases List.mem_cons.1 hx with rfl | hx
        · exact ⟨[], l, rfl, hm⟩
        · exact absurd hx hm
  obtain ⟨b, a, hb, ha⟩ := last h1
  obtain ⟨b', a', hb', ha'⟩ := last h2
  have lt : ∀ {x : Nat} {q : Obj}, objs''[x]? = some q → ∃ q, st.objs[x]? = some q := by
    intro x q hq
    exact ⟨_, List.getElem?_eq_getElem (by rw [← e2]; exact (List.getElem?_eq_some_iff.1 hq).1)⟩
  obtain ⟨o0, ho0⟩ := lt ho
  obtain ⟨p0, hp0⟩ := lt hp
  have t1 := e4 b r a o0 hb ha ho0
  have t2 := e4 b' s a' p0 hb' ha' hp0
  rw [ho, Option.some.injEq] at t1
  rw [hp, Option.some.injEq] at t2
  rw [t1, t2] at ht
  have hlen : b.length = b'.length := by
    have : ((b.length : Nat) : Int) = b'.length := ht
    omega
  have heq := hb.symm.trans hb'
  have := List.append_inj heq hlen
  simp only [List.cons.injEq] at this
  refine ⟨this.2.1, ?_, ?_⟩
  · rw [t1]; simp
  · rw [t1, hb]; simp; omega

/-- C42 does not hold when a shape has immersed shapes of a lower dimension: the guard in
domain.py:58 tests the wrong shape, so retagging the faces changes the tag of an embedded edge … -/
theorem C42_other_dimension_changed :
    retagDim ⟨[⟨1, 7, []⟩, ⟨2, 3, [0]⟩], [[], [0], [1]]⟩ 2 =
      .ok ⟨[⟨1, 1, []⟩, ⟨2, 0, [0]⟩], [[], [0], [1]]⟩ := by decide

/-- … and after `retag_shapes` two edges of the domain have the same tag. -/
theorem C42_edges_collide :
    retagAll 2 ⟨[⟨1, 7, []⟩, ⟨1, 8, []⟩, ⟨2, 3, [0]⟩], [[], [0, 1], [2]]⟩ =
      .ok ⟨[⟨1, 1, []⟩, ⟨1, 1, []⟩, ⟨2, 0, [0]⟩], [[], [0, 1], [2]]⟩ := by decide

/-- C42, partial: without immersed shapes, `retag_shapes` numbers the shapes of every dimension
from 0. -/
theorem C42_all_partial {st : Store} (h : StoreOK st) (hn : ∀ l ∈ st.shapes, l.Nodup)
    (hi : ∀ o ∈ st.objs, o.immersed = []) {D : Nat} (hl : st.shapes.length = D + 1) :
    ∃ objs', retagAll D st = .ok { st with objs := objs' } ∧ objs'.length = st.objs.length ∧
      ∀ (k : Nat) (l : List Nat), st.shapes[k]? = some l → ∀ (i r : Nat) (o : Obj),
        l[i]? = some r → st.objs[r]? = some o → objs'[r]? = some { o with tag := (i : Int) } := by
  -- after the dimensions below `n`
  have key : ∀ n, n ≤ D + 1 → ∃ objs', (List.range n).foldlM retagDim st =
      .ok { st with objs := objs' } ∧ SameShape st.objs objs' ∧
      (∀ (k : Nat) (l : List Nat), k < n → st.shapes[k]? = some l → ∀ (i r : Nat) (o : Obj),
        l[i]? = some r → st.objs[r]? = some o → objs'[r]? = some { o with tag := (i : Int) }) ∧
      ∀ (r : Nat) (o : Obj), st.objs[r]? = some o → n ≤ o.dimension → objs'[r]? = some o := by
    intro n
    induction n with
    | zero => exact fun _ => ⟨st.objs, rfl, rfl, fun k l hk => by omega, fun r o ho _ => ho⟩
    | succ n ih =>
      intro hnD
      obtain ⟨objs1, e1, e2, e3, e4⟩ := ih (by omega)
      obtain ⟨l, hln⟩ : ∃ l, st.shapes[n]? = some l := ⟨_, List.getElem?_eq_getElem (by omega)⟩
      have hok : StoreOK { st with objs := objs1 } := by
        refine ⟨?_, ?_⟩
        · intro k l' hl' r hr
          obtain ⟨o, g1, g2⟩ := h.refs k l' hl' r hr
          obtain ⟨o', g3, g4, -⟩ := e2.symm.get g1
          exact ⟨o', g3, g4.trans g2⟩
        · intro r o ho i hi'
          obtain ⟨o', g1, -, g2⟩ := e2.get ho
          have := h.immersed r o' g1 i (by rw [g2]; exact hi')
          rw [e2.length]
          exact this
      have himm : ∀ r ∈ l, ∀ o, objs1[r]? = some o → o.immersed = [] := by
        intro r _ o ho
        obtain ⟨o', g1, -, g2⟩ := e2.get ho
        rw [← g2]
        exact hi o' (List.mem_of_getElem? g1)
      obtain ⟨objs2, f1, f2⟩ := C42_in_order_partial hok hln (hn l (List.mem_of_getElem? hln)) himm
      have hsame : SameShape st.objs objs2 := by
        refine e2.trans ?_
        unfold SameShape
        refine List.ext_getElem? fun x => ?_
        rw [List.getElem?_map, List.getElem?_map]
        by_cases hx : x ∈ l
        · obtain ⟨i, hix⟩ := List.mem_iff_getElem?.1 hx
          obtain ⟨o, ho, -⟩ := hok.refs n l hln x hx
          have g := f2.inOrder i x o hix ho
          rw [g]
          have ho' : objs1[x]? = some o := ho
          rw [ho']
          rfl
        · rw [f2.others x hx]
      refine ⟨objs2, ?_, hsame, ?_, ?_⟩
      · rw [List.range_succ, List.foldlM_append, e1]
        simp only [Res.bind_ok, List.foldlM_cons, List.foldlM_nil, f1]
        rfl
      · intro k l' hk hl' i r o hir ho
        obtain ⟨o', g1, g2⟩ := h.refs k l' hl' r (List.mem_of_getElem? hir)
        rw [ho, Option.some.injEq] at g1
        subst g1
        by_cases hkn : k = n
        · subst hkn
          rw [hln, Option.some.injEq] at hl'
          subst hl'
          have ho1 := e4 r o ho (by omega)
          exact f2.inOrder i r o hir ho1
        · have : r ∉ l := by
            intro hr
            obtain ⟨o', g3, g4⟩ := h.refs n l hln r hr
            rw [ho, Option.some.injEq] at g3
            subst g3
            omega
          rw [f2.others r this]
          exact e3 k l' (by omega) hl' i r o hir ho
      · intro r o ho hd
        have : r ∉ l := by
          intro hr
          obtain ⟨o', g3, g4⟩ := h.refs n l hln r hr
          rw [ho, Option.some.injEq] at g3
          subst g3
          omega
        rw [f2.others r this]
        exact e4 r o ho (by omega)
  obtain ⟨objs', h1, h2, h3, -⟩ := key (D + 1) (le_refl _)
  refine ⟨objs', h1, h2.length, fun k l hk => h3 k l ?_ hk⟩
  rw [← hl]
  exact (List.getElem?_eq_some_iff.1 hk).1

/-- C42.  A dimension the domain does not have raises `IndexError`. -/
theorem C42_rejects {st : Store} {dim : Nat} (h : st.shapes.length ≤ dim) :
    retagDim st dim = .error .indexError := by
  have : st.shapes[dim]? = none := List.getElem?_eq_none h
  simp [retagDim, getIdx, this, bind, Except.bind]

/-- A wire with its two edges: the edges keep the numbers given to them as parts of the wire. -/
example : retagDim ⟨[⟨1, 7, []⟩, ⟨1, 8, []⟩, ⟨1, 9, [0, 1]⟩], [[], [0, 1, 2]]⟩ 1 =
    .ok ⟨[⟨1, 3, []⟩, ⟨1, 4, []⟩, ⟨1, 2, [0, 1]⟩], [[], [0, 1, 2]]⟩ := by decide

example : retagAll 1 ⟨[⟨0, 7, []⟩, ⟨0, 8, []⟩, ⟨1, 9, []⟩], [[1, 0], [2]]⟩ =
    .ok ⟨[⟨0, 1, []⟩, ⟨0, 0, []⟩, ⟨1, 0, []⟩], [[1, 0], [2]]⟩ := by decide

example : StoreOK ⟨[⟨0, 7, []⟩, ⟨0, 8, []⟩, ⟨1, 9, []⟩], [[1, 0], [2]]⟩ := by
  refine ⟨?_, ?_⟩
  · intro k l hl r hr
    match k with
    | 0 =>
      simp only [List.getElem?_cons_zero, Option.some.injEq] at hl
      subst hl
      simp only [List.mem_cons, List.not_mem_nil, or_false] at hr
      rcases hr with rfl | rfl <;> exact ⟨_, rfl, rfl⟩
    | 1 =>
      simp only [List.getElem?_cons_zero, List.getElem?_cons_succ, Option.some.injEq] at hl
      subst hl
      simp only [List.mem_cons, List.not_mem_nil, or_false] at hr
      subst hr
      exact ⟨_, rfl, rfl⟩
    | k + 2 => simp at hl
  · intro r o ho i hi
    have hm := List.mem_of_getElem? ho
    simp only [List.mem_cons, List.not_mem_nil, or_false] at hm
    rcases hm with rfl | rfl | rfl <;> simp at hi

#print axioms C42_retag
#print axioms C42_in_order_partial
#print axioms C42_distinct
#print axioms C42_other_dimension_changed
#print axioms C42_edges_collide
#print axioms C42_all_partial
#print axioms C42_rejects

end Verif.Topology
