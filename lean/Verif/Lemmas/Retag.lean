/-
Lemmas on retagging.
-/
import Verif.Spec.Retag
import Verif.Lemmas.Prelude

namespace Verif.Topology

/-- Nothing but tags has changed. -/
def SameShape (objs objs' : List Obj) : Prop :=
  objs'.map (fun o => (o.dimension, o.immersed)) = objs.map fun o => (o.dimension, o.immersed)

theorem SameShape.get {objs objs' : List Obj} (h : SameShape objs objs') {r : Nat} {o' : Obj}
    (ho : objs'[r]? = some o') : ∃ o, objs[r]? = some o ∧ o.dimension = o'.dimension ∧
      o.immersed = o'.immersed := by
  have : (objs'.map fun o => (o.dimension, o.immersed))[r]? =
      (objs.map fun o => (o.dimension, o.immersed))[r]? := by rw [h]
  rw [List.getElem?_map, List.getElem?_map, ho] at this
  cases hr : objs[r]? with
  | none => rw [hr] at this; simp at this
  | some o =>
    rw [hr] at this
    simp only [Option.map_some, Option.some.injEq, Prod.mk.injEq] at this
    exact ⟨o, rfl, this.1.symm, this.2.symm⟩

theorem SameShape.length {objs objs' : List Obj} (h : SameShape objs objs') :
    objs'.length = objs.length := by
  have := congrArg List.length h
  simpa using this

theorem SameShape.symm {objs objs' : List Obj} (h : SameShape objs objs') : SameShape objs' objs :=
  Eq.symm h

theorem SameShape.trans {a b c : List Obj} (h : SameShape a b) (h' : SameShape b c) :
    SameShape a c := Eq.trans h' h

theorem setTag_ok {objs : List Obj} {t : Int} {r : Nat} {o : Obj} (h : objs[r]? = some o) :
    setTag (objs, t) r = .ok (objs.set r { o with tag := t }, t + 1) := by
  simp [setTag, getIdx, h, bind, Except.bind, pure, Except.pure]

theorem sameShape_set {objs : List Obj} {r : Nat} {o : Obj} (h : objs[r]? = some o) (t : Int) :
    SameShape objs (objs.set r { o with tag := t }) := by
  unfold SameShape
  rw [List.map_set]
  refine List.ext_getElem? fun i => ?_
  rw [List.getElem?_set]
  split
  · rename_i e
    subst e
    have hlt := (List.getElem?_eq_some_iff.1 h).1
    rw [List.getElem?_map, h]
    simp [hlt]
  · rfl

/-- Tagging a list of references one after the other. -/
theorem setTags_spec : ∀ (l : List Nat) (objs : List Obj) (t : Int), (∀ r ∈ l, r < objs.length) →
    ∃ objs', l.foldlM setTag (objs, t) = .ok (objs', t + l.length) ∧ SameShape objs objs' ∧
      (∀ r : Nat, r ∉ l → objs'[r]? = objs[r]?) ∧
      ∀ (b : List Nat) (r : Nat) (a : List Nat) (o : Obj), l = b ++ r :: a → r ∉ a → objs[r]? = some o →
        objs'[r]? = some { o with tag := t + b.length }
  | [], objs, t, _ => ⟨objs, by simp [pure, Except.pure], rfl, fun _ _ => rfl, fun b r a o h => by
      simp at h⟩
  | r :: l, objs, t, h => by
    have hr := h r (by simp)
    obtain ⟨o, ho⟩ : ∃ o, objs[r]? = some o := ⟨_, List.getElem?_eq_getElem hr⟩
    have hs := sameShape_set ho t
    obtain ⟨objs', h1, h2, h3, h4⟩ := setTags_spec l (objs.set r { o with tag := t }) (t + 1)
      fun x hx => by rw [hs.length]; exact h x (List.mem_cons_of_mem _ hx)
    refine ⟨objs', ?_, hs.trans h2, ?_, ?_⟩
    · rw [List.foldlM_cons, setTag_ok ho]
      simp only [Res.bind_ok, h1, List.length_cons, Except.ok.injEq, Prod.mk.injEq, true_and]
      push_cast
      omega
    · intro x hx
      simp only [List.mem_cons, not_or] at hx
      rw [h3 x hx.2, List.getElem?_set, if_neg (Ne.symm hx.1)]
    · intro b x a ox he hxa hox
      cases b with
      | nil =>
        simp only [List.nil_append, List.cons.injEq] at he
        obtain ⟨rfl, rfl⟩ := he
        rw [h3 r hxa, List.getElem?_set, if_pos rfl, if_pos hr]
        rw [ho, Option.some.injEq] at hox
        subst hox
        simp
      | cons y b =>
        simp only [List.cons_append, List.cons.injEq] at he
        obtain ⟨rfl, he⟩ := he
        have key : ∀ o', (objs.set r { o with tag := t })[x]? = some o' →
            objs'[x]? = some { o' with tag := t + 1 + b.length } := fun o' ho' =>
          h4 b x a o' he hxa ho'
        by_cases hxr : r = x
        · subst hxr
          have := key { o with tag := t } (by simp [hr])
          rw [this]
          rw [ho, Option.some.injEq] at hox
          subst hox
          simp only [List.length_cons, Option.some.injEq, Obj.mk.injEq, and_true, true_and]
          push_cast
          omega
        · rw [key ox (by rw [List.getElem?_set, if_neg hxr]; exact hox)]
          simp only [List.length_cons, Option.some.injEq, Obj.mk.injEq, and_true, true_and]
          push_cast
          omega

/-- The loop over the immersed shapes, when the guard lets them pass. -/
theorem retagImmersed_same (dim : Nat) (l : List Nat) (st : List Obj × Int) :
    l.foldlM (retagImmersed dim dim) st = l.foldlM setTag st := by
  have : retagImmersed dim dim = setTag := by
    funext st r
    simp [retagImmersed]
  rw [this]

theorem visited_congr {objs objs' : List Obj} (h : SameShape objs objs') (l : List Nat) :
    visited objs' l = visited objs l := by
  unfold visited
  congr 1
  funext r
  congr 2
  have : (objs'.map fun o => (o.dimension, o.immersed))[r]? =
      (objs.map fun o => (o.dimension, o.immersed))[r]? := by rw [h]
  rw [List.getElem?_map, List.getElem?_map] at this
  cases h1 : objs'[r]? <;> cases h2 : objs[r]? <;> rw [h1, h2] at this <;> simp at this ⊢
  exact this.2

theorem retagShapes_eq (dim : Nat) : ∀ (l : List Nat) (objs : List Obj) (t : Int),
    (∀ r ∈ l, ∃ o, objs[r]? = some o ∧ o.dimension = dim) →
    (∀ (r : Nat) (o : Obj), objs[r]? = some o → ∀ i ∈ o.immersed, i < objs.length) →
    l.foldlM (retagShape dim) (objs, t) = (visited objs l).foldlM setTag (objs, t)
  | [], objs, t, _, _ => rfl
  | r :: l, objs, t, h, hi => by
    obtain ⟨o, ho, hd⟩ := h r (by simp)
    have hr := (List.getElem?_eq_some_iff.1 ho).1
    have hv : visited objs (r :: l) = (r :: o.immersed) ++ visited objs l := by
      simp [visited, ho]
    have hs := sameShape_set ho t
    obtain ⟨objs', h1, h2, -⟩ := setTags_spec o.immersed (objs.set r { o with tag := t }) (t + 1)
      fun x hx => by rw [hs.length]; exact hi r o ho x hx
    have h3 := hs.trans h2
    have ih := retagShapes_eq dim l objs' (t + 1 + o.immersed.length)
      (fun x hx => by
        obtain ⟨ox, g1, g2⟩ := h x (List.mem_cons_of_mem _ hx)
        obtain ⟨ox', g3, g4, -⟩ := h3.symm.get g1
        exact ⟨ox', g3, g4.trans g2⟩)
      (fun x ox hox i hii => by
        obtain ⟨ox', g1, -, g2⟩ := h3.get hox
        rw [h3.length]
        exact hi x ox' g1 i (by rw [g2]; exact hii))
    rw [visited_congr h3] at ih
    simp only [hd] at h1
    rw [hv, List.foldlM_append, List.foldlM_cons, List.foldlM_cons, setTag_ok ho]
    simp only [retagShape, getIdx, ho, Res.bind_ok, setTag_ok ho, hd, retagImmersed_same, h1, ih]

end Verif.Topology
