/-
Helper lemmas for C114.
-/
import Verif.Spec.Manipulation
import Verif.Lemmas.Prelude
import Mathlib.Tactic.Positivity

namespace Verif.Manip
open MeshBuild MeshGraph Trace MeshMetrics Geometry VertexOps
open scoped Classical

theorem close_refl {r a : ℝ} (hr : 0 ≤ r) (ha : 0 ≤ a) (x : Pt ℝ) : Close r a x x := by
  intro k
  unfold IsClose
  rw [sub_self, abs_zero]
  positivity

theorem tol_nonneg : 0 ≤ collapseTol := by
  unfold collapseTol
  positivity

theorem strong_refl (v : Vtx) : StrongEquality v v :=
  ⟨⟨rfl, close_refl (by positivity) (by positivity) _⟩, close_refl tol_nonneg tol_nonneg _⟩

theorem firstOf_spec (test : Vtx → Prop) (t : Int) (a b : Vtx) (l : List Vtx) :
    firstOf test ⟨t, a :: b :: l⟩ = .ok (if test a then some 0 else if test b then some 1 else none) := by
  unfold firstOf
  show (if test a then (pure (some 0) : Res (Option Nat)) else do
    let b ← (.ok b : Res Vtx)
    if test b then return some 1
    return none) = _
  by_cases h : test a
  · rw [if_pos h, if_pos h]
    rfl
  · rw [if_neg h, if_neg h]
    show (if test b then (pure (some 1) : Res (Option Nat)) else pure none) = _
    by_cases h : test b
    · rw [if_pos h, if_pos h]
      rfl
    · rw [if_neg h, if_neg h]
      rfl

theorem onWire_spec (x y : Pt ℝ) (es : List BEdge) (h : ∀ e ∈ es, 2 ≤ e.ends.length) :
    onWire x y es = .ok (es.find? fun e => decide (Joins x y e)) := by
  induction es with
  | nil => rfl
  | cons e es ih =>
    obtain ⟨t, ends⟩ := e
    have hl := h _ List.mem_cons_self
    match ends, hl with
    | a :: b :: l, _ =>
      have hj : Joins x y ⟨t, a :: b :: l⟩ ↔ ((DefaultClose a.point x ∧ DefaultClose b.point y) ∨
          DefaultClose b.point x ∧ DefaultClose a.point y) := by
        constructor
        · rintro ⟨a', b', l', e, h⟩
          simp only [List.cons.injEq] at e
          obtain ⟨rfl, rfl, rfl⟩ := e
          exact h
        · intro h
          exact ⟨a, b, l, rfl, h⟩
      show (if DefaultClose a.point x ∧ DefaultClose b.point y then (pure (some _) : Res (Option BEdge))
        else if DefaultClose b.point x ∧ DefaultClose a.point y then pure (some _) else onWire x y es) = _
      rw [ih fun e he => h e (List.mem_cons_of_mem _ he), List.find?_cons]
      by_cases h1 : DefaultClose a.point x ∧ DefaultClose b.point y
      · rw [if_pos h1, decide_eq_true (hj.2 (.inl h1))]
        rfl
      · by_cases h2 : DefaultClose b.point x ∧ DefaultClose a.point y
        · rw [if_neg h1, if_pos h2, decide_eq_true (hj.2 (.inr h2))]
          rfl
        · have : ¬ Joins x y ⟨t, a :: b :: l⟩ := fun g => (hj.1 g).elim h1 h2
          rw [if_neg h1, if_neg h2, decide_eq_false this]

end Verif.Manip
