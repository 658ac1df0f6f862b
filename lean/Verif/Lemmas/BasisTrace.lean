/-
Helper lemmas for C92.
-/
import Verif.Spec.BasisTrace
import Verif.Lemmas.Trace

namespace Verif.BasisTrace
open MeshGraph Trace Dof

theorem places_range' (nc s n : Nat) : places nc (List.range' s n) = List.range' (s * nc) (n * nc) := by
  unfold places
  induction n generalizing s with
  | zero => simp
  | succ n ih =>
    rw [List.range'_succ, List.flatMap_cons, ih, Nat.succ_mul s, Nat.succ_mul n, Nat.add_comm (n * nc),
      List.range'_append_1]

theorem fancy_middle {α : Type} (A N B : List α) :
    fancy (A ++ N ++ B) (List.range' A.length N.length) = .ok N := by
  rw [fancy_iff, List.forall₂_iff_get]
  refine ⟨by simp, fun i h1 h2 => ?_⟩
  simp only [List.get_eq_getElem, List.getElem_range', List.append_assoc, one_mul]
  rw [List.getElem?_append_right (by omega), List.getElem?_append_left (by omega)]
  simp

theorem fancy_ok {α : Type} {l : List α} : ∀ {dofs : List Nat}, (∀ b ∈ dofs, b < l.length) →
    ∃ r, fancy l dofs = .ok r
  | [], _ => ⟨[], rfl⟩
  | b :: dofs, h => by
    obtain ⟨r, hr⟩ := fancy_ok (dofs := dofs) fun x hx => h x (List.mem_cons_of_mem _ hx)
    refine ⟨l[b]'(h b List.mem_cons_self) :: r, ?_⟩
    unfold fancy at hr ⊢
    rw [mapRes, getIdx_of (List.getElem?_eq_getElem (h b List.mem_cons_self)), hr]
    rfl

theorem perEntity_mul (ned : List (List Nat)) (nc d : Nat) :
    perEntity ned nc d = perEntity ned 1 d * nc := by
  unfold perEntity
  split <;> simp

theorem length_flatMap_const {α β : Type} {f : α → List β} {n : Nat} {l : List α}
    (h : ∀ x ∈ l, (f x).length = n) : (l.flatMap f).length = l.length * n := by
  induction l with
  | nil => simp
  | cons a l ih =>
    rw [List.flatMap_cons, List.length_append, ih fun x hx => h x (List.mem_cons_of_mem _ hx),
      h a List.mem_cons_self, List.length_cons]
    ring

end Verif.BasisTrace
