/-
C163: the example that draws the wires of a box.
-/
import Verif.Model.ShapesPlotter

namespace Verif.ShapesPlotter
open Verif.Topology Verif.Topology.Shape

/-- The tags of the vertices of the wires -/
def loops : List (List Int) := [[0, 1, 2, 3], [4, 5, 6, 7], [0, 1, 5, 4], [1, 2, 6, 5], [2, 3, 7, 6], [0, 3, 7, 4]]

/-- C163.  The shapes on the boundary of the shell are the six wires, and the sequences are their vertices in order. -/
theorem C163_sequences : ((sequences Shape.boundary).toOption.map fun s => s.map fun l => l.map Shape.tag) = some loops := by
  decide +kernel

/-- C163.  The vertices drawn are those of the box. -/
theorem C163_points : ((sequences Shape.boundary).toOption.map fun s => s.map fun l => l.map fun v => (pointOf v).toOption) =
    some (loops.map fun l => l.map fun t => boxPoints[t.toNat]?) := by
  decide +kernel

/-- C163.  The immersed shapes of the shell are its faces, for which there are no such sequences. -/
theorem C163_faces : sequences Shape.immersed = .error .attributeError := by
  have h : (match sequences Shape.immersed with | .ok _ => none | .error e => some e) = some Err.attributeError := by
    decide +kernel
  cases hs : sequences Shape.immersed with
  | ok s => rw [hs] at h; cases h
  | error e => rw [hs] at h; cases h; rfl

theorem fst_zip_tail {α : Type} : ∀ (a : α) (as : List α), ((a :: as).zip as).map (·.1) = (a :: as).dropLast
  | _, [] => rfl
  | a, b :: bs => by
    rw [List.zip_cons_cons, List.map_cons, fst_zip_tail b bs, List.dropLast_cons_cons]

/-- C163.  A closed sequence has as many strokes as vertices: one begins and one ends in each. -/
theorem C163_closed {α : Type} {l : List α} (h : 2 < l.length) :
    ((strokes true l).map (·.1)) = l ∧ ((strokes true l).map (·.2)).Perm l := by
  match l, h with
  | a :: as, h =>
    have hl : ((a :: as).getLast?.toList) = [(a :: as).getLast (by simp)] := by
      rw [List.getLast?_eq_getLast_of_ne_nil (by simp)]; rfl
    unfold strokes
    rw [if_pos ⟨rfl, h⟩, hl]
    simp only [List.tail_cons, List.head?_cons, Option.toList_some, List.map_append]
    have hz : (List.zip [(a :: as).getLast (by simp)] [a]) = [((a :: as).getLast (by simp), a)] := rfl
    rw [hz]
    constructor
    · rw [fst_zip_tail]
      exact List.dropLast_append_getLast _
    · have : ((a :: as).zip as).map (·.2) = as := List.map_snd_zip (by simp)
      rw [this]
      exact List.perm_append_singleton a as

/-- C163.  A sequence of two vertices is not closed, and an open one has a stroke less. -/
theorem C163_open {α : Type} (l : List α) : strokes false l = l.zip l.tail ∧ (l.length ≤ 2 → strokes true l = l.zip l.tail) := by
  unfold strokes
  refine ⟨by simp, fun h => ?_⟩
  rw [if_neg (by omega), List.append_nil]

/-- C163.  The strokes are the twelve edges of the box, each drawn twice. -/
theorem C163_edges : ((loops.flatMap (strokes true)).map fun p => [min p.1 p.2, max p.1 p.2]).Perm
    ((boxEdges ++ boxEdges).map fun e => (e.map fun i => (i : Int)).insertionSort (· ≤ ·)) := by
  decide +kernel

#print axioms C163_sequences

#print axioms C163_points
#print axioms C163_faces
#print axioms C163_closed
#print axioms C163_open
#print axioms C163_edges

end Verif.ShapesPlotter
