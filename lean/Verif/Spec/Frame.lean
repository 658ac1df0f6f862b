/-
Specification: motions of space (rotations, reflections, translations).
-/
import Verif.Spec.Geometry

namespace Verif.Geometry
open Trace

/-- A matrix with orthonormal columns and a shift. -/
structure Motion where
  mat : Fin 3 → Fin 3 → ℝ
  shift : Pt ℝ
  orth : ∀ i j, mat 0 i * mat 0 j + mat 1 i * mat 1 j + mat 2 i * mat 2 j = if i = j then 1 else 0

/-- the motion of directions -/
def Motion.turn (m : Motion) (u : Pt ℝ) : Pt ℝ := fun k => m.mat k 0 * u 0 + m.mat k 1 * u 1 + m.mat k 2 * u 2

/-- the motion of points -/
def Motion.move (m : Motion) (p : Pt ℝ) : Pt ℝ := m.turn p + m.shift

/-- The moved result of an intersection of lines. -/
def LineOut.map (g : Pt ℝ → Pt ℝ) : LineOut → LineOut
  | .none => .none
  | .points l => .points (l.map g)
  | .both l mask => .both (l.map g) mask

/-- Two results of an intersection with a triangle agree up to the function and the order of the points. -/
def Alike (g : Pt ℝ → Pt ℝ) : Res (Out (List (Pt ℝ))) → Res (Out (List (Pt ℝ))) → Prop
  | .ok .none, .ok .none => True
  | .ok .false, .ok .false => True
  | .ok (.array l), .ok (.array l') => ∀ y, y ∈ l' ↔ ∃ x ∈ l, g x = y
  | .error e, .error e' => e = e'
  | _, _ => False

/-- the shift along the coordinates -/
def shifting (t : Pt ℝ) : Motion := ⟨fun i j => if i = j then 1 else 0, t, by
  intro i j
  match i, j with
  | 0, 0 => simp
  | 0, 1 => simp
  | 0, 2 => simp
  | 1, 0 => simp
  | 1, 1 => simp
  | 1, 2 => simp
  | 2, 0 => simp
  | 2, 1 => simp
  | 2, 2 => simp⟩

end Verif.Geometry
