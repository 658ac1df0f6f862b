/-
Model of `shape_assignment` for all classes of shapes (shape.py:182-196, vertex.py:29-31), and of the
orientation that a wire keeps (wire.py:44-57).

Simplifications: those of Verif.Model.Shape; the result is the object after the call, an object that a
failed call has changed halfway is not represented.
-/
import Verif.Model.Shape

namespace Verif.Topology.Shape
variable {P : Type}

mutual
/-- The getter `immersed_shapes` (shape.py:92-94, wire.py:20-29) of one object, whose shapes are not looked
through further. -/
def shown : Shape P → List (Shape P)
  | vertex .. => []
  | composed k _ _ _ i => if k = .wire then shownAll i else i
def shownAll : List (Shape P) → List (Shape P)
  | [] => []
  | s :: ss => (if shown s = [] then [s] else shown s) ++ shownAll ss
end

/-- shape.py:182-196, vertex.py:29-31: `self` after `self.shape_assignment(other)`.  The setter of the
dimension (shape.py:60-62) does nothing. -/
def assign (argsort : List Int → List Nat) (self other : Shape P) : Res (Shape P) :=
  if self.dimension ≠ other.dimension then .error .valueError
  else if self.composite ≠ other.composite then .error .valueError
  else match self, other with
    | vertex .., vertex t p x => .ok (vertex t p x)
    | vertex .., composed .. => .error .attributeError
    | composed .., vertex .. => .error .attributeError
    | composed k .., composed k' t p b i => do
      let b' ← setBoundary argsort k b
      let i' ← setImmersed k (shown (composed k' t p b i))
      pure (composed k t p b' i')

/-- A wire with the orientation that its constructor has stored. -/
structure Oriented (P : Type) where
  wire : Shape P
  orientation : List Int

/-- wire.py:7-13 `Wire(tag, edges, vertices)` -/
def newWire (argsort : List Int → List Nat) (close : P → P → Bool) (tag : Int) (edges vertices : List (Shape P)) :
    Res (Oriented P) := do
  let w ← mkComposite argsort .wire tag edges vertices
  let o ← orientEdges close w.view.immersed
  pure ⟨w, o⟩

/-- `shape_assignment` of a wire: the orientation is not among the attributes that are copied. -/
def Oriented.assign (argsort : List Int → List Nat) (self other : Oriented P) : Res (Oriented P) := do
  let w ← Shape.assign argsort self.wire other.wire
  pure ⟨w, self.orientation⟩

/-- wire.py:75-89 `boundary_points` -/
def Oriented.boundaryPoints (w : Oriented P) : Res (P × P) := wireBoundaryPoints w.wire.view.immersed w.orientation

end Verif.Topology.Shape
