/-
Specification for C118: a separate quadrilateral in a domain.
-/
import Verif.Model.Planes
import Verif.Spec.DomainMarket

namespace Verif.Topology
open Shape
variable {P : Type}

/-- The coordinates of points, one after the other. -/
def coordinates {α : Type} (points : List (α × α × α)) : List α := points.flatMap fun p => [p.1, p.2.1, p.2.2]

/-- The shapes of the quadrilateral with the corners `a`, `b`, `c`, `d`: four corners, four sides between successive
corners, the loop of the sides with the first corner as its boundary, and the surface bounded by the loop. -/
structure Quad (close : P → P → Bool) (v e f : Int) (tag : Option Int) (a b c d : P)
    (corners sides : List (Shape P)) (wire face : Shape P) : Prop where
  cornersEq : corners = [.vertex v none a, .vertex (v + 1) none b, .vertex (v + 2) none c, .vertex (v + 3) none d]
  sidesEq : sides = [
    .composed .edge e none [.vertex v none a, .vertex (v + 1) none b] [],
    .composed .edge (e + 1) none [.vertex (v + 1) none b, .vertex (v + 2) none c] [],
    .composed .edge (e + 2) none [.vertex (v + 2) none c, .vertex (v + 3) none d] [],
    .composed .edge (e + 3) none [.vertex v none a, .vertex (v + 3) none d] []]
  loop : ClosedLoop close sides corners
  wireEq : wire = .composed .wire (e + 4) none [.vertex v none a] sides
  faceEq : face = .composed .face f tag [wire] []

/-- All tags of the shapes of one dimension are different. -/
def TagsDiffer (shapes : List (Shape P)) : Prop := (shapes.map tag).Nodup

end Verif.Topology
