/-
Model of src/topology/shape.py, vertex.py, edge.py, wire.py, face.py, shell.py, solid.py and
composite_solid.py.

Shapes are trees: two references to one Python object are two equal subtrees here (mutation
through shared references is modelled separately, in Model/Retag.lean).  Vertices have no boundary
or immersed shapes: no constructor gives them any.  The flag `active` is never read and is left out.
-/
import Verif.Prelude
import Mathlib.Data.Rat.Defs
import Mathlib.Algebra.Order.Ring.Rat

namespace Verif.Topology

/-- The classes of shapes other than `Vertex`. -/
inductive Kind where
  | edge | wire | face | shell | solid | compositeSolid
  deriving DecidableEq, Repr

/-- `dimension` (shape.py:58-60, set in the constructors). -/
def Kind.dimension : Kind → Nat
  | .edge | .wire => 1
  | .face | .shell => 2
  | .solid | .compositeSolid => 3

/-- `composite` (shape.py:66-68). -/
def Kind.composite : Kind → Bool
  | .edge | .face | .solid => false
  | .wire | .shell | .compositeSolid => true

/-- `admissible_dimensions` -/
def Kind.admissible : Kind → List Nat
  | .edge | .wire => [0, 1]
  | .face | .shell => [0, 1, 2]
  | .solid | .compositeSolid => [0, 1, 2, 3]

/-- A shape over points of type `P`. -/
inductive Shape (P : Type) where
  | vertex (tag : Int) (physical : Option Int) (point : P)
  | composed (kind : Kind) (tag : Int) (physical : Option Int) (boundary immersed : List (Shape P))

namespace Shape
variable {P : Type}

def dimension : Shape P → Nat
  | vertex .. => 0
  | composed k .. => k.dimension

def tag : Shape P → Int
  | vertex t .. => t
  | composed _ t .. => t

def physicalTag : Shape P → Option Int
  | vertex _ p _ => p
  | composed _ _ p .. => p

def composite : Shape P → Bool
  | vertex .. => false
  | composed k .. => k.composite

/-- `boundary_shapes` -/
def boundary : Shape P → List (Shape P)
  | vertex .. => []
  | composed _ _ _ b _ => b

/-- `_immersed_shapes`, and `immersed_shapes` for every class except `Wire`. -/
def immersed : Shape P → List (Shape P)
  | vertex .. => []
  | composed _ _ _ _ i => i

/-- wire.py:20-29: every immersed shape that has immersed shapes itself is replaced by them. -/
def expand (shapes : List (Shape P)) : List (Shape P) :=
  shapes.flatMap fun s => if s.immersed = [] then [s] else s.immersed

mutual
/-- The shape as its getters show it: `Wire.immersed_shapes` (wire.py:20-29) is applied to every
wire in the tree.  All functions below read shapes through their getters, so they are applied to
`view`. -/
def view : Shape P → Shape P
  | vertex t p x => vertex t p x
  | composed k t p b i =>
    composed k t p (viewAll b) (if k = .wire then expand (viewAll i) else viewAll i)
def viewAll : List (Shape P) → List (Shape P)
  | [] => []
  | s :: ss => view s :: viewAll ss
end

/-- `(dimension, tag)` -/
def identity (s : Shape P) : Nat × Int := (s.dimension, s.tag)

/-- shape.py:117-118 `index` -/
def index (maxDimension : Nat) (s : Shape P) : Int × Int := (maxDimension - s.dimension, s.tag)

mutual
/-- shape.py:120-161 `Shape.__eq__` and vertex.py:16-19 `Vertex.__eq__`; Python calls the method
of the left operand.  `close` is `np.all(np.isclose(·, ·))`.  The comparison of the immersed
shapes is stored in `equality_by_boundary_shapes` (shape.py:144) and replaces the comparison of
the boundary shapes.  A vertex on the left reads `other.point`. -/
def eq (close : P → P → Bool) : Shape P → Shape P → Res Bool
  | vertex t _ x, vertex t' _ x' => .ok (t == t' && close x x')
  | vertex .., composed .. => .error .attributeError
  | composed k t _ b i, other => do
    let byBoundary ←
      (if b.length != 0 && b.length == other.boundary.length then eqAll close b other.boundary
      else pure true)
    let byBoundary ←
      (if i.length != 0 && i.length == other.immersed.length then eqAll close i other.immersed
      else pure byBoundary)
    pure (k.dimension == other.dimension && t == other.tag && b.length == other.boundary.length
      && i.length == other.immersed.length && byBoundary)
/-- `np.all(np.array([shape == other_shape for shape, other_shape in zip(…)]))` -/
def eqAll (close : P → P → Bool) : List (Shape P) → List (Shape P) → Res Bool
  | a :: as, b :: bs => do
    let x ← eq close a b
    let y ← eqAll close as bs
    pure (x && y)
  | _, _ => pure true
end

/-- `a == b` -/
def equal (close : P → P → Bool) (a b : Shape P) : Res Bool := eq close a.view b.view

/-- shape.py:168-183: one of the two tests of `__contains__`. -/
def containsIn (close : P → P → Bool) (other : Shape P) (shapes : List (Shape P)) : Res Bool :=
  if other.identity ∈ shapes.map identity then do
    let rec count : List (Shape P) → Res Nat
      | [] => pure 0
      | s :: ss => do
        let x ← eq close s other
        let n ← count ss
        pure (if x then n + 1 else n)
    let n ← count shapes
    pure (n == 1)
  else pure false

/-- shape.py:166-183 `__contains__` -/
def contains (close : P → P → Bool) (self other : Shape P) : Res Bool := do
  let b ← containsIn close other.view self.view.boundary
  let i ← containsIn close other.view self.view.immersed
  pure (b || i)

/-- shape.py:71-90: the `boundary_shapes` setter of a shape that is not a vertex.  `argsort` is
numpy's, whose default is not stable. -/
def setBoundary (argsort : List Int → List Nat) (k : Kind) (shapes : List (Shape P)) :
    Res (List (Shape P)) := do
  let sorted := (argsort (shapes.map tag)).filterMap fun i => shapes[i]?
  if sorted.all fun s => s.dimension ∈ k.admissible then pure sorted else .error .valueError

/-- shape.py:97-108 (wire.py:31-42): the `immersed_shapes` setter. -/
def setImmersed (k : Kind) (shapes : List (Shape P)) : Res (List (Shape P)) :=
  if shapes.all fun s => s.dimension ∈ k.admissible then pure shapes else .error .valueError

/-- edge.py:7-11, face.py:5-9, solid.py:5-9: the constructors `Edge`, `Face` and `Solid`. -/
def mkSimple (argsort : List Int → List Nat) (k : Kind) (tag : Int) (boundary : List (Shape P)) :
    Res (Shape P) := do
  let b ← setBoundary argsort k boundary
  pure (composed k tag none b [])

/-- shell.py:5-11, composite_solid.py:5-11, and wire.py:7-13 without the orientation: the
constructors `Shell`, `CompositeSolid` and `Wire`. -/
def mkComposite (argsort : List Int → List Nat) (k : Kind) (tag : Int)
    (immersed boundary : List (Shape P)) : Res (Shape P) := do
  let i ← setImmersed k immersed
  let b ← setBoundary argsort k boundary
  pure (composed k tag none b i)

/-! ### Wires -/

/-- `edge.boundary_shapes[i]` -/
def endPoint (e : Shape P) (i : Nat) : Res (Shape P) := getIdx e.boundary i

/-- wire.py:44-47 (and 60-63): the vertex at which the traversal starts. -/
def seedVertex (edges : List (Shape P)) : Res (Shape P) := do
  let e ← getIdx edges 0
  let v ← endPoint e 0
  let w ← endPoint e 1
  pure (if v.tag > w.tag then w else v)

/-- wire.py:50-56: the signs of the edges. -/
def orientFrom (close : P → P → Bool) : Shape P → List (Shape P) → Res (List Int)
  | _, [] => pure []
  | seed, e :: es => do
    let v ← endPoint e 0
    let same ← eq close seed v
    if same then do
      let next ← endPoint e 1
      let os ← orientFrom close next es
      pure (1 :: os)
    else do
      let next ← endPoint e 0
      let os ← orientFrom close next es
      pure (-1 :: os)

/-- wire.py:44-57 `orient_immersed_edges`, applied to `immersed_shapes`. -/
def orientEdges (close : P → P → Bool) (edges : List (Shape P)) : Res (List Int) := do
  let seed ← seedVertex edges
  orientFrom close seed edges

/-- wire.py:66-72: the vertices met on the way. -/
def verticesFrom (close : P → P → Bool) : Shape P → List (Shape P) → Res (List (Shape P))
  | _, [] => pure []
  | seed, e :: es => do
    let v ← endPoint e 0
    let same ← eq close seed v
    let w ← endPoint e 1
    if same then do
      let vs ← verticesFrom close w es
      pure (v :: vs)
    else do
      let vs ← verticesFrom close v es
      pure (w :: vs)

/-- wire.py:59-73 `orient_immersed_vertices` -/
def orientVertices (close : P → P → Bool) (edges : List (Shape P)) : Res (List (Shape P)) := do
  let seed ← seedVertex edges
  verticesFrom close seed edges

/-- `v.point` -/
def pointOf : Shape P → Res P
  | vertex _ _ x => .ok x
  | composed .. => .error .attributeError

/-- wire.py:75-89 `boundary_points`, with the orientation stored by the constructor. -/
def wireBoundaryPoints (edges : List (Shape P)) (orientation : List Int) : Res (P × P) := do
  let first ← getIdx edges 0
  let last ← getIdx edges (edges.length - 1)
  let o ← getIdx orientation 0
  let o' ← getIdx orientation (orientation.length - 1)
  let v ← endPoint first (if 0 < o then 0 else 1)
  let w ← endPoint last (if 0 < o' then 1 else 0)
  let x ← pointOf v
  let y ← pointOf w
  pure (x, y)

end Shape

/-- `np.isclose(x, y)` with its default tolerances, on finite numbers. -/
def isclose (x y : ℚ) : Bool := |x - y| ≤ 1 / 10 ^ 8 + 1 / 10 ^ 5 * |y|

/-- `np.all(np.isclose(x, y))` on points. -/
def closePoints (x y : Fin 3 → ℚ) : Bool := isclose (x 0) (y 0) && isclose (x 1) (y 1) && isclose (x 2) (y 2)

end Verif.Topology
