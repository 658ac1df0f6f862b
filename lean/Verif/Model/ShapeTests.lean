/-
Model of the repository's own tests of shapes (tests/test_topology/test_shapes.py).

A test is the list of the conditions that it asserts, in order.

Simplifications: the assertions on `hash`, which compare the hash of a pair with itself, and the first one on the
immersed shapes of vertices are left out; numpy's `argsort` of fewer than 17 entries is an insertion sort, which is
stable; an assignment gives a new object, the shapes that hold the old one are not changed by it (the test reads
such shapes only through their tags, see the comments).
-/
import Mathlib.Data.List.Sort
import Mathlib.Data.Fin.VecNotation
import Verif.Model.ShapeAssignment

namespace Verif.ShapeTests
open Verif.Topology Verif.Topology.Shape

/-- The positions sorted by value, equal values in their order. -/
def argsort (l : List Int) : List Nat :=
  (List.range l.length).insertionSort fun i j => l.getD i 0 ≤ l.getD j 0

abbrev S := Shape (Fin 3 → ℚ)

def vtx (t : Int) (x y z : ℚ) : S := .vertex t none ![x, y, z]
def edge (t : Int) (b : List S) : Res S := mkSimple argsort .edge t b
def face (t : Int) (b : List S) : Res S := mkSimple argsort .face t b
def solid (t : Int) (b : List S) : Res S := mkSimple argsort .solid t b
def wire (t : Int) (i b : List S) : Res (Oriented (Fin 3 → ℚ)) := newWire argsort closePoints t i b
def shell (t : Int) (i b : List S) : Res S := mkComposite argsort .shell t i b
def compositeSolid (t : Int) (i b : List S) : Res S := mkComposite argsort .compositeSolid t i b

/-- `a == b`, `a != b`, `b in a` and `b not in a` -/
def same (a b : S) : Res Bool := equal closePoints a b
def differ (a b : S) : Res Bool := do
  let r ← same a b
  pure !r
def holds (b a : S) : Res Bool := contains closePoints a b
def lacks (b a : S) : Res Bool := do
  let r ← holds b a
  pure !r

/-- `edge.immersed_shapes = shapes` -/
def embed (s : S) (shapes : List S) : Res S :=
  match s with
  | .vertex .. => .error .attributeError
  | .composed k t p b _ => do
    let i ← setImmersed k shapes
    pure (.composed k t p b i)

/-- test_shapes.py:78-104 `test_vertex`; the vertices with immersed shapes are given by those. -/
def testVertex : Res (List Bool) := do
  let v0 := vtx 0 0 0 0
  let v1 := vtx 1 0 0 0
  let v2 := vtx 2 (1 / 2) 0 0
  let a ← same v0 v0
  let b ← differ v0 v1
  let c ← differ v2 v0
  let d ← containsIn closePoints v2 [v2]
  pure [v0.dimension == 0, v1.dimension == 0, v2.dimension == 0, !v0.composite, !v1.composite, !v2.composite,
    a, b, c, d, d]

/-- test_shapes.py:107-135 `test_edge` -/
def testEdge : Res (List Bool) := do
  let v0 := vtx 0 0 0 0
  let v1 := vtx 1 (1 / 2) (1 / 2) (1 / 2)
  let v2 := vtx 2 1 1 1
  let e0 ← edge 0 [v0, v1]
  let e1 ← edge 1 [v1, v2]
  let e2 ← edge 2 [v0, v2]
  let e2' ← embed e2 [e0, e1]
  let a ← same e0 e0
  let b ← differ e0 e1
  let c ← differ e2' e0
  let d ← holds e0 e2'
  let e ← holds e1 e2'
  pure [e0.dimension == 1, e1.dimension == 1, e2.dimension == 1, !e0.composite, !e1.composite, !e2.composite,
    a, b, c, d, e]

/-- The vertices and edges of `test_wire`, `test_face` and `test_shape_assignment`. -/
def square : Res (List S × List S) := do
  let v0 := vtx 0 0 0 0
  let v1 := vtx 1 1 0 0
  let v2 := vtx 2 1 1 1
  let v3 := vtx 3 0 1 1
  let e0 ← edge 0 [v0, v1]
  let e1 ← edge 1 [v1, v2]
  let e2 ← edge 2 [v2, v3]
  let e3 ← edge 3 [v3, v0]
  pure ([v0, v1, v2, v3], [e0, e1, e2, e3])

/-- `shapes[positions]` -/
def pick (shapes : List S) (positions : List Nat) : Res (List S) := positions.mapM fun i => getIdx shapes i

/-- test_shapes.py:138-178 `test_wire` -/
def testWire : Res (List Bool) := do
  let (vs, es) ← square
  let v0 ← pick vs [0]
  let v1 ← pick vs [1]
  let es' ← pick es [1, 2, 3, 0]
  let w0 ← wire 0 es v0
  let w1 ← wire 0 es' v1
  let w2 ← wire 1 es v0
  let a ← same w0.wire w0.wire
  let b ← differ w0.wire w1.wire
  let c ← differ w2.wire w0.wire
  let d ← (v0 ++ es).mapM fun x => holds x w0.wire
  pure ([w0.wire.dimension == 1, w1.wire.dimension == 1, w2.wire.dimension == 1, w0.wire.composite, w1.wire.composite,
    w2.wire.composite, w0.orientation == [1, 1, 1, -1], w1.orientation == [1, 1, -1, 1],
    w2.orientation == [1, 1, 1, -1], a, b, c] ++ d)

/-- test_shapes.py:181-218 `test_face` -/
def testFace : Res (List Bool) := do
  let (vs, es) ← square
  let v0 ← pick vs [0]
  let v1 ← pick vs [1]
  let es' ← pick es [1, 2, 3, 0]
  let w0 ← wire 0 es v0
  let w1 ← wire 0 es' v1
  let w2 ← wire 1 es v0
  let f0 ← face 0 [w0.wire]
  let f1 ← face 0 [w1.wire]
  let f2 ← face 1 [w2.wire]
  let a ← same f0 f0
  let b ← differ f0 f1
  let c ← differ f2 f0
  let d ← holds w0.wire f0
  let e ← lacks w1.wire f0
  pure [f0.dimension == 2, f1.dimension == 2, !f0.composite, !f1.composite, !f2.composite, a, b, c, d, e]

/-- test_shapes.py:221-261 `test_shell` -/
def testShell : Res (List Bool) := do
  let v0 := vtx 0 0 0 0
  let v1 := vtx 1 1 0 0
  let v2 := vtx 2 0 1 0
  let v3 := vtx 3 2 1 1
  let v4 := vtx 4 1 2 1
  let e0 ← edge 0 [v0, v1]
  let e1 ← edge 1 [v1, v2]
  let e2 ← edge 2 [v2, v0]
  let e3 ← edge 3 [v1, v2]
  let e4 ← edge 4 [v2, v4]
  let e5 ← edge 5 [v4, v3]
  let e6 ← edge 6 [v3, v1]
  let w0 ← wire 0 [e0, e1, e2] [v0]
  let w1 ← wire 1 [e3, e4, e5, e6] [v1]
  let f0 ← face 0 [w0.wire]
  let f1 ← face 1 [w1.wire]
  let s0 ← shell 0 [f0, f1] [w0.wire, w1.wire]
  let s1 ← shell 0 [f1, f0] [w1.wire, w0.wire]
  let a ← same s0 s0
  let b ← differ s0 s1
  let c ← [f0, f1, w0.wire, w1.wire].mapM fun x => holds x s0
  pure ([s0.dimension == 2, s0.composite, a, b] ++ c)

/-- test_shapes.py:14-75 `build_solid`, on the corners of the unit cube lifted by `z`. -/
def buildSolid (z : ℚ) : Res (S × S) := do
  let vs := [vtx 0 0 0 z, vtx 1 1 0 z, vtx 2 1 1 z, vtx 3 0 1 z, vtx 4 0 0 (z + 1), vtx 5 1 0 (z + 1),
    vtx 6 1 1 (z + 1), vtx 7 0 1 (z + 1)]
  let connectivities : List (Int × List Nat) := [(0, [0, 1]), (1, [1, 2]), (2, [2, 3]), (3, [3, 0]), (4, [4, 5]),
    (5, [5, 6]), (6, [6, 7]), (7, [7, 4]), (8, [0, 4]), (9, [1, 5]), (10, [2, 6]), (11, [3, 7])]
  let edges ← connectivities.mapM fun c => do
    let ends ← pick vs c.2
    edge c.1 ends
  let sides : List (Int × List Nat × Nat) := [(12, [0, 1, 2, 3], 0), (13, [4, 5, 6, 7], 4), (14, [0, 9, 4, 8], 0),
    (15, [1, 10, 5, 9], 1), (16, [2, 11, 6, 10], 2), (17, [3, 11, 7, 8], 3)]
  let wires ← sides.mapM fun s => do
    let es ← pick edges s.2.1
    let v ← pick vs [s.2.2]
    let w ← wire s.1 es v
    pure w.wire
  let faces ← (wires.zip [18, 19, 20, 21, 22, 23]).mapM fun w => face w.2 [w.1]
  let sh ← shell 24 faces wires
  let so ← solid 25 [sh]
  pure (sh, so)

/-- test_shapes.py:264-290 `test_solid` -/
def testSolid : Res (List Bool) := do
  let (sh, so) ← buildSolid 0
  let a ← same so so
  let b ← holds sh so
  pure [so.dimension == 3, !so.composite, a, b]

/-- test_shapes.py:293-342 `test_commposite_solid` -/
def testCompositeSolid : Res (List Bool) := do
  let (shell0, solid0) ← buildSolid 0
  let (shell1, solid1) ← buildSolid 1
  let c0 ← compositeSolid 0 [solid0, solid1] [shell0, shell1]
  let c1 ← compositeSolid 0 [solid1, solid0] [shell1, shell0]
  let a ← same c0 c0
  let b ← differ c0 c1
  let c ← [solid0, solid1, shell0, shell1].mapM fun x => holds x c0
  pure ([c0.dimension == 3, c0.composite, a, b] ++ c)

/-- The two assertions on an assignment: different before, equal afterwards. -/
def around (a b : S) : Res (List Bool) := do
  let before ← differ a b
  let s ← assign argsort a b
  let after ← same s b
  pure [before, after]

/-- test_shapes.py:345-408 `test_shape_assignment`.  The edge `e0` holds the vertex `v0`, and the wires hold the
edge `e0`: these assignments change them, too, and the shapes that are compared differ in their tags anyway and are
assigned as they are. -/
def testShapeAssignment : Res (List Bool) := do
  let (vs, es) ← square
  let v0 ← getIdx vs 0
  let v1 ← getIdx vs 1
  let v ← around v0 v1
  let v0' ← assign argsort v0 v1
  let e0 ← edge 0 [v0', v1]
  let e1 ← getIdx es 1
  let e ← around e0 e1
  let e0' ← assign argsort e0 e1
  let e2 ← getIdx es 2
  let v2 ← getIdx vs 2
  let v3 ← getIdx vs 3
  let e3 := Shape.composed .edge 3 none [v0', v3] []
  let w0 := Shape.composed .wire 0 none [v0'] [e0', e1, e2, e3]
  let w1 := Shape.composed .wire 1 none [v1] [e1, e2, e3, e0']
  let w ← around w0 w1
  let (shell0, solid0) ← buildSolid 0
  let (shell1, solid1) ← buildSolid 1
  let sh ← around shell0 shell1
  let shell0' ← assign argsort shell0 shell1
  let solid0' := Shape.composed .solid 1 none [shell0'] []
  let so ← around solid0' solid1
  pure (v ++ e ++ w ++ sh ++ so)

end Verif.ShapeTests
