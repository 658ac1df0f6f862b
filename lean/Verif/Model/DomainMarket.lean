/-
Model of the box domains of src/topology/domain_market.py:38-169.

The points are an array of rows; nothing but their number is looked at.  The physical tags are a
dictionary from labels to numbers; entries that are explicitly `None` are not modelled apart from
missing ones, which `get(label, None)` does not tell apart.  The graph stored by `build_grahp` is
`Domain.buildGraph` and is left to C43.
-/
import Verif.Model.Domain
import Verif.Model.MeshGraph

namespace Verif.Topology
open Shape MeshGraph
variable {P : Type}

/-- `shape.physical_tag = tag` -/
def Shape.tagged (tag : Option Int) : Shape P → Shape P
  | vertex t _ x => vertex t tag x
  | composed k t _ b i => composed k t tag b i

/-- `np.array([Vertex(tag, point) for tag, point in enumerate(box_points)])` -/
def newVertices (points : List P) : List (Shape P) :=
  points.zipIdx.map fun p => .vertex p.2 none p.1

/-- `shapes[indices]`: numpy indexing with a list of positions. -/
def pick (shapes : List (Shape P)) (indices : List Nat) : Res (List (Shape P)) :=
  mapRes (getIdx shapes) indices

/-- `domain.shapes[k][indices]` -/
def Domain.pick (d : Domain P) (k : Nat) (indices : List Nat) : Res (List (Shape P)) := do
  let l ← getIdx d.shapes k
  Topology.pick l indices

/-- wire.py:7-13: the constructor of `Wire`, which raises where the orientation does. -/
def mkWire (close : P → P → Bool) (argsort : List Int → List Nat) (tag : Int)
    (edges vertices : List (Shape P)) : Res (Shape P) := do
  let w ← mkComposite argsort .wire tag edges vertices
  let _ ← orientEdges close w.view.immersed
  pure w

/-- The attribute `orientation` of a wire, set by the constructor. -/
def storedOrientation (close : P → P → Bool) (w : Shape P) : List Int :=
  match orientEdges close w.view.immersed with
  | .ok signs => signs
  | .error _ => []

/-- domain_market.py:39-40 -/
def defaultTags1 : Dict String Int := [("line", 1), ("bc_0", 2), ("bc_1", 3)]

/-- domain_market.py:38-55 `build_box_1D` -/
def buildBox1D (argsort : List Int → List Nat) (points : List P)
    (physicalTags : Option (Dict String Int)) : Res (Domain P) := do
  let tags := physicalTags.getD defaultTags1
  let d ← (Domain.new 1).append (newVertices points)
  let vertices ← getIdx d.shapes 0
  let v ← getIdx vertices 0
  let vertices := vertices.set 0 (v.tagged (tags.get? "bc_0"))
  let w ← getIdx vertices 1
  let vertices := vertices.set 1 (w.tagged (tags.get? "bc_1"))
  let d : Domain P := { d with shapes := d.shapes.set 0 vertices }
  let ends ← d.pick 0 [0, 1]
  let e ← mkSimple argsort .edge 0 ends
  d.append [e.tagged (tags.get? "line")]

/-- domain_market.py:59-60 -/
def defaultTags2 : Dict String Int :=
  [("area", 1), ("bc_0", 2), ("bc_1", 3), ("bc_2", 4), ("bc_3", 5)]

/-- domain_market.py:66-70: the pairs of consecutive positions of the loop. -/
def loopPairs : List Nat → List (List Nat)
  | i :: j :: rest => [i, j] :: loopPairs (j :: rest)
  | _ => []

/-- `"bc_" + str(bc_id)` -/
def bcLabel (i : Nat) : String := "bc_" ++ toString i

/-- domain_market.py:75-80: the edges of the polygon, from the position `i` on. -/
def polygonEdges (argsort : List Int → List Nat) (tags : Dict String Int)
    (vertices : List (Shape P)) : Nat → List (List Nat) → Res (List (Shape P))
  | _, [] => pure []
  | i, con :: cons => do
    let ends ← pick vertices con
    let e ← mkSimple argsort .edge i ends
    let es ← polygonEdges argsort tags vertices (i + 1) cons
    pure (e.tagged (tags.get? (bcLabel i)) :: es)

/-- domain_market.py:58-91 `build_box_2D` -/
def buildBox2D (close : P → P → Bool) (argsort : List Int → List Nat) (points : List P)
    (physicalTags : Option (Dict String Int)) : Res (Domain P) := do
  let tags := physicalTags.getD defaultTags2
  let d ← (Domain.new 2).append (newVertices points)
  let loop := List.range points.length
  let first ← getIdx loop 0
  let loop := loop ++ [first]
  let vertices ← getIdx d.shapes 0
  let edges ← polygonEdges argsort tags vertices 0 (loopPairs loop)
  let d : Domain P := { d with shapes := d.shapes.set 1 edges }
  let last ← getIdx loop (loop.length - 1)
  let ends ← pick vertices [first, last]
  let w ← mkWire close argsort edges.length edges ends
  let d ← d.append [w]
  let f ← mkSimple argsort .face 0 [w]
  d.append [f.tagged (tags.get? "area")]

/-- domain_market.py:95-103 -/
def defaultTags3 : Dict String Int :=
  [("solid", 1), ("bc_0", 2), ("bc_1", 3), ("bc_2", 4), ("bc_3", 5), ("bc_4", 6), ("bc_5", 7)]

/-- domain_market.py:110-123 -/
def boxEdges : List (List Nat) :=
  [[0, 1], [1, 2], [2, 3], [3, 0], [4, 5], [5, 6], [6, 7], [7, 4], [0, 4], [1, 5], [2, 6], [3, 7]]

/-- domain_market.py:129-145: the positions of the edges and of the boundary vertex of each
wire. -/
def boxWires : List (List Nat × Nat) :=
  [([0, 1, 2, 3], 0), ([4, 5, 6, 7], 4), ([0, 9, 4, 8], 0), ([1, 10, 5, 9], 1),
    ([2, 11, 6, 10], 2), ([3, 11, 7, 8], 3)]

/-- domain_market.py:124-126 -/
def appendEdges (argsort : List Int → List Nat) : Domain P → Nat → List (List Nat) → Res (Domain P)
  | d, _, [] => pure d
  | d, tag, con :: cons => do
    let ends ← d.pick 0 con
    let e ← mkSimple argsort .edge tag ends
    let d ← d.append [e]
    appendEdges argsort d (tag + 1) cons

/-- domain_market.py:129-145 -/
def newWires (close : P → P → Bool) (argsort : List Int → List Nat) (d : Domain P) :
    Nat → List (List Nat × Nat) → Res (List (Shape P))
  | _, [] => pure []
  | tag, c :: cs => do
    let edges ← d.pick 1 c.1
    let ends ← d.pick 0 [c.2]
    let w ← mkWire close argsort tag edges ends
    let ws ← newWires close argsort d (tag + 1) cs
    pure (w :: ws)

/-- domain_market.py:150-155 -/
def appendFaces (argsort : List Int → List Nat) (tags : Dict String Int) :
    Domain P → Nat → List (String × Shape P) → Res (Domain P)
  | d, _, [] => pure d
  | d, tag, (label, wire) :: rest => do
    let f ← mkSimple argsort .face tag [wire]
    let d ← d.append [f.tagged (tags.get? label)]
    appendFaces argsort tags d (tag + 1) rest

/-- domain_market.py:94-169 `build_box_3D` -/
def buildBox3D (close : P → P → Bool) (argsort : List Int → List Nat) (points : List P)
    (physicalTags : Option (Dict String Int)) : Res (Domain P) := do
  let tags := physicalTags.getD defaultTags3
  let d ← (Domain.new 3).append (newVertices points)
  let d ← appendEdges argsort d 0 boxEdges
  let wires ← newWires close argsort d 12 boxWires
  let d ← d.append wires
  let labels := ["bc_0", "bc_1", "bc_2", "bc_3", "bc_4", "bc_5"]
  let d ← appendFaces argsort tags d 18 (labels.zip wires)
  let faces ← getIdx d.shapes 2
  let shell ← mkComposite argsort .shell 24 faces wires
  let d ← d.append [shell]
  let solid ← mkSimple argsort .solid 25 [shell]
  d.append [solid.tagged (tags.get? "solid")]

end Verif.Topology
