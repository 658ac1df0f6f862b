/-
Model of examples/degenerate_elliptic_scalar/domain_builder.py: domains with two regions for the
degenerate examples.

Simplifications as in Model/DomainMarket.lean: of the points only their number matters, physical
tags are a dictionary from labels to numbers, and the graph stored by `build_grahp` is left to C43.
-/
import Verif.Model.DomainMarket

namespace Verif.Topology
open Shape MeshGraph
variable {P : Type}

/-- domain_builder.py:12 -/
def defaultTagsLine : Dict String Int := [("line_0", 1), ("line_1", 2), ("bc_0", 3), ("bc_1", 4)]

/-- `"line_" + str(shape_tag)` -/
def lineLabel (i : Nat) : String := "line_" ++ toString i

/-- domain_builder.py:21-27: one edge for each position of the loop. -/
def lineEdges (argsort : List Int → List Nat) (tags : Dict String Int) :
    Domain P → List Nat → Res (Domain P)
  | d, [] => pure d
  | d, i :: is => do
    let ends ← d.pick 0 [i, i + 1]
    let e ← mkSimple argsort .edge i ends
    let d ← d.append [e.tagged (tags.get? (lineLabel i))]
    lineEdges argsort tags d is

/-- domain_builder.py:10-30 `build_line_1D` -/
def buildLine1D (argsort : List Int → List Nat) (points : List P)
    (physicalTags : Option (Dict String Int)) : Res (Domain P) := do
  let tags := physicalTags.getD defaultTagsLine
  let d ← (Domain.new 1).append (newVertices points)
  let vertices ← getIdx d.shapes 0
  let v ← getIdx vertices 0
  let vertices := vertices.set 0 (v.tagged (tags.get? "bc_0"))
  let w ← getIdx vertices 2
  let vertices := vertices.set 2 (w.tagged (tags.get? "bc_1"))
  let d : Domain P := { d with shapes := d.shapes.set 0 vertices }
  lineEdges argsort tags d (List.range (points.length - 1))

/-- domain_builder.py:35 -/
def defaultTagsSurface : Dict String Int := [("area_0", 1), ("area_1", 2)]

/-- domain_builder.py:45-54 -/
def surfaceConnectivity : List (List Nat) :=
  [[0, 1], [1, 2], [2, 3], [3, 4], [4, 5], [5, 0], [4, 6], [6, 2]]

/-- domain_builder.py:55-62: the next tag and the next physical tag are carried along. -/
def surfaceEdges (argsort : List Int → List Nat) (skip : List Nat) (d : Domain P) :
    Nat → Int → List (List Nat) → Res (List (Shape P))
  | _, _, [] => pure []
  | tag, physical, con :: cons => do
    let ends ← d.pick 0 con
    let e ← mkSimple argsort .edge tag ends
    if tag ∉ skip then do
      let es ← surfaceEdges argsort skip d (tag + 1) (physical + 1) cons
      pure (e.tagged (some physical) :: es)
    else do
      let es ← surfaceEdges argsort skip d (tag + 1) physical cons
      pure (e :: es)

/-- domain_builder.py:67-74 and 76-83: a wire of the edges at the given positions and the face
inside. -/
def appendRegion (close : P → P → Bool) (argsort : List Int → List Nat) (edges : List (Shape P))
    (positions : List Nat) (start : Nat) (wireTag faceTag : Int) (physical : Option Int)
    (d : Domain P) : Res (Domain P) := do
  let ends ← d.pick 0 [start, start]
  let sides ← pick edges positions
  let w ← mkWire close argsort wireTag sides ends
  let d ← d.append [w]
  let f ← mkSimple argsort .face faceTag [w]
  d.append [f.tagged physical]

/-- domain_builder.py:33-86 `build_surface_2D` -/
def buildSurface2D (close : P → P → Bool) (argsort : List Int → List Nat) (points : List P)
    (physicalTags : Option (Dict String Int)) (skipTags : Option (List Nat)) :
    Res (Domain P) := do
  let tags := physicalTags.getD defaultTagsSurface
  let skip := skipTags.getD [6, 7]
  let d ← (Domain.new 2).append (newVertices points)
  let edges ← surfaceEdges argsort skip d 0 3 surfaceConnectivity
  let d ← d.append edges
  let d ← appendRegion close argsort edges [0, 1, 7, 6, 4, 5] 0 8 1 (tags.get? "area_0") d
  appendRegion close argsort edges [2, 3, 6, 7] 2 9 0 (tags.get? "area_1") d

end Verif.Topology
