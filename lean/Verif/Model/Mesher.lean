/-
Model of the transfer of a domain to gmsh (src/mesh/conformal_mesher.py:37-331), as the list of the
calls made.  The mesh size, `synchronize` and the numbers given to `setTransfiniteCurve` are left
out.
-/
import Verif.Model.Domain
import Verif.Model.MeshGraph

namespace Verif.Mesher
open Topology Topology.Shape MeshGraph
variable {P : Type}

/-- A call to gmsh. -/
inductive Call (P : Type) where
  | addPoint (x : P) (tag : Int)
  | addLine (b e tag : Int)
  | addCurveLoop (curves : List Int) (tag : Int)
  | addPlaneSurface (loops : List Int) (tag : Int)
  | addSurfaceLoop (surfaces : List Int) (tag : Int)
  | addVolume (loops : List Int) (tag : Int)
  | addPhysicalGroup (dim : Nat) (tags : List Int) (physical : Int)
  | embed (dim : Nat) (tags : List Int) (inDim : Nat) (inTag : Int)
  | setTransfiniteCurve (tag : Int)
  deriving DecidableEq

/-- `len(shapes[i]) == 0` -/
def noShapes (shapes : List (List (Shape P))) (i : Nat) : Bool :=
  match shapes[i]? with
  | some [] => true
  | _ => false

/-- conformal_mesher.py:38-41 (and 121-124): the value of `dimension` after the loop, the first
dimension without shapes or the last one. -/
def scanDimension (shapes : List (List (Shape P))) : Nat :=
  ((List.range shapes.length).find? (noShapes shapes)).getD (shapes.length - 1)

/-- The two variants differ in the curves that are left out (`composite`, and in the occ variant
also those with immersed shapes) and in where the orientation of a wire comes from. -/
structure Variant (P : Type) where
  skipCurve : Shape P → Bool
  orientation : Shape P → Res (List Int)

/-- `transfer_domain_descritpion` reads the stored attribute `orientation`. -/
def geo (stored : Shape P → List Int) : Variant P := ⟨composite, fun w => .ok (stored w)⟩

/-- `transfer_domain_occ_descritpion` computes it (line 166). -/
def occ (close : P → P → Bool) : Variant P :=
  ⟨fun s => s.composite || s.immersed.length > 0, fun w => orientEdges close w.immersed⟩

/-- The strides: `curve_stride`, `surface_stride`, `volume_stride` (lines 43-44, 71, 88). -/
def stride (shapes : List (List (Shape P))) (k : Nat) : Int :=
  ((shapes.take k).map List.length).sum

/-- `stride + shape.tag + 1` -/
def gmshTag (shapes : List (List (Shape P))) (k : Nat) (s : Shape P) : Int :=
  stride shapes k + s.tag + 1

/-- lines 47-54, 130-141 -/
def addVertex (s : Shape P) : Res (List (Call P)) := do
  let x ← pointOf s
  pure [.addPoint x (s.tag + 1)]

/-- lines 58-65, 145-155 -/
def addCurve (v : Variant P) (shapes : List (List (Shape P))) (s : Shape P) : Res (List (Call P)) :=
  if v.skipCurve s then pure []
  else do
    let b ← getIdx s.boundary 0
    let e ← getIdx s.boundary 1
    pure [.addLine (b.tag + 1) (e.tag + 1) (gmshTag shapes 1 s)]

/-- `[loop_tags[i] * sign for i, sign in enumerate(wire.orientation)]` -/
def signedTags : List Int → List Int → Res (List Int)
  | _, [] => pure []
  | [], _ :: _ => .error .indexError
  | t :: ts, o :: os => do
    let rest ← signedTags ts os
    pure (t * o :: rest)

/-- lines 72-83, 162-176 -/
def addSurface (v : Variant P) (shapes : List (List (Shape P))) (s : Shape P) :
    Res (List (Call P)) :=
  if s.composite then pure []
  else do
    let wire ← getIdx s.boundary 0
    let o ← v.orientation wire
    let tags ← signedTags (wire.immersed.map (gmshTag shapes 1)) o
    pure [.addCurveLoop tags (gmshTag shapes 2 s), .addPlaneSurface [gmshTag shapes 2 s] (gmshTag shapes 2 s)]

/-- lines 89-98, 183-194 -/
def addVolume (shapes : List (List (Shape P))) (s : Shape P) : Res (List (Call P)) :=
  if s.composite then pure []
  else do
    let shell ← getIdx s.boundary 0
    pure [.addSurfaceLoop (shell.immersed.map (gmshTag shapes 2)) (gmshTag shapes 3 s),
      .addVolume [gmshTag shapes 3 s] (gmshTag shapes 3 s)]

/-- A loop over shapes that makes calls. -/
def callsOf (f : Shape P → Res (List (Call P))) (l : List (Shape P)) : Res (List (Call P)) := do
  let calls ← mapRes f l
  pure calls.flatten

/-- `if dimension > k: for shape in self.domain.shapes[k + 1]` -/
def ifDimension (shapes : List (List (Shape P))) (k : Nat) (f : Shape P → Res (List (Call P))) :
    Res (List (Call P)) :=
  if scanDimension shapes > k then do
    let l ← getIdx shapes (k + 1)
    callsOf f l
  else pure []

/-- lines 37-100, 120-196: the entities.  `shapes` are the shapes as their getters show them. -/
def entities (v : Variant P) (shapes : List (List (Shape P))) : Res (List (Call P)) := do
  let vertices ← getIdx shapes 0
  let points ← callsOf addVertex vertices
  let curves ← getIdx shapes 1
  let lines ← callsOf (addCurve v shapes) curves
  let surfaces ← ifDimension shapes 1 (addSurface v shapes)
  let volumes ← ifDimension shapes 2 (addVolume shapes)
  pure (points ++ lines ++ surfaces ++ volumes)

/-- `if shape.physical_tag is not None: gmsh.model.addPhysicalGroup(k, [...], shape.physical_tag)` -/
def physicalGroup (shapes : List (List (Shape P))) (k : Nat) (s : Shape P) : List (Call P) :=
  match s.physicalTag with
  | some p => [.addPhysicalGroup k [gmshTag shapes k s] p]
  | none => []

/-- lines 37-118 `transfer_domain_descritpion` -/
def transferGeo (stored : Shape P → List Int) (d : Domain P) : Res (List (Call P)) := do
  let shapes := d.shapes.map (List.map view)
  let made ← entities (geo stored) shapes
  let vertices ← getIdx shapes 0
  let curves ← getIdx shapes 1
  let surfaces ← ifDimension shapes 1 fun s => pure (physicalGroup shapes 2 s)
  let volumes ← ifDimension shapes 2 fun s => pure (physicalGroup shapes 3 s)
  pure (made ++ vertices.flatMap (physicalGroup shapes 0) ++
    curves.flatMap (physicalGroup shapes 1) ++ surfaces ++ volumes)

/-- `list(np.unique(tags))` -/
def sortedUnique (l : List Int) : List Int := (uniq l).mergeSort fun a b => decide (a ≤ b)

/-- `[vertex.tag + 1 for vertex in curve.boundary_shapes if vertex.physical_tag is None]` -/
def untagged (s : Shape P) : List Int :=
  (s.boundary.filter fun v => v.physicalTag.isNone).map fun v => v.tag + 1

/-- lines 211-252: the physical groups of a curve.  `dim` is `self.domain.dimension`, `graph` the
graph of the domain. -/
def occCurveGroup (dim : Nat) (graph : DiGraph (Int × Int)) (shapes : List (List (Shape P)))
    (s : Shape P) : Res (List (Call P)) :=
  match s.physicalTag with
  | none => pure []
  | some p =>
    if s.immersed.length > 0 then
      pure (.addPhysicalGroup 1 (sortedUnique (s.immersed.map (gmshTag shapes 1))) p ::
        if dim > 1 then [.addPhysicalGroup 0 (untagged s) p] else [])
    else if dim = 1 then do
      let ps ← graph.predecessors (0, s.tag)
      pure (if ps.length = 0 then [.addPhysicalGroup 1 [gmshTag shapes 1 s] p] else [])
    else if dim = 2 then
      pure [.addPhysicalGroup 0 (untagged s) p, .addPhysicalGroup 1 [gmshTag shapes 1 s] p]
    else pure []

/-- lines 272-302: the shapes embedded in a surface -/
def embedSurface (shapes : List (List (Shape P))) (s : Shape P) : List (Call P) :=
  if s.composite then []
  else
    let tags0 := sortedUnique (s.immersed.flatMap fun c => c.boundary.map fun v => v.tag + 1)
    let tags1 := sortedUnique (s.immersed.flatMap fun c =>
      if c.immersed.length > 0 then c.immersed.map (gmshTag shapes 1) else [gmshTag shapes 1 c])
    [.embed 0 tags0 2 (gmshTag shapes 2 s), .embed 1 tags1 2 (gmshTag shapes 2 s)] ++
      tags1.map .setTransfiniteCurve

/-- lines 304-331: the shapes embedded in a volume -/
def embedVolume (shapes : List (List (Shape P))) (s : Shape P) : List (Call P) :=
  if s.composite then []
  else
    let tags1 := sortedUnique (s.immersed.flatMap fun c =>
      (if c.immersed.length > 0 then c.immersed.map (gmshTag shapes 1) else []) ++
        c.boundary.flatMap fun w => w.immersed.map (gmshTag shapes 1))
    let tags2 := sortedUnique (s.immersed.flatMap fun c =>
      if c.immersed.length > 0 then [] else [gmshTag shapes 2 c])
    [.embed 1 tags1 3 (gmshTag shapes 3 s), .embed 2 tags2 3 (gmshTag shapes 3 s)] ++
      tags1.map .setTransfiniteCurve

/-- lines 120-331 `transfer_domain_occ_descritpion`.  Vertices have no immersed shapes
(lines 131-132, 201-204). -/
def transferOcc (close : P → P → Bool) (graph : DiGraph (Int × Int)) (d : Domain P) :
    Res (List (Call P)) := do
  let shapes := d.shapes.map (List.map view)
  let made ← entities (occ close) shapes
  let vertices ← getIdx shapes 0
  let curves ← getIdx shapes 1
  let curveGroups ← callsOf (occCurveGroup d.dimension graph shapes) curves
  let surfaces ← ifDimension shapes 1 fun s => pure (physicalGroup shapes 2 s)
  let volumes ← ifDimension shapes 2 fun s => pure (physicalGroup shapes 3 s)
  let embedded2 ← ifDimension shapes 1 fun s => pure (embedSurface shapes s)
  let embedded3 ← ifDimension shapes 2 fun s => pure (embedVolume shapes s)
  pure (made ++ vertices.flatMap (physicalGroup shapes 0) ++ curveGroups ++ surfaces ++ volumes ++
    embedded2 ++ embedded3)

end Verif.Mesher
