/-
Model of the transfer of a domain to gmsh by src/mesh/discrete_domain.py:7-310, as the list of the
calls made.  The mesh size, `synchronize`, the numbers given to `setTransfiniteCurve` and the calls
of `generate_mesh` and `write_mesh` that follow (lines 312-342) are left out.
-/
import Verif.Model.Mesher

namespace Verif.DiscreteDomain
open Topology Topology.Shape Mesher
variable {P : Type}

/-- `d0_stride`, `d1_stride`, `d2_stride` and `d3_stride` -/
structure Strides where
  d0 : Int
  d1 : Int
  d2 : Int
  d3 : Int
  deriving DecidableEq

/-- lines 20-24: the numbers of shapes written to the first `n` of the free places, up to the first
dimension without shapes; a fifth dimension has no place. -/
def counts : Nat → List (List (Shape P)) → Res (List Nat)
  | n, [] => pure (List.replicate n 0)
  | 0, _ :: _ => .error .indexError
  | n + 1, l :: ls =>
    if l.length = 0 then pure (0 :: List.replicate n 0)
    else do
      let rest ← counts n ls
      pure (l.length :: rest)

/-- `np.add.accumulate` -/
def accumulate : Int → List Nat → List Int
  | _, [] => []
  | acc, n :: ns => (acc + n) :: accumulate (acc + n) ns

/-- lines 18-29 `__compute_entities_strides` -/
def computeStrides (shapes : List (List (Shape P))) : Res Strides := do
  let strides ← counts 4 shapes
  let sums := accumulate 0 strides
  let d0 ← getIdx sums 0
  let d1 ← getIdx sums 1
  let d2 ← getIdx sums 2
  let d3 ← getIdx sums 3
  pure ⟨d0, d1, d2, d3⟩

/-- lines 94-101 `stride_tag` -/
def Strides.tag (σ : Strides) : Fin 4 → Int → Int
  | 0, t => σ.d0 + t + 1
  | 1, t => σ.d1 + t + 1
  | 2, t => σ.d2 + t + 1
  | 3, t => σ.d3 + t + 1

/-- `shapes_with_same_dimension` (lines 48-52, 140-144, 187-191) -/
def sameDimension (s : Shape P) : List (Shape P) :=
  s.immersed.filter fun i => i.dimension = s.dimension

/-- lines 46-54: the curves left out. -/
def skipCurve (s : Shape P) : Bool := s.composite || decide ((sameDimension s).length > 0)

/-- lines 31-42 -/
def transferVertex (σ : Strides) (s : Shape P) : Res (List (Call P)) :=
  if s.immersed.length > 0 then pure []
  else do
    let x ← pointOf s
    pure [.addPoint x (σ.tag 0 s.tag)]

/-- lines 44-59 -/
def transferCurve (σ : Strides) (s : Shape P) : Res (List (Call P)) :=
  if skipCurve s then pure []
  else do
    let b ← getIdx s.boundary 0
    let e ← getIdx s.boundary 1
    pure [.addLine (σ.tag 0 b.tag) (σ.tag 0 e.tag) (σ.tag 1 s.tag)]

/-- line 83: only wires have `orient_immersed_edges`. -/
def wireOrientation (close : P → P → Bool) : Shape P → Res (List Int)
  | .composed .wire _ _ _ i => orientEdges close i
  | _ => .error .attributeError

/-- lines 78-91 -/
def transferSurface (close : P → P → Bool) (σ : Strides) (s : Shape P) : Res (List (Call P)) :=
  if s.composite then pure []
  else do
    let wire ← getIdx s.boundary 0
    let o ← wireOrientation close wire
    let tags ← signedTags (wire.immersed.map fun c => σ.tag 1 c.tag) o
    pure [.addCurveLoop tags (σ.tag 2 s.tag), .addPlaneSurface [σ.tag 2 s.tag] (σ.tag 2 s.tag)]

/-- `np.unique` -/
def npUnique (l : List Int) : List Int := (uniq l).insertionSort (· ≤ ·)

/-- `np.unique([shape.physical_tag for shape in shapes if shape.physical_tag is not None])` -/
def physicalTags (l : List (Shape P)) : List Int := npUnique (l.filterMap physicalTag)

/-- `[shape for shape in shapes if shape.physical_tag == physical_tag]` -/
def withTag (l : List (Shape P)) (p : Int) : List (Shape P) :=
  l.filter fun s => s.physicalTag = some p

/-- lines 103-120 `__physical_group_vertices` -/
def vertexGroups (σ : Strides) (l : List (Shape P)) : List (Call P) :=
  (physicalTags l).flatMap fun p =>
    if (withTag l p).length > 0 then
      [.addPhysicalGroup 0 ((withTag l p).map fun s => σ.tag 0 s.tag) p]
    else []

/-- lines 136-147: the tags of the curves of a group. -/
def curveTags (σ : Strides) (l : List (Shape P)) (p : Int) : List Int :=
  ((withTag l p).filter fun s => !skipCurve s).map fun s => σ.tag 1 s.tag

/-- lines 122-161 `__physical_group_curves`.  `refined p` says that `p` is among the tags of
`mesh_arguments["curves_refinement"]` and that its controls are given. -/
def curveGroups (refined : Int → Bool) (σ : Strides) (l : List (Shape P)) : List (Call P) :=
  (physicalTags l).flatMap fun p =>
    .addPhysicalGroup 1 (curveTags σ l p) p ::
      if refined p then (curveTags σ l p).map .setTransfiniteCurve else []

/-- lines 163-181 `__physical_group_surfaces` -/
def surfaceGroups (σ : Strides) (l : List (Shape P)) : List (Call P) :=
  (physicalTags l).map fun p =>
    .addPhysicalGroup 2 ((withTag l p).map fun s => σ.tag 2 s.tag) p

/-- lines 183-199: the shapes embedded in a curve. -/
def embedInCurve (σ : Strides) (s : Shape P) : List (Call P) :=
  if skipCurve s then []
  else [.embed 0 (npUnique (s.immersed.map fun v => σ.tag 0 v.tag)) 1 (σ.tag 1 s.tag)]

/-- lines 201-226: the shapes embedded in a surface. -/
def embedInSurface (σ : Strides) (s : Shape P) : List (Call P) :=
  if s.composite then []
  else
    let tags1 := s.immersed.flatMap fun c =>
      if c.immersed.length > 0 then c.immersed.map fun i => σ.tag 1 i.tag else [σ.tag 1 c.tag]
    let tags0 := s.immersed.flatMap fun c => c.boundary.map fun v => σ.tag 0 v.tag
    [.embed 0 (npUnique tags0) 2 (σ.tag 2 s.tag), .embed 1 (npUnique tags1) 2 (σ.tag 2 s.tag)]

/-- `if dimension > k: …` over `self.domain.shapes[k + 1]` -/
def atDimension (shapes : List (List (Shape P))) (k : Nat)
    (f : List (Shape P) → Res (List (Call P))) : Res (List (Call P)) :=
  if scanDimension shapes > k then do
    let l ← getIdx shapes (k + 1)
    f l
  else pure []

/-- lines 228-310 `convert_domain_to_occ_description`.  The steps for volumes read the names
`surface_stride` and `curve_stride`, which are not assigned anywhere: line 248 raises `NameError`,
so the later steps for volumes (lines 269-274, 283-310) are never reached. -/
def convert (close : P → P → Bool) (refined : Int → Bool) (d : Domain P) :
    Res (List (Call P)) := do
  let shapes := d.shapes.map (List.map view)
  let σ ← computeStrides shapes
  let vertices ← getIdx shapes 0
  let points ← callsOf (transferVertex σ) vertices
  let lines ← atDimension shapes 0 (callsOf (transferCurve σ))
  let surfaces ← atDimension shapes 1 (callsOf (transferSurface close σ))
  if scanDimension shapes > 2 then .error .nameError
  else do
    let groups1 ← atDimension shapes 0 fun l => pure (curveGroups refined σ l)
    let groups2 ← atDimension shapes 1 fun l => pure (surfaceGroups σ l)
    let embedded1 ← atDimension shapes 0 fun l => pure (l.flatMap (embedInCurve σ))
    let embedded2 ← atDimension shapes 1 fun l => pure (l.flatMap (embedInSurface σ))
    pure (points ++ lines ++ surfaces ++ vertexGroups σ vertices ++ groups1 ++ groups2 ++
      embedded1 ++ embedded2)

end Verif.DiscreteDomain
