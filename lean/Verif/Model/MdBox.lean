/-
Model of `create_md_box_2D` (src/topology/domain_market.py:172-301), over the real numbers.

The parts of which it is composed have models already: `build_box_2D` (Model/DomainMarket.lean),
the intersections of lines and points (Model/LineGeometry.lean, Model/PointGeometry.lean), the
difference and the union of domains (Model/DomainOps.lean) and the constructors of shapes
(Model/Shape.lean).  The default tolerances of the operations, all 1e-10 in globals.py, are one
number `eps` here, apart from the tolerances that those models have as parameters.

Shapes are values: the vertices of the box and of the fractures are not changed after they are made.
-/
import Verif.Model.DomainMarket
import Verif.Model.DomainOps

namespace Verif.MdBox
open MeshBuild MeshGraph Trace MeshMetrics Geometry VertexOps DomainOps Topology
open scoped Classical

/-- What the function depends on. -/
structure Env where
  P : Params
  tol : Tol
  lstsq : Pt ℝ → Pt ℝ → Pt ℝ → ℝ × ℝ
  dedup : List (Pt ℝ) → List (Pt ℝ)
  hash : Nat → Int → Int
  argsortTag : List Int → List Nat
  triangulate : List (Pt ℝ) → Res (List Triangle)
  eps : ℝ

/-- `seed_vertex == vertex`: `np.isclose` with its default tolerances. -/
noncomputable def close (x y : Pt ℝ) : Bool := decide (DefaultClose x y)

/-- A shape read as a vertex. -/
def asVtx : Shape (Pt ℝ) → Res Vtx
  | .vertex t p x => .ok ⟨t, p, x⟩
  | .composed .. => .error .attributeError

/-- A shape read as an edge with two boundary vertices (`a, b = line`). -/
def asEdg (s : Shape (Pt ℝ)) : Res Edg := do
  let b ← mapRes asVtx s.boundary
  match b with
  | [v, w] => pure ⟨s.tag, s.physicalTag, v, w⟩
  | _ => .error .valueError

/-- A vertex as a shape. -/
def vertexShape (v : Vtx) : Shape (Pt ℝ) := .vertex v.tag v.physical v.point

/-- An edge as a shape. -/
def edgeShape (e : UEdge) : Shape (Pt ℝ) :=
  .composed .edge e.tag e.physical (e.boundary.map vertexShape) []

/-- `edge.boundary_points()` of an edge of the box. -/
def ends (e : Edg) : Line := (e.first.point, e.second.point)

/-- Lines 188-190: `rock_domain_edges` -/
def rockEdges (d : Domain (Pt ℝ)) : Res (List Edg) := do
  let shapes ← getIdx d.shapes 1
  mapRes asEdg (shapes.filter fun s => !s.composite)

/-- Lines 201-215: for every edge of the box the intersections on it, as vertices with its physical
tag. -/
noncomputable def rawVertices (E : Env) (rock : List Edg) (pts : List (Pt ℝ)) : List Vtx :=
  rock.flatMap fun e =>
    ((pointsLineIntersection E.P.collapse pts e.first.point e.second.point E.eps).1.filterMap
      Out.toOption).map fun x => ⟨minTag, e.physical, x⟩

/-- Lines 222-228 (and 230-234): tags from `tag` on. -/
def retag (tag : Int) (l : List Vtx) : List Vtx :=
  l.zipIdx.map fun x => { x.1 with tag := tag + (x.2 : Int) }

/-- Lines 217-228: one vertex for each point, with new tags. -/
noncomputable def uniqueVertices (E : Env) (raw : List Vtx) : List Vtx :=
  let idx := E.P.uniqueIdx (raw.map Vtx.point)
  (raw.zipIdx.filter fun x => x.2 ∈ idx).map Prod.fst

/-- Lines 230-234: the points where fractures meet. -/
def pointVertices (tags : Dict String Int) (pts : List (Pt ℝ)) : Res (List Vtx) :=
  mapRes (fun x => do
    let t ← tags.getItem "point"
    pure ⟨minTag, some t, x⟩) pts

/-- Lines 191-234: the vertices of `domain_c1`. -/
noncomputable def tools (E : Env) (rock : List Edg) (lines : List Line) (tags : Dict String Int)
    (tag : Int) : Res (List Vtx) := do
  let boundaryPts ← linesLinesPoints E.tol E.lstsq E.dedup lines (rock.map ends) E.eps
  let fracturePts ← linesLinesPoints E.tol E.lstsq E.dedup lines lines E.eps
  let b := uniqueVertices E (rawVertices E rock boundaryPts)
  let f ← pointVertices tags fracturePts
  pure (retag tag (b ++ f))

/-- Lines 240-252: two vertices and an edge for every fracture, with three tags. -/
def fractureEdges (tags : Dict String Int) : Int → List Line → Res (List Edg)
  | _, [] => pure []
  | tag, (x, y) :: lines => do
    let bc ← tags.getItem "internal_bc"
    let ln ← tags.getItem "line"
    let rest ← fractureEdges tags (tag + 3) lines
    pure (mkEdge (tag + 2) (some ln) ⟨tag, some bc, x⟩ ⟨tag + 1, some bc, y⟩ :: rest)

/-- Lines 236-263: the box and the fractures, split where they meet. -/
noncomputable def split (E : Env) (rock fractures : List Edg) (c1 : List Vtx) (tag : Int) :
    Res UDom := do
  let c1 := keepVertices E.hash c1
  let c0 ← domainDifference E.P (rock ++ fractures) c1 tag E.eps
  domainUnion E.P E.hash c0 ⟨c1, []⟩

/-- `np.mean(edge.boundary_points(), axis=0)`.  An edge without vertices has no mean; the union
makes none. -/
noncomputable def middle (e : UEdge) : Res (Pt ℝ) :=
  if e.boundary = [] then .error .valueError
  else pure ((1 / (e.boundary.length : ℝ)) • (e.boundary.map Vtx.point).sum)

/-- Lines 265-275: the shapes in the box. -/
noncomputable def restrict (E : Env) (points : List (Pt ℝ)) (u : UDom) : Res UDom := do
  let v ← pointsPolygonIntersection E.P.collapse E.triangulate (u.vertices.map Vtx.point) points
    E.eps
  let mids ← mapRes middle u.edges
  let e ← pointsPolygonIntersection E.P.collapse E.triangulate mids points E.eps
  pure ⟨maskFilter u.vertices v.2, maskFilter u.edges e.2⟩

/-- Lines 278-286: the edges with the physical tag of an edge of the box, by the distance of their
middle from its first end.  For no edges, the difference of an empty array and a point is
refused. -/
noncomputable def sideEdges (E : Env) (edges : List UEdge) (side : Edg) : Res (List UEdge) := do
  let sub := edges.filter fun e => e.physical = side.physical
  let mids ← mapRes middle sub
  if sub = [] then .error .valueError
  else fancy sub (E.P.argsort (mids.map fun x => norm3 (x - side.first.point)))

/-- Lines 277-287 -/
noncomputable def wireEdges (E : Env) (rock : List Edg) (edges : List UEdge) :
    Res (List UEdge) := do
  let l ← mapRes (sideEdges E edges) rock
  pure l.flatten

/-- Lines 288-301: the wire, the face and the domain. -/
noncomputable def assemble (E : Env) (tags : Dict String Int) (rock : List Edg) (u : UDom)
    (tag : Int) : Res (Domain (Pt ℝ)) := do
  let wired ← wireEdges E rock u.edges
  let first ← getIdx wired 0
  let v ← getIdx first.boundary 0
  let wire ← mkWire close E.argsortTag tag (wired.map edgeShape) [vertexShape v]
  let b ← Shape.setBoundary E.argsortTag .face [wire]
  let i ← Shape.setImmersed .face (u.edges.map edgeShape)
  let area ← tags.getItem "area"
  let face : Shape (Pt ℝ) := .composed .face (tag + 1) (some area) b i
  let d ← (Domain.new 2).append (u.vertices.map vertexShape)
  let d ← d.append (u.edges.map edgeShape)
  let d ← d.append [wire]
  d.append [face]

/-- domain_market.py:183 -/
def defaultFractureTags : Dict String Int := [("line", 100), ("internal_bc", 200), ("point", 300)]

/-- domain_market.py:172-301 `create_md_box_2D` -/
noncomputable def createMdBox2D (E : Env) (points : List (Pt ℝ))
    (domainTags : Option (Dict String Int)) (lines : Option (List Line))
    (fractureTags : Option (Dict String Int)) : Res (Domain (Pt ℝ)) := do
  let tags := domainTags.getD defaultTags2
  let rockDomain ← buildBox2D close E.argsortTag points (some tags)
  match lines with
  | none => pure rockDomain
  | some lines => do
    let fTags := fractureTags.getD defaultFractureTags
    let rock ← rockEdges rockDomain
    let maxTag ← rockDomain.maxTag
    let c1 ← tools E rock lines fTags (maxTag + 1)
    let tag := maxTag + 1 + (c1.length : Int)
    let fractures ← fractureEdges fTags tag lines
    let tag := tag + 3 * (lines.length : Int)
    let u ← split E rock fractures c1 tag
    let u ← restrict E points u
    assemble E tags rock u tag

end Verif.MdBox
