/-
Model of the cut of a mesh along immersed shapes (src/mesh/mesh.py:721-923,
`compute_normals_on_embed_shapes` and `cut_conformity_on_embed_shapes`), of its older version for
fracture networks (mesh.py:998-1168, `cut_conformity_on_fractures_mds_ec`) and of
`update_entity_with_dimension`, `update_nodes_ids` (mesh.py:1414-1426), over the real numbers.

The attributes `normal` and `physical_name` of cells are left out: nothing here reads them.
-/
import Verif.Model.MeshCut
import Verif.Model.Skin
import Verif.Model.Normal

namespace Verif.EmbedCut
open MeshBuild MeshGraph Trace MeshMetrics MeshOps Skin Topology
open scoped Classical

/-- What the two versions do differently: the scale of the tags, and the entry of a copied edge
in the list of its own dimension (from the new and the old id). -/
structure Style where
  scale : Int
  own : Nat → Nat → List Nat

/-- mesh.py:741, 797-799 -/
def Style.embed : Style := ⟨1000, fun new old => [new, old]⟩

/-- mesh.py:1043, 1047 -/
def Style.fracture : Style := ⟨10, fun new _ => [new]⟩

/-- An item `mat_id, (n, f_xc)` of the dictionary of normals. -/
structure Cut where
  mat : Option Int
  normal : Pt ℝ
  centre : Pt ℝ

/-! ### The normals -/

/-- edge.py:16-18 and wire.py:75-89 `boundary_points`; `wire` gives those of a wire.  Vertices have
no such method, faces and solids neither. -/
def boundaryPoints {P : Type} (wire : Shape P → Res (P × P)) : Shape P → Res (List P)
  | .composed .edge _ _ b _ => mapRes Shape.pointOf b
  | .composed .wire t p b i => do
    let r ← wire (.composed .wire t p b i)
    pure [r.1, r.2]
  | _ => .error .attributeError

/-- mesh.py:730-735: the normal and the barycenter of one shape. -/
noncomputable def normalOf (pts : List (Pt ℝ)) : Res (Pt ℝ × Pt ℝ) := do
  let b ← getIdx pts 1
  let a ← getIdx pts 0
  pure (normalDir a b, fun k => (pts.map (· k)).sum / pts.length)

/-- mesh.py:729-735: the loop over the immersed shapes. -/
noncomputable def normalsOf (wire : Shape (Pt ℝ) → Res (Pt ℝ × Pt ℝ)) :
    List (Shape (Pt ℝ)) → Dict (Option Int) (Pt ℝ × Pt ℝ) → Res (Dict (Option Int) (Pt ℝ × Pt ℝ))
  | [], d => .ok d
  | s :: ss, d => do
    let pts ← boundaryPoints wire s
    let r ← normalOf pts
    normalsOf wire ss (d.set s.physicalTag r)

/-- mesh.py:721-735 `compute_normals_on_embed_shapes`; `d` is `self.embed_shape_normals` before the
call, the value the one after. -/
noncomputable def embedNormals (wire : Shape (Pt ℝ) → Res (Pt ℝ × Pt ℝ)) (dimension : Nat)
    (domain : Domain (Pt ℝ)) (d : Dict (Option Int) (Pt ℝ × Pt ℝ)) :
    Res (Dict (Option Int) (Pt ℝ × Pt ℝ)) := do
  if dimension ≠ 2 then throw .assertionError
  let shapes ← getIdx domain.shapes dimension
  if shapes.length ≠ 1 then throw .assertionError
  let s ← getIdx shapes 0
  if s.view.immersed.length = 0 then pure d
  else normalsOf wire s.view.immersed d

/-! ### The two sides -/

/-- mesh.py:770-773: `positive_q` of the cell with the given id. -/
noncomputable def positiveQ (k : Cut) (p : Parts) (id : Nat) : Res Bool := do
  let c ← cellAt p.cells id
  let x ← cellCentroid p.points c
  pure (decide (0 < dot3 (x - k.centre) k.normal))

/-- mesh.py:767-777 (and 846-856): `cells_p` and `cells_n`. -/
def splitSides (side : Nat → Res Bool) : List Nat → Res (List Nat × List Nat)
  | [] => .ok ([], [])
  | i :: is => do
    let b ← side i
    let r ← splitSides side is
    pure (if b then (i :: r.1, r.2) else (r.1, i :: r.2))

/-- `p_tag_scale * mat_id ± 1`: `TypeError` for `None`. -/
def sideTag (s : Style) (mat : Option Int) (σ : Int) : Res (Option Int) :=
  match mat with
  | none => .error .typeError
  | some m => .ok (some (s.scale * m + σ))

/-! ### The copies -/

/-- mesh.py:784-796 (and 799-811): the copies of the edges on one side, numbered from `n`. -/
def copyEdges (s : Style) (mat : Option Int) (σ : Int) : Nat → List Cell → Res (List Cell)
  | _, [] => .ok []
  | n, c :: cs => do
    let t ← sideTag s mat σ
    let c' ← Cell.setSub { c with material := t, id := n } c.dimension (s.own n c.id)
    let r ← copyEdges s mat σ (n + 1) cs
    pure (c' :: r)

/-- mesh.py:871-886 (and 890-906): the copies of the vertices on one side, numbered from `n`, with
node tags from `t`.  Their only sub-cell entry is the node tag. -/
def copyVertices (s : Style) (mat : Option Int) (σ : Int) (cells : Cells) :
    Nat → Nat → List Nat → Res (List Cell)
  | _, _, [] => .ok []
  | n, t, v :: vs => do
    let c ← cellAt cells v
    let m ← (match c.material with
      | none => (.ok none : Res (Option Int))
      | some _ => sideTag s mat σ)
    let c' ← Cell.setSub (createCell 0 [t] n m) 0 [t]
    let r ← copyVertices s mat σ cells (n + 1) (t + 1) vs
    pure (c' :: r)

/-- `self.cells[vertex].node_tags[0]` -/
def nodeTag (cells : Cells) (v : Nat) : Res Nat := do
  let c ← cellAt cells v
  getIdx c.nodeTags 0

/-! ### The updates -/

/-- `entity_map_ids.get(x, None)`, or `x` itself -/
def rename (m : Dict Nat Nat) (x : Nat) : Nat := (m.get? x).getD x

/-- mesh.py:1414-1419 `update_entity_with_dimension` -/
def updateEntity (dim : Nat) (m : Dict Nat Nat) (cells : Cells) (id : Nat) : Res Cells := do
  let c ← cellAt cells id
  let ids ← Cell.subIds c dim
  pure (cells.set id (some { c with sub := c.sub.set dim (ids.map (rename m)) }))

/-- mesh.py:1421-1426 `update_nodes_ids` -/
def updateNodes (m : Dict Nat Nat) (cells : Cells) (id : Nat) : Res Cells := do
  let c ← cellAt cells id
  pure (cells.set id (some { c with nodeTags := c.nodeTags.map (rename m) }))

/-- mesh.py:908-911 (and 912-914, 917-923): vertices and nodes of one cell -/
def updateVertices (vm nm : Dict Nat Nat) (cells : Cells) (id : Nat) : Res Cells := do
  let cells ← updateEntity 0 vm cells id
  updateNodes nm cells id

/-! ### The cut -/

/-- mesh.py:752-760: the cut edges. -/
def cutEdges (k : Cut) (cells : Cells) : Res (List Cell) :=
  selectCells (fun c => c.material == k.mat && c.dimension == 1) cells

/-- mesh.py:825-835: the vertices to be duplicated. -/
def cutVertices (k : Cut) (cells : Cells) (f : List Cell) : Res (List Nat) := do
  let ids ← mapRes (fun c => Cell.subIds c 0) f
  filterRes (fun v => do
    let c ← cellAt cells v
    pure (c.material != k.mat)) (npSort (uniq ids.flatten))

/-- mesh.py:764-766: the cells at the cut edges. -/
def faceNeighs (g : DiGraph Node) (f : List Cell) : Res (List Nat) := do
  let l ← mapRes (fun c => g.predecessors (1, c.id)) f
  pure (l.flatten.map Prod.snd)

/-- mesh.py:838-846: the cells at the duplicated vertices. -/
def vertexNeighs (g2 g1 : DiGraph Node) (f : List Cell) (vs : List Nat) : Res (List Nat) := do
  let l ← mapRes (fun v => do
    let a ← g2.predecessors (0, v)
    let b ← g1.predecessors (0, v)
    pure (a.map Prod.snd ++ b.map Prod.snd)) vs
  pure (npSort (uniq (l.flatten.filter fun i => i ∉ f.map Cell.id)))

/-- mesh.py:764-823: duplication of the edges. -/
noncomputable def cutFaces (s : Style) (k : Cut) (g21 : DiGraph Node) (p : Parts) (f : List Cell) :
    Res Cells := do
  let neighs ← faceNeighs g21 f
  let sides ← splitSides (positiveQ k p) neighs
  let n := p.cells.length
  let fp ← copyEdges s k.mat 1 n f
  let fn ← copyEdges s k.mat (-1) (n + f.length) f
  let cells := p.cells ++ fp.map some ++ fn.map some
  let mp := Dict.ofList ((f.map Cell.id).zip (List.range' n f.length))
  let mn := Dict.ofList ((f.map Cell.id).zip (List.range' (n + f.length) f.length))
  let cells ← sides.1.foldlM (updateEntity 1 mp) cells
  sides.2.foldlM (updateEntity 1 mn) cells

/-- mesh.py:838-923: duplication of the vertices `vs`, `n` being the number of cells before the
edges were duplicated. -/
noncomputable def cutNodes (s : Style) (k : Cut) (g22 g11 : DiGraph Node) (p : Parts) (n : Nat)
    (f : List Cell) (vs : List Nat) : Res Parts := do
  let neighs ← vertexNeighs g22 g11 f vs
  let sides ← splitSides (positiveQ k p) neighs
  let tags ← mapRes (nodeTag p.cells) vs
  let newNodes ← fancy p.points tags
  let t := p.points.length
  let l := p.cells.length
  let m := vs.length
  let vp ← copyVertices s k.mat 1 p.cells l t vs
  let vn ← copyVertices s k.mat (-1) p.cells (l + m) (t + m) vs
  let cells := p.cells ++ vp.map some ++ vn.map some
  let mvp := Dict.ofList (vs.zip (List.range' l m))
  let mvn := Dict.ofList (vs.zip (List.range' (l + m) m))
  let mnp := Dict.ofList (tags.zip (List.range' t m))
  let mnn := Dict.ofList (tags.zip (List.range' (t + m) m))
  let cells ← sides.1.foldlM (updateVertices mvp mnp) cells
  let cells ← sides.2.foldlM (updateVertices mvn mnn) cells
  let cells ← (List.range' n f.length).foldlM (updateVertices mvp mnp) cells
  let cells ← (List.range' (n + f.length) f.length).foldlM (updateVertices mvn mnn) cells
  pure ⟨cells, p.points ++ newNodes ++ newNodes⟩

/-- mesh.py:819-820: `map_fracs_edge` -/
def recordPairs (n : Nat) (f : List Cell) (d : Dict Nat (Nat × Nat)) : Dict Nat (Nat × Nat) :=
  ((f.map Cell.id).zip ((List.range' n f.length).zip (List.range' (n + f.length) f.length))).foldl
    (fun d p => d.set p.1 p.2) d

/-- mesh.py:748-923 (1013-1166): one pass of the loop. -/
noncomputable def cutOne (s : Style) (k : Cut) (p : Parts) (d : Dict Nat (Nat × Nat)) :
    Res (Parts × Dict Nat (Nat × Nat)) := do
  let g22 ← buildGraph ⟨2, p.cells⟩ 2 2
  let g21 ← buildGraph ⟨2, p.cells⟩ 2 1
  let g11 ← buildGraph ⟨2, p.cells⟩ 1 1
  let f ← cutEdges k p.cells
  let cells ← cutFaces s k g21 p f
  let d := recordPairs p.cells.length f d
  let vs ← cutVertices k cells f
  if vs = [] then pure (⟨cells, p.points⟩, d)
  else do
    let q ← cutNodes s k g22 g11 ⟨cells, p.points⟩ p.cells.length f vs
    pure (q, d)

/-- mesh.py:746-925 (1004-1168): the loop over the dictionary of normals. -/
noncomputable def cutAll (s : Style) : Dict (Option Int) (Pt ℝ × Pt ℝ) → Parts →
    Dict Nat (Nat × Nat) → Res (Parts × Dict Nat (Nat × Nat))
  | [], p, d => .ok (p, d)
  | (mat, r) :: ks, p, d => do
    let q ← cutOne s ⟨mat, r.1, r.2⟩ p d
    cutAll s ks q.1 q.2

/-- mesh.py:737-923 `cut_conformity_on_embed_shapes`; `d` is `self.embed_shape_normals`. -/
noncomputable def cutEmbedded (wire : Shape (Pt ℝ) → Res (Pt ℝ × Pt ℝ)) (dimension : Nat)
    (domain : Domain (Pt ℝ)) (d : Dict (Option Int) (Pt ℝ × Pt ℝ)) (p : Parts) :
    Res (Parts × Dict Nat (Nat × Nat)) := do
  if dimension ≠ 2 then throw .assertionError
  let normals ← embedNormals wire dimension domain d
  cutAll Style.embed normals p []

end Verif.EmbedCut
