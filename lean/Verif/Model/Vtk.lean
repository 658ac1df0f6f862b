/-
Model of the data that the writers of src/postprocess/solution_post_processor.py:11-429 put into
vtk files, in exact arithmetic.

What basix and the geometry give for an element in a vertex or in the centre is a parameter, as are
the destination indices (C17).  The spaces have a positive dimension (with dimension zero line 40
evaluates in the physical point).  The arrays `name_h` and `name_e` of a field are filled one after
the other, which matters only for which of two exceptions is raised.  Of `meshio.Mesh` its test of the lengths of the data is modelled.
-/
import Verif.Model.DivError

namespace Verif.Vtk
open Assembly MeshBuild MeshGraph Trace L2Error

/-- A basis of an element: `value p a d` in the parametric point `p`, the centre for `none`. -/
structure VElem where
  nPhi : Nat
  nVal : Nat
  value : Option Nat → Nat → Nat → ℝ

/-- A discrete space as read here: `element_type` has `nVert` vertices; `vertices` and `graph` are
`entities_by_dimension(0)` and `entity_map_by_dimension(0)`. -/
structure VSpace where
  dimension : Nat
  nComp : Nat
  family : DivError.Family
  nVert : Nat
  vertices : List Nat
  graph : DiGraph Node
  idToElement : Dict Nat Nat
  elements : List VElem

/-- What is read of a product space. -/
structure VFe where
  spaces : Dict String VSpace
  tags : Dict String (List (Option Int))
  dests : Nat → Res (Dict String (List Nat))

/-- The mesh with the number of its points. -/
structure VMesh extends Mesh where
  nPoints : Nat

/-- A two dimensional array. -/
structure Mat where
  rows : Nat
  cols : Nat
  val : Nat → Nat → ℝ

/-- `m.ravel()` -/
noncomputable def Mat.ravel (m : Mat) : List ℝ :=
  (List.range (m.rows * m.cols)).map fun k => m.val (k / m.cols) (k % m.cols)

/-- Lines 28-57 and 84-102: the discrete function of field `name` on a cell. -/
noncomputable def cellValue (dim : Nat) (fe : VFe) (name : String) (s : VSpace) (alpha : List ℝ)
    (cell : Cell) (point : Res (Option Nat)) : Res Mat := do
  let k ← s.idToElement.getItem cell.id
  let el ← getIdx s.elements k
  let d ← fe.dests k
  let dest ← d.getItem name
  let al ← fancy alpha dest
  let p ← point
  let m ← splitCols al.length el.nPhi
  if s.family = .lagrange then
    pure ⟨min dim m, 1, fun c _ => ∑ a ∈ Finset.range el.nPhi, el.value p a 0 * al.getD (a * m + c) 0⟩
  else if s.nComp = 0 then .error .valueError
  else if m < s.nComp then .error .indexError
  else pure ⟨s.nComp, min dim el.nVal, fun c d =>
    ∑ a ∈ Finset.range el.nPhi, el.value p a d * al.getD (a * m + c) 0⟩

/-- Lines 33-42: the positions of the node in the cell, of which there must be one. -/
def vertexOf (s : VSpace) (cell : Cell) (node : Nat) : Res (Option Nat) :=
  match (cell.nodeTags.zipIdx.filter fun q => q.1 == node).map Prod.snd with
  | [k] => if k < s.nVert then .ok (some k) else .error .indexError
  | _ => .error .assertionError

/-- `np.mean(np.array(values), axis=0)`; `none` is `nan`. -/
noncomputable def npMean : List Mat → Res (Option Mat)
  | [] => .ok none
  | m :: ms =>
    if ms.all fun n => n.rows == m.rows && n.cols == m.cols then
      .ok (some ⟨m.rows, m.cols, fun i j => ((m :: ms).map fun n => n.val i j).sum / (ms.length + 1 : Nat)⟩)
    else .error .valueError

/-- solution_post_processor.py:11-67 `node_average_quatity` -/
noncomputable def nodeAverage (g : VMesh) (fe : VFe) (name : String) (alpha : List ℝ) (node : Nat)
    (cellIdxs : List Node) : Res (Option Mat) := do
  let s ← fe.spaces.getItem name
  let cells ← mapRes (fun i => cellAt g.cells i.2) cellIdxs
  let values ← cells.foldlM (fun acc c => do
    let tags ← fe.tags.getItem name
    if c.material ∉ tags then pure acc
    else do
      let v ← cellValue g.dimension fe name s alpha c (vertexOf s c node)
      pure (acc ++ [v])) ([] : List Mat)
  npMean values

/-- solution_post_processor.py:70-102 `cell_centered_quatity` -/
noncomputable def cellCentered (g : VMesh) (fe : VFe) (name : String) (alpha : List ℝ) (cell : Cell) :
    Res Mat := do
  let s ← fe.spaces.getItem name
  cellValue g.dimension fe name s alpha cell (.ok none)

/-- The right hand side of `data[i] = v` for a row of length `n`. -/
def assignRow (n : Nat) (l : List (Option ℝ)) : Res (List (Option ℝ)) :=
  if l.length = n then .ok l
  else match l with
    | [x] => .ok (List.replicate n x)
    | _ => .error .valueError

/-- `f_h.ravel()` -/
noncomputable def ravelMean : Option Mat → List (Option ℝ)
  | none => [none]
  | some m => m.ravel.map some

/-- `data[i] = row` -/
def setRow (data : List (List (Option ℝ))) (i : Nat) (n : Nat) (l : List (Option ℝ)) :
    Res (List (List (Option ℝ))) :=
  if i < data.length then do
    let r ← assignRow n l
    pure (data.set i r)
  else .error .indexError

/-- The row of a node, if there is one. -/
def writeRow (data : List (List (Option ℝ))) (i : Nat) (n : Nat) :
    Option (List (Option ℝ)) → Res (List (List (Option ℝ)))
  | none => .ok data
  | some r => setRow data i n r

/-- A row, or the initial one. -/
def rowOr (n : Nat) (init : Option ℝ) : Option (List (Option ℝ)) → Res (List (Option ℝ))
  | none => .ok (List.replicate n init)
  | some r => assignRow n r

/-- `n_data` -/
def nData (dim : Nat) (s : VSpace) : Nat := if s.family = .lagrange then s.nComp else s.nComp * dim

/-- Lines 131-146: one entry of `node_tags` and the neighbours of a vertex. -/
def vertexNode (g : VMesh) (v : Nat) : Res Nat := do
  let c ← cellAt g.cells v
  getIdx c.nodeTags 0

/-- The loops over the vertices: `row` gives what is written into the row of the node of a vertex,
`none` if the vertex is passed over. -/
def overVertices (g : VMesh) (s : VSpace) (n : Nat) (row : Nat → List Node → Res (Option (List (Option ℝ))))
    (init : Option ℝ) : Res (List (List (Option ℝ))) :=
  s.vertices.foldlM (fun data v => do
    if (0, v) ∉ s.graph.nodes then pure data
    else do
      let node ← vertexNode g v
      let cells ← s.graph.predecessors (0, v)
      let r ← row node cells
      writeRow data node n r) (List.replicate g.nPoints (List.replicate n init))

/-- The loops over the cells of the mesh dimension. -/
def overCells (cells : List Cell) (n : Nat) (row : Cell → Res (Option (List (Option ℝ))))
    (init : Option ℝ) : Res (List (List (Option ℝ))) :=
  mapRes (fun c => do
    let r ← row c
    rowOr n init r) cells

/-- The data of a file: `point_data`, the one block of each entry of `cell_data`, and the cells. -/
structure File where
  points : Dict String (List (List (Option ℝ)))
  cellData : Dict String (List (List (Option ℝ)))
  cells : List (List Nat)

/-- `np.array([cell.node_tags for cell in cells])` -/
def connectivity (cells : List Cell) : Res (List (List Nat)) :=
  match cells with
  | [] => .ok []
  | c :: cs => if cs.all fun d => d.nodeTags.length == c.nodeTags.length
      then .ok ((c :: cs).map Cell.nodeTags) else .error .valueError

/-- `meshio.Mesh(...)` with one block of cells: the lengths of the data are compared. -/
def meshio (nPoints : Nat) (f : File) : Res File :=
  if (f.points.all fun d => d.2.length == nPoints) &&
      (f.cellData.all fun d => d.2.length == f.cells.length) then .ok f
  else .error .valueError

/-- `meshio_cell_types[dim]` -/
def cellType (dim : Nat) : Res Unit := if dim ≤ 3 then .ok () else .error .keyError

/-- What is written for a field: points and cells. -/
abbrev Entries := Dict String (List (List (Option ℝ))) × Dict String (List (List (Option ℝ)))

/-- solution_post_processor.py:105-162 `write_vtk_file` -/
noncomputable def writeVtk (g : VMesh) (fe : VFe) (alpha : List ℝ) (cellCenteredNames : List String) :
    Res File := do
  let data ← fe.spaces.foldlM (fun (acc : Entries) (q : String × VSpace) => do
    let n := nData g.dimension q.2
    if q.1 ∈ cellCenteredNames then do
      let cells ← selectCells (fun c => c.dimension == g.dimension) g.cells
      let d ← overCells cells n (fun c => do
        let v ← cellCentered g fe q.1 alpha c
        pure (some (v.ravel.map some))) (some 0)
      pure (acc.1, acc.2.set (q.1 ++ "_h") d)
    else do
      let d ← overVertices g q.2 n (fun node cells => do
        let v ← nodeAverage g fe q.1 alpha node cells
        pure (some (ravelMean v))) (some 0)
      pure (acc.1.set (q.1 ++ "_h") d, acc.2)) ([], [])
  let cells ← selectCells (fun c => c.dimension == g.dimension) g.cells
  let con ← connectivity cells
  cellType g.dimension
  meshio g.nPoints ⟨data.1, data.2, con⟩

/-- Values of an exact function: a one dimensional or a two dimensional array. -/
inductive Value
  | flat (l : List ℝ)
  | mat (m : Mat)

noncomputable def Value.ravel : Value → List ℝ
  | .flat l => l
  | .mat m => m.ravel

/-- Exact functions, in the nodes and in the centroids of cells. -/
structure Exact where
  node : Nat → Value
  centroid : Cell → Value

/-- The data of lines 181-221 for a field. -/
noncomputable def withExact (g : VMesh) (fe : VFe) (functions : Dict String Exact) (alpha : List ℝ)
    (cellCenteredNames : List String) (acc : Entries) (q : String × VSpace) : Res Entries := do
  let f ← functions.getItem q.1
  let n := nData g.dimension q.2
  if q.1 ∈ cellCenteredNames then do
    let cells ← selectCells (fun c => c.dimension == g.dimension) g.cells
    let d ← overCells cells n (fun c => do
      let v ← cellCentered g fe q.1 alpha c
      pure (some (v.ravel.map some))) (some 0)
    let e ← overCells cells n (fun c => pure (some ((f.centroid c).ravel.map some))) (some 0)
    pure (acc.1, (acc.2.set (q.1 ++ "_h") d).set (q.1 ++ "_e") e)
  else do
    let d ← overVertices g q.2 n (fun node cells => do
      let v ← nodeAverage g fe q.1 alpha node cells
      pure (some (ravelMean v))) (some 0)
    let e ← overVertices g q.2 n (fun node _ => pure (some ((f.node node).ravel.map some))) (some 0)
    pure ((acc.1.set (q.1 ++ "_h") d).set (q.1 ++ "_e") e, acc.2)

/-- solution_post_processor.py:165-241 `write_vtk_file_with_exact_solution`; the cells are those
with the tags of the field of the last iteration (line 227). -/
noncomputable def writeExact (g : VMesh) (fe : VFe) (functions : Dict String Exact) (alpha : List ℝ)
    (cellCenteredNames : List String) : Res File := do
  let data ← fe.spaces.foldlM (withExact g fe functions alpha cellCenteredNames) (([], []) : Entries)
  let cells ← match fe.spaces.getLast? with
    | none => if g.cells = [] then pure [] else .error .nameError
    | some q => if g.cells = [] then pure [] else do
        let tags ← fe.tags.getItem q.1
        selectCells (fun c => tags.contains c.material) g.cells
  let con ← connectivity cells
  let dim ← npMax (fe.spaces.map fun q => q.2.dimension)
  cellType dim
  meshio g.nPoints ⟨data.1, data.2, con⟩

/-- The data of lines 270-325 for a field: cells and vertices without an allowed tag keep `nan`. -/
noncomputable def withTags (g : VMesh) (functions : Dict String Exact) (alpha : List ℝ)
    (cellCenteredNames : List String) (top : List Cell) (fe : VFe) (acc : Entries)
    (q : String × VSpace) : Res Entries := do
  let f ← functions.getItem q.1
  let n := nData g.dimension q.2
  let tags := (fe.tags.get? q.1).getD []
  if q.1 ∈ cellCenteredNames then do
    let d ← overCells top n (fun c => do
      if c.material ∉ tags then pure none
      else do
        let v ← cellCentered g fe q.1 alpha c
        pure (some (v.ravel.map some))) none
    let e ← overCells top n (fun c =>
      if c.material ∉ tags then pure none else pure (some ((f.centroid c).ravel.map some))) none
    pure (acc.1, (acc.2.set (q.1 ++ "_h") d).set (q.1 ++ "_e") e)
  else do
    let allowed : List Node → Res (List Node) := fun cells => do
      let l ← mapRes (fun i => do
        let c ← cellAt g.cells i.2
        pure (i, c)) cells
      pure ((l.filter fun p => tags.contains p.2.material).map Prod.fst)
    let d ← overVertices g q.2 n (fun node cells => do
      match ← allowed cells with
      | [] => pure none
      | cs => do
        let v ← nodeAverage g fe q.1 alpha node cs
        pure (some (ravelMean v))) none
    let e ← overVertices g q.2 n (fun node cells => do
      match ← allowed cells with
      | [] => pure none
      | _ => pure (some ((f.node node).ravel.map some))) none
    pure ((acc.1.set (q.1 ++ "_h") d).set (q.1 ++ "_e") e, acc.2)

/-- solution_post_processor.py:242-338 `write_fe_spaces_on_vtk_file_with_exact_solution` -/
noncomputable def writeSpaces (g : VMesh) (fes : List VFe) (functions : Dict String Exact)
    (alpha : List ℝ) (cellCenteredNames : List String) : Res File := do
  let top ← selectCells (fun c => c.dimension == g.dimension) g.cells
  let con ← connectivity top
  cellType g.dimension
  let data ← fes.foldlM (fun acc fe =>
    fe.spaces.foldlM (withTags g functions alpha cellCenteredNames top fe) acc) (([], []) : Entries)
  meshio g.nPoints ⟨data.1, data.2, con⟩

/-- `np.linalg.norm(f_e - f_h)`; one dimensional values make a row. -/
noncomputable def errorNorm (f : Value) (h : Mat) : Res ℝ :=
  match f with
  | .flat l => do
    let r ← bdim l.length h.cols
    pure (Real.sqrt (∑ i ∈ Finset.range h.rows, ∑ j ∈ Finset.range r,
      (l.getD (bpick l.length j) 0 - h.val i (bpick h.cols j)) ^ 2))
  | .mat m => do
    let r ← bdim m.rows h.rows
    let s ← bdim m.cols h.cols
    pure (Real.sqrt (∑ i ∈ Finset.range r, ∑ j ∈ Finset.range s,
      (m.val (bpick m.rows i) (bpick m.cols j) - h.val (bpick h.rows i) (bpick h.cols j)) ^ 2))

/-- `nan` in the mean makes the norm `nan`. -/
noncomputable def errorNorm? (f : Value) : Option Mat → Res (Option ℝ)
  | none => .ok none
  | some h => do
    let e ← errorNorm f h
    pure (some e)

/-- solution_post_processor.py:340-403 `write_vtk_file_pointwise_l2_error` -/
noncomputable def writeErrors (g : VMesh) (fe : VFe) (functions : Dict String Exact) (alpha : List ℝ)
    (cellCenteredNames : List String) : Res File := do
  let data ← fe.spaces.foldlM (fun (acc : Entries) (q : String × VSpace) => do
    let f ← functions.getItem q.1
    if q.1 ∈ cellCenteredNames then do
      let cells ← selectCells (fun c => c.dimension == g.dimension) g.cells
      let d ← overCells cells 1 (fun c => do
        let v ← cellCentered g fe q.1 alpha c
        let e ← errorNorm (f.centroid c) v
        pure (some [some e])) (some 0)
      pure (acc.1, acc.2.set (q.1 ++ "_error") d)
    else do
      let d ← overVertices g q.2 1 (fun node cells => do
        let v ← nodeAverage g fe q.1 alpha node cells
        let e ← errorNorm? (f.node node) v
        pure (some [e])) (some 0)
      pure (acc.1.set (q.1 ++ "_error") d, acc.2)) ([], [])
  let cells ← selectCells (fun c => c.dimension == g.dimension) g.cells
  let con ← connectivity cells
  cellType g.dimension
  meshio g.nPoints ⟨data.1, data.2, con⟩

/-- solution_post_processor.py:406-429 `write_vtk_file_exact_solution` -/
noncomputable def writeExactOnly (g : VMesh) (fields : Dict String Nat) (functions : Dict String Exact) :
    Res File := do
  let data ← fields.foldlM (fun acc q => do
    let f ← functions.getItem q.1
    let d ← mapRes (fun i => assignRow q.2 ((f.node i).ravel.map some)) (List.range g.nPoints)
    pure (Dict.set acc (q.1 ++ "_e") d)) ([] : Dict String (List (List (Option ℝ))))
  let cells ← selectCells (fun c => c.dimension == g.dimension) g.cells
  let con ← connectivity cells
  cellType g.dimension
  meshio g.nPoints ⟨data, [], con⟩

end Verif.Vtk
