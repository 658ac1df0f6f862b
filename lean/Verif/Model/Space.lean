/-
Model of `DiscreteSpace` (src/spaces/discrete_space.py), of the parts of `FiniteElement`
(src/basis/finite_element.py:11-150) executed on construction, and of `ProductSpace`
(src/spaces/product_space.py).

basix is a parameter: `basix.create_element(family, celltype, degree, ..., discontinuous)` either
raises or gives an element, of which only `num_entity_dofs` is kept.  Quadrature and
integration orders, timing and printing are left out; they do not influence what is modelled.
-/
import Verif.Model.DofMap

namespace Verif.Space
open MeshBuild MeshGraph Dof

/-- The basix families in use. -/
inductive Family where
  | P | BDM | RT | N1E
  deriving DecidableEq, Repr

/-- element_family.py:4-12 `family_by_name`; note that "N2E" is mapped to `N1E`. -/
def familyByName (s : String) : Res Family :=
  if s = "Lagrange" then .ok .P
  else if s = "BDM" then .ok .BDM
  else if s = "RT" then .ok .RT
  else if s = "N1E" then .ok .N1E
  else if s = "N2E" then .ok .N1E
  else .error .keyError

/-- discrete_space.py:38-49 and finite_element.py:25-36 `family` (for the dimension of the space,
respectively of the cell). -/
def effFamily (dimension : Nat) (generator : Family) : Family :=
  if (dimension = 1 ∧ generator ∈ [Family.RT, .BDM, .N1E, .N1E]) ∨ dimension = 0 then .P
  else generator

/-- `basix.create_element(family, type_by_dimension(dim), degree, ..., discontinuous)`, followed
by `.num_entity_dofs` -/
abbrev Basix := Family → Nat → Int → Bool → Res (List (List Nat))

/-- element_type.py:4-11 `type_by_dimension` -/
def typeByDimension (d : Nat) : Res Nat := if d ≤ 3 then .ok d else .error .keyError

/-- The attributes of a `FiniteElement` kept. -/
structure Element where
  cell : Cell
  family : Family
  kOrder : Int
  discontinuous : Bool
  ned : List (List Nat)
  bcEntities : List Bool
  deriving DecidableEq, Repr

/-- finite_element.py:109-116; `sub_cells_ids[-1]` for points is the last list. -/
def bcEntitiesOf (cells : Cells) (c : Cell) : Res (List Bool) := do
  let ids ← if c.dimension = 0 then
      (match c.sub.getLast? with | some l => .ok l | none => .error .indexError)
    else Cell.subIds c (c.dimension - 1)
  mapRes (fun id => do
    let s ← cellAt cells id
    pure s.material.isSome) ids

/-- finite_element.py:12-100 construction of a `FiniteElement` -/
def makeElement (basix : Basix) (cells : Cells) (family : Family) (k : Int) (disc : Bool)
    (cellId : Nat) : Res Element := do
  let c ← cellAt cells cellId
  let fam := effFamily c.dimension family
  let ty ← typeByDimension c.dimension
  let ned ← basix fam ty k disc
  let bc ← bcEntitiesOf cells c
  pure ⟨c, fam, k, disc, ned, bc⟩

/-- The attributes of `DiscreteSpace`. -/
structure Space where
  mesh : Mesh
  topology : Topology
  dimension : Nat
  nComp : Nat
  generator : Family
  kOrder : Int
  discontinuous : Bool
  dofMap : Option DoFMap
  elements : List Element
  elementIds : List Nat
  idToElement : Dict Nat Nat
  bcElements : List Element
  bcElementIds : List Nat
  idToBcElement : Dict Nat Nat

/-- discrete_space.py:16-36 `__init__` -/
def Space.new (dimension nComp : Nat) (family : String) (k : Int) (mesh : Mesh) : Res Space := do
  let fam ← familyByName family
  let t ← Topology.new mesh dimension
  pure ⟨mesh, t, dimension, nComp, fam, k, false, none, [], [], [], [], [], []⟩

/-- discrete_space.py:66-100 `_build_dof_map` (with shift 0) -/
def Space.buildDofMap (basix : Basix) (s : Space) (tags : List (Option Int)) : Res Space := do
  let t ← s.topology.buildDataOnTags tags
  let ty ← typeByDimension s.dimension
  let ned ← basix (effFamily s.dimension s.generator) ty s.kOrder s.discontinuous
  let m ← (DoFMap.new t ned).setTopologicalDimension s.dimension
  let m ← m.buildEntityMaps s.nComp 0
  pure { s with topology := t, dofMap := some m }

/-- `dict(zip(ids, range(len(ids))))` -/
def positions (ids : List Nat) : Dict Nat Nat := Dict.ofList (ids.zip (List.range ids.length))

/-- discrete_space.py:102-161 `_build_elements` -/
def Space.buildElements (basix : Basix) (s : Space) : Res Space := do
  let ids ← s.topology.entitiesByDimension s.dimension
  let els ← mapRes (makeElement basix s.mesh.cells s.generator s.kOrder s.discontinuous) ids
  pure { s with elementIds := ids, elements := els, idToElement := positions ids }

/-- discrete_space.py:57-59 `build_structures` -/
def Space.buildStructures (basix : Basix) (s : Space) (tags : List (Option Int)) : Res Space := do
  let s ← s.buildDofMap basix tags
  s.buildElements basix

/-- discrete_space.py:177-194: family, order and continuity of the boundary elements. -/
def bcChoice (dimension : Nat) (generator : Family) (k : Int) (disc : Bool) :
    Family × Int × Bool :=
  let family := effFamily dimension generator
  let (fam, ord) :=
    if (dimension : Int) - 1 < 2 then
      (Family.P, if (dimension : Int) - 1 < 1 then 0 else k)
    else (family, k)
  let (fam, ord, dis) := if Family.BDM = family then (.P, k, true) else (fam, ord, disc)
  if Family.RT = family then (.P, k - 1, true) else (fam, ord, dis)

/-- discrete_space.py:163-212 `_build_bc_elements`; for a space of dimension 0 the key -1 is
looked up. -/
def Space.buildBcElements (basix : Basix) (s : Space) (bTags : List (Option Int)) :
    Res Space := do
  if s.dimension = 0 then throw .keyError
  let all ← s.topology.entitiesByDimension (s.dimension - 1)
  let keep ← mapRes (fun id => do
    let c ← cellAt s.mesh.cells id
    pure (bTags.contains c.material)) all
  let ids := ((all.zip keep).filter (·.2)).map Prod.fst
  let (fam, ord, dis) := bcChoice s.dimension s.generator s.kOrder s.discontinuous
  let els ← mapRes (makeElement basix s.mesh.cells fam ord dis) ids
  pure { s with bcElementIds := ids, bcElements := els, idToBcElement := positions ids }

/-- discrete_space.py:61-64 `build_boundary_structures` -/
def Space.buildBoundaryStructures (basix : Basix) (s : Space) (bTags : List (Option Int)) :
    Res Space :=
  if bTags.length = 0 then .ok s else s.buildBcElements basix bTags

/-! ### ProductSpace -/

/-- The attributes of `ProductSpace` kept; `spaces` is a dict keyed by field name. -/
structure Product where
  spaces : Dict String Space
  dofs : Dict String Nat
  nDof : Nat
  dofShift : Nat

/-- The value of a `discrete_spaces_data` entry: dimension, components, family, order, mesh. -/
structure FieldData where
  dimension : Nat
  nComp : Nat
  family : String
  kOrder : Int
  mesh : Mesh

/-- product_space.py:51-66 `_define_discrete_spaces` -/
def newFields : Dict String FieldData → Res (Dict String Space)
  | [] => .ok []
  | (name, f) :: rest => do
    let s ← Space.new f.dimension f.nComp f.family f.kOrder f.mesh
    let r ← newFields rest
    pure ((name, s) :: r)

/-- product_space.py:11-15 `__init__`.  The quadrature rules of lines 24-49 are only made, not
kept here: there must be a field (`np.max`), all dimensions must be known
(`type_by_dimension`), and a field of dimension 0 asks for the rule of dimension -1. -/
def Product.new (data : Dict String FieldData) : Res Product :=
  if data.length = 0 then .error .valueError
  else if data.any (fun p => decide (3 < p.2.dimension)) then .error .keyError
  else if data.any (fun p => decide (p.2.dimension = 0)) then .error .keyError
  else do
    let spaces ← newFields data
    pure ⟨spaces, [], 0, 0⟩

/-- product_space.py:106-110 `make_subspaces_discontinuous` (discrete_space.py:54-55) -/
def Product.makeDiscontinuous (p : Product) (disc : Dict String Bool) : Product :=
  { p with spaces := p.spaces.map fun q =>
      (q.1, if (disc.get? q.1).getD false then { q.2 with discontinuous := true } else q.2) }

/-- A Python value offered as `dof_shift`: an integer (`int`, `np.integer`, and also `bool`), or
anything else. -/
inductive PyVal where
  | int (n : Int)
  | other

/-- product_space.py:89-96 `dof_shift` setter -/
def Product.setDofShift (p : Product) : PyVal → Res Product
  | .other => .error .typeError
  | .int n => if n < 0 then .error .valueError else .ok { p with dofShift := n.toNat }

/-- The dof map of a space whose structures were built (`AttributeError` otherwise). -/
def Space.getDofMap (s : Space) : Res DoFMap :=
  match s.dofMap with
  | some m => .ok m
  | none => .error .attributeError

/-- product_space.py:70-76 -/
def dofNumbers : Dict String Space → Res (Dict String Nat)
  | [] => .ok []
  | (name, s) :: rest => do
    let m ← s.getDofMap
    let r ← dofNumbers rest
    pure ((name, m.nDof) :: r)

/-- product_space.py:112-119: the structures of every field; defaults `[None]` and `[]`. -/
def buildFields (basix : Basix) (tags bTags : Dict String (List (Option Int))) :
    Dict String Space → Res (Dict String Space)
  | [] => .ok []
  | (name, s) :: rest => do
    let s ← s.buildStructures basix ((tags.get? name).getD [none])
    let s ← s.buildBoundaryStructures basix ((bTags.get? name).getD [])
    let r ← buildFields basix tags bTags rest
    pure ((name, s) :: r)

/-- product_space.py:112-122 `build_structures` -/
def Product.buildStructures (basix : Basix) (p : Product)
    (tags bTags : Dict String (List (Option Int))) : Res Product := do
  let spaces ← buildFields basix tags bTags p.spaces
  let dofs ← dofNumbers spaces
  pure { p with spaces := spaces, dofs := dofs, nDof := dofs.values.sum }

/-- product_space.py:124-129 -/
def retrieveDest (s : Space) (cellIndex : Nat) : Res (List Nat) := do
  let el ← getIdx s.elements cellIndex
  let m ← s.getDofMap
  m.destinationIndices el.cell.id

/-- product_space.py:131-145 -/
def retrieveBcDest (s : Space) (cellIndex : Nat) : Res (List Nat) := do
  let el ← getIdx s.bcElements cellIndex
  let m ← s.getDofMap
  let g ← m.topology.entityMapByDimension el.cell.dimension
  let neighs ← g.predecessors (el.cell.dimension, el.cell.id)
  match neighs with
  | [] => .error .assertionError
  | n :: _ => m.bcDestinationIndices n.2 el.cell.id

/-- `np.add.accumulate([0, *dofs])` -/
def strides (dofs : List Nat) : List Nat := dofs.scanl (· + ·) 0

/-- product_space.py:152-160 and 177-189: loop over the fields from position `i` on. -/
def fieldDests (retrieve : Space → Res (List Nat)) (skip : Space → Bool) (shift : Nat)
    (strides : List Nat) : Nat → Dict String Space → Res (Dict String (List Nat))
  | _, [] => .ok []
  | i, (name, s) :: rest =>
    if skip s then fieldDests retrieve skip shift strides (i + 1) rest
    else do
      let stride ← getIdx strides i
      let d ← retrieve s
      let r ← fieldDests retrieve skip shift strides (i + 1) rest
      pure ((name, d.map (fun x => x + stride + shift)) :: r)

/-- product_space.py:147-162 `discrete_spaces_destination_indexes` -/
def Product.spacesDest (p : Product) (cellIndex : Nat) : Res (Dict String (List Nat)) :=
  fieldDests (retrieveDest · cellIndex) (fun _ => false) p.dofShift (strides p.dofs.values) 0
    p.spaces

/-- product_space.py:172-191 `discrete_spaces_bc_destination_indexes` -/
def Product.spacesBcDest (p : Product) (cellIndex : Nat) : Res (Dict String (List Nat)) :=
  fieldDests (retrieveBcDest · cellIndex) (fun s => s.bcElements.length == 0) p.dofShift
    (strides p.dofs.values) 0 p.spaces

/-- `np.concatenate(list(d.values()))`, or `d[field_name]` (product_space.py:164-170, 193-201) -/
def pickField (d : Dict String (List Nat)) (field : Option String) : Res (List Nat) :=
  match field with
  | none => if d.values.length = 0 then .error .valueError else .ok d.values.flatten
  | some f => d.getItem f

/-- product_space.py:164-170 `destination_indexes` -/
def Product.destinationIndexes (p : Product) (cellIndex : Nat) (field : Option String) :
    Res (List Nat) := do
  let d ← p.spacesDest cellIndex
  pickField d field

/-- product_space.py:193-201 `bc_destination_indexes` -/
def Product.bcDestinationIndexes (p : Product) (cellIndex : Nat) (field : Option String) :
    Res (List Nat) := do
  let d ← p.spacesBcDest cellIndex
  pickField d field

end Verif.Space
