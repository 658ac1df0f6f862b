/-
Model of `DoFMap` (src/spaces/dof_map.py).

The reference element is an opaque basix object; the only attribute read is
`num_entity_dofs`, a list (one entry per dimension) of lists (one entry per sub-entity).
-/
import Verif.Model.MeshGraph

namespace Verif.Dof
open MeshBuild MeshGraph

/-- `int(np.mean(l))`: the mean of an empty list is NaN, whose conversion raises. -/
def intMean (l : List Nat) : Res Nat :=
  if l = [] then .error .valueError else .ok (l.sum / l.length)

/-- `np.split(a, k)` with an integer `k ≥ 1`: `k` equal pieces, else `ValueError`
(`k = 0` divides by zero; never reached because of the `len(ids) != 0` tests). -/
def npSplit (a : List Nat) (k : Nat) : Res (List (List Nat)) :=
  if a.length % k ≠ 0 then .error .valueError
  else .ok ((List.range k).map fun i => (a.drop (i * (a.length / k))).take (a.length / k))

/-- The attributes of `DoFMap`. -/
structure DoFMap where
  topology : Topology
  numEntityDofs : List (List Nat)
  vertexMap : Dict Nat (List Nat)
  edgeMap : Dict Nat (List Nat)
  faceMap : Dict Nat (List Nat)
  volumeMap : Dict Nat (List Nat)
  nDof : Nat
  dimension : Nat

/-- dof_map.py:6-27 `__init__` -/
def DoFMap.new (t : Topology) (numEntityDofs : List (List Nat)) : DoFMap :=
  ⟨t, numEntityDofs, [], [], [], [], 0, t.mesh.dimension⟩

/-- dof_map.py:29-36 `set_topological_dimension`.  The message `"... is " % dimension` has no
conversion specifier, so that building it raises `TypeError` instead of the intended
`ValueError`. -/
def DoFMap.setTopologicalDimension (m : DoFMap) (d : Nat) : Res DoFMap :=
  if m.topology.mesh.dimension < d then .error .typeError
  else .ok { m with dimension := d }

/-- dof_map.py:41-61: the ids of the entities, by dimension; same `TypeError` remark for the last
branch. -/
def entityIdLists (t : Topology) : Nat → Res (List Nat × List Nat × List Nat × List Nat)
  | 0 => do
    let v ← t.entitiesByDimension 0
    pure (v, [], [], [])
  | 1 => do
    let v ← t.entitiesByDimension 0
    let e ← t.entitiesByDimension 1
    pure (v, e, [], [])
  | 2 => do
    let v ← t.entitiesByDimension 0
    let e ← t.entitiesByDimension 1
    let f ← t.entitiesByDimension 2
    pure (v, e, f, [])
  | 3 => do
    let v ← t.entitiesByDimension 0
    let e ← t.entitiesByDimension 1
    let f ← t.entitiesByDimension 2
    let c ← t.entitiesByDimension 3
    pure (v, e, f, c)
  | _ => .error .typeError

/-- dof_map.py:68-71: `entity_support[dim] *= int(np.mean(n_entity_dofs)) * n_components`, from
position `d` on. -/
def scaleSupport (nComp : Nat) : Nat → List (List Nat) → List Nat → Res (List Nat)
  | _, [], sup => .ok sup
  | d, n :: ns, sup => do
    let e ← intMean n
    let s ← getIdx sup d
    scaleSupport nComp (d + 1) ns (sup.set d (s * (e * nComp)))

/-- `dict(zip(ids, np.split(np.array(range(b, e)), len(ids))))` unless `ids` is empty, in which
case the old map is kept (dof_map.py:86-128). -/
def entityMap (old : Dict Nat (List Nat)) (ids : List Nat) (b e : Nat) :
    Res (Dict Nat (List Nat)) :=
  if ids.length ≠ 0 then do
    let parts ← npSplit (List.range' b (e - b)) ids.length
    pure (Dict.ofList (ids.zip parts))
  else .ok old

/-- dof_map.py:38-129 `build_entity_maps` -/
def DoFMap.buildEntityMaps (m : DoFMap) (nComp shift : Nat) : Res DoFMap := do
  let (v, e, f, c) ← entityIdLists m.topology m.dimension
  let sup ← scaleSupport nComp 0 m.numEntityDofs [v.length, e.length, f.length, c.length]
  let s0 ← getIdx sup 0
  let s1 ← getIdx sup 1
  let s2 ← getIdx sup 2
  let s3 ← getIdx sup 3
  let g0 := shift
  let g1 := g0 + s0
  let g2 := g1 + s1
  let g3 := g2 + s2
  let g4 := g3 + s3
  let vm ← entityMap m.vertexMap v g0 g1
  let em ← entityMap m.edgeMap e g1 g2
  let fm ← entityMap m.faceMap f g2 g3
  let cm ← entityMap m.volumeMap c g3 g4
  pure { m with vertexMap := vm, edgeMap := em, faceMap := fm, volumeMap := cm,
                nDof := s0 + s1 + s2 + s3 }

/-- dof_map.py:136 `entity_maps` -/
def DoFMap.entityMaps (m : DoFMap) : List (Dict Nat (List Nat)) :=
  [m.vertexMap, m.edgeMap, m.faceMap, m.volumeMap]

/-- `np.array([entity_maps[d].get(i) for i in ids], dtype=int).ravel()`: a list of `None` raises
`TypeError`, mixed with (or only) arrays of unequal length raises `ValueError`. -/
def gatherDofs (maps : List (Dict Nat (List Nat))) (d : Nat) (ids : List Nat) :
    Res (List Nat) := do
  let got ← mapRes (fun i => do
    let mp ← getIdx maps d
    pure (mp.get? i)) ids
  match got with
  | [] => .ok []
  | none :: rest =>
    if rest.all Option.isNone then .error .typeError else .error .valueError
  | some a :: rest =>
    if rest.all (fun o => o.any fun b => b.length == a.length) then
      .ok (a ++ (rest.map (·.getD [])).flatten)
    else .error .valueError

/-- dof_map.py:134-146 `destination_indices` -/
def DoFMap.destinationIndices (m : DoFMap) (cellId : Nat) : Res (List Nat) := do
  let cell ← cellAt m.topology.mesh.cells cellId
  let parts ← mapRes (fun d => do
    let g ← m.topology.entityMapByDimension d
    let sup ← g.successors (cell.dimension, cell.id)
    gatherDofs m.entityMaps d (sup.map Prod.snd)) (List.range (m.dimension + 1))
  pure parts.flatten

/-- dof_map.py:148-170 `bc_destination_indices`; `np.concatenate` of an empty list raises. -/
def DoFMap.bcDestinationIndices (m : DoFMap) (cellId bcCellId : Nat) : Res (List Nat) := do
  let cell ← cellAt m.topology.mesh.cells cellId
  let bcCell ← cellAt m.topology.mesh.cells bcCellId
  let parts ← mapRes (fun d => do
    let g ← m.topology.entityMapByDimension d
    let sup ← g.successors (cell.dimension, cell.id)
    let bcIds ← Cell.subIds bcCell d
    let filtered := bcIds.filter fun i => (d, i) ∈ sup
    let ned ← getIdx m.numEntityDofs d
    let e ← intMean ned
    gatherDofs m.entityMaps d (if e = 0 then [] else filtered)) (List.range m.dimension)
  if parts.length = 0 then throw .valueError
  pure parts.flatten

/-- discrete_space.py:25 and 63-91: a topology is built on the tags and a new `DoFMap` with the
given reference element is set up on it.  (`_build_dof_map` always uses shift 0.) -/
def buildSpaceDofs (mesh : Mesh) (dim : Nat) (tags : List (Option Int))
    (ned : List (List Nat)) (nComp shift : Nat) : Res DoFMap := do
  let t ← Topology.new mesh dim
  let t ← t.buildDataOnTags tags
  let m ← (DoFMap.new t ned).setTopologicalDimension dim
  m.buildEntityMaps nComp shift

end Verif.Dof
