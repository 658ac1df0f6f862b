/-
Model of the data kept by a finite element: the classes of src/basis/element_data.py, the methods
of `FiniteElement` that write to them (src/basis/finite_element.py:98-153) and `store_mapping`
(src/geometry/mapping.py:58-65).

Simplifications
* Attributes are `none` while unset; `none` for points and weights of the quadrature stands for
  the empty arrays of the constructor.  Methods give the data afterwards and what they return or raise.
* Points (`π`), values of the linear shapes (`φ`), geometry (`γ`, the tuple `x, jac, det_jac,
  inv_jac`), weights (`ω`) are of any types; `shapes` is `evaluate_linear_shapes` for the cell of
  the element, and `mapping` is `evaluate_mapping` with the points of this cell, which may raise.
  On points the shapes are not evaluated and `pointMapping` is the result.
* A class method reads the attributes of the class, `classAttrs`.
-/
import Verif.Prelude

namespace Verif.ElementData

/-- The classes of the file -/
inductive Cls where
  | quadrature | mapping | dof | bcEntities | basis | element
  deriving DecidableEq, Repr

/-- The names in the body of each class -/
def classAttrs : Cls → List String := fun _ => ["__init__", "copy"]

/-- What `copy` reads of its first argument, in this order (element_data.py:15-19, 38-46, 73-86,
97-100, 111-114, 127-135) -/
def copyReads : Cls → List String
  | .quadrature => ["points", "weights"]
  | .mapping => ["phi"]
  | .dof => ["n_dof", "entity_dofs", "transformations_are_identity", "transformations",
      "num_entity_dofs"]
  | .bcEntities => []
  | .basis => []
  | .element => ["quadrature", "mapping", "dof", "basis"]

/-- The number of positional arguments `copy` passes to the constructor -/
def copyArgs : Cls → Nat
  | .quadrature => 2
  | .mapping => 6
  | .dof => 5
  | .bcEntities => 1
  | .basis => 1
  | .element => 6

/-- The number of arguments the constructor takes -/
def initArgs : Cls → Nat
  | .quadrature => 2
  | .mapping => 5
  | .dof => 5
  | .bcEntities => 1
  | .basis => 1
  | .element => 2

/-- The attributes an object has after its constructor (element_data.py:8-13, 23-36, 50-71, 90-95,
104-109, 118-125); the constructor of the mapping assigns local variables only. -/
def initAttrs : Cls → List String
  | .quadrature => ["points", "weights"]
  | .mapping => []
  | .dof => ["n_dof", "entity_dofs", "transformations_are_identity", "transformations",
      "num_entity_dofs"]
  | .bcEntities => ["bc_entities"]
  | .basis => ["phi"]
  | .element => ["cell", "mesh", "quadrature", "mapping", "dof", "bc_entities", "basis"]

/-- Reading attributes one after the other -/
def readAll (attrs : List String) : List String → Res Unit
  | [] => .ok ()
  | a :: t => if a ∈ attrs then readAll attrs t else .error .attributeError

/-- `copy` of a class whose own attributes are `attrs`: the attributes of the object returned.  (The
copies of the parts of an element are not followed.) -/
def copyWith (attrs : List String) (c : Cls) : Res (List String) := do
  readAll attrs (copyReads c)
  if copyArgs c ≤ initArgs c then pure (initAttrs c) else throw .typeError

/-- `copy` -/
def copy (c : Cls) : Res (List String) := copyWith (classAttrs c) c

variable {π φ γ ω : Type}

/-- The attributes of `MappingData`; `geo` are the four attributes always set together. -/
structure MapData (π φ γ : Type) where
  phi : Option φ := none
  geo : Option γ := none
  cellPoints : Option π := none

/-- The data of an element -/
structure Data (π φ γ ω : Type) where
  points : Option π := none
  weights : Option ω := none
  map : MapData π φ γ := {}
  nDof : Nat := 0
  numEntityDofs : List (List Nat) := []
  order : Int := 0

/-- finite_element.py:121-123 `_set_integration_order` -/
def setOrder (k : Int) (d : Data π φ γ ω) : Data π φ γ ω :=
  if d.order = 0 then { d with order := 2 * k + 1 } else d

/-- finite_element.py:102-110 `_fill_element_dof_data` -/
def fillDof (ned : List (List Nat)) (d : Data π φ γ ω) : Data π φ γ ω :=
  { d with numEntityDofs := ned, nDof := ned.foldl (fun n l => n + l.sum) d.nDof }

/-- finite_element.py:98-100 `_fill_element_quadratue` -/
def fillQuadrature (q : π × ω) (d : Data π φ γ ω) : Data π φ γ ω :=
  { d with points := some q.1, weights := some q.2 }

/-- finite_element.py:12-22, 38-42, 92-93: the data after the construction of an element -/
def construct (k order : Int) (ned : List (List Nat)) : Data π φ γ ω :=
  fillDof ned (setOrder k { order := order })

/-- The geometry of one element: dimension, shapes, mapping, mapping on points. -/
structure Geometry (π φ γ : Type) where
  dimension : Nat
  shapes : π → φ
  mapping : φ → Res γ
  pointMapping : γ

/-- finite_element.py:128-153 `evaluate_mapping` -/
def evaluateMapping (g : Geometry π φ γ) (points : π) (storage : Bool) (d : Data π φ γ ω) :
    Data π φ γ ω × Res γ :=
  if g.dimension = 0 then
    (if storage then { d with map := { d.map with geo := some g.pointMapping } } else d,
      .ok g.pointMapping)
  else
    let phi := g.shapes points
    let d := { d with map := { d.map with phi := some phi } }
    match g.mapping phi with
    | .error e => (d, .error e)
    | .ok r => (if storage then { d with map := { d.map with geo := some r } } else d, .ok r)

/-- finite_element.py:125-126 `storage_basis`; `evaluate_basis` has no parameter `storage` and
needs three more. -/
def storageBasis (d : Data π φ γ ω) : Data π φ γ ω × Res Unit := (d, .error .typeError)

/-- mapping.py:58-65 `store_mapping`; `mapping` is called with the points kept. -/
def storeMapping (mapping : φ → π → Res γ) (d : Data π φ γ ω) : Data π φ γ ω × Res Unit :=
  match d.map.phi with
  | none => (d, .error .attributeError)
  | some phi =>
    match d.map.cellPoints with
    | none => (d, .error .attributeError)
    | some pts =>
      match mapping phi pts with
      | .error e => (d, .error e)
      | .ok r => ({ d with map := { d.map with geo := some r } }, .ok ())

/-- The calls that write to the data of an element -/
inductive Call (π ω : Type) where
  | mapping (points : π) (storage : Bool)
  | quadrature (q : π × ω)
  | dofs
  | basis
  | store

/-- One call -/
def call (g : Geometry π φ γ) (mapping : φ → π → Res γ) (ned : List (List Nat)) (d : Data π φ γ ω) :
    Call π ω → Data π φ γ ω
  | .mapping p s => (evaluateMapping g p s d).1
  | .quadrature q => fillQuadrature q d
  | .dofs => fillDof ned d
  | .basis => (storageBasis d).1
  | .store => (storeMapping mapping d).1

/-- A sequence of calls whose exceptions are caught by the caller -/
def run (g : Geometry π φ γ) (mapping : φ → π → Res γ) (ned : List (List Nat)) (d : Data π φ γ ω)
    (calls : List (Call π ω)) : Data π φ γ ω :=
  calls.foldl (call g mapping ned) d

end Verif.ElementData
